import Mathlib.Algebra.BigOperators.Group.Finset.Basic
import Mathlib.Algebra.BigOperators.Intervals
import Mathlib.Algebra.Field.Basic
/-! Specification of one-dimensional quadrature, independent of the program model. -/
namespace Verif.NumInt.Spec
open Finset

/-- Sum of the areas of the trapezoids over `n` samples `(x i, f i)`. -/
def trapSum {K : Type} [Field K] (n : Nat) (x f : Nat → K) : K :=
  ∑ i ∈ range (n - 1), (x (i + 1) - x i) * (f i + f (i + 1)) / 2

/-- All consecutive spacings of the first `n` samples are equal. -/
def Equispaced {K : Type} [Field K] (n : Nat) (x : Nat → K) : Prop :=
  ∀ k, k + 1 < n → x (k + 1) - x k = x 1 - x 0

end Verif.NumInt.Spec
