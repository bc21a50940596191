import Mathlib.Algebra.Order.Field.Basic
import Mathlib.Algebra.BigOperators.Group.List.Basic
/-!
# Specification of histograms, independent of the model
-/
namespace Verif.Hist.Spec

variable {K : Type} [Field K] [LinearOrder K]

/-- A bin layout: strictly increasing edges of at least one bin. -/
def Layout (edges : List K) : Prop := edges.Pairwise (· < ·) ∧ 2 ≤ edges.length

/-- The layout covers `x`: some edge is at or below it and some edge is at or above it. -/
def Covers (edges : List K) (x : K) : Prop := (∃ a ∈ edges, a ≤ x) ∧ ∃ b ∈ edges, x ≤ b

/-- `x` belongs to bin `i`: edges `i` and `i+1` enclose it; a shared edge belongs to the bin on its left
and the very first edge to the first bin. -/
def InBin (edges : List K) (i : Nat) (x : K) : Prop :=
  ∃ lo hi, edges[i]? = some lo ∧ edges[i + 1]? = some hi ∧ (lo < x ∧ x ≤ hi ∨ i = 0 ∧ x = lo)

/-- `x` belongs to bin `i` of `n` equal bins of width `w` starting at `mn`: half-open bins, the last one
closed. -/
def InEqBin (mn w : K) (n i : Nat) (x : K) : Prop :=
  i < n ∧ mn + i * w ≤ x ∧ (x < mn + (i + 1) * w ∨ i + 1 = n ∧ x = mn + n * w)

/-- The integral of a piecewise constant function with heights `d` over the bins between `edges`. -/
def integral (d edges : List K) : K :=
  (List.zipWith (fun h p => h * (p.2 - p.1)) d (edges.zip edges.tail)).sum

end Verif.Hist.Spec
