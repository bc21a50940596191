import Verif.NumInt.Spec
import Mathlib.Data.Real.Basic
/-!
# What the claims on rounding mean: rules of integration for real numbers, and the size of their terms
-/
namespace Verif.Round.Spec
open Finset

/-- The size of the terms of the trapezoid rule. -/
noncomputable def trapSize (n : ℕ) (x f : ℕ → ℝ) : ℝ := ∑ i ∈ range (n - 1), |x (i + 1) - x i| * |f i + f (i + 1)| / 2

/-- Simpson's rule with `m` panels of width `2h`. -/
noncomputable def simpsonSum (m : ℕ) (h : ℝ) (f : ℕ → ℝ) : ℝ :=
  ∑ j ∈ range m, h / 3 * (f (2 * j) + 4 * f (2 * j + 1) + f (2 * j + 2))

/-- The trapezoid rule with spacing `h`. -/
noncomputable def trapEven (n : ℕ) (h : ℝ) (f : ℕ → ℝ) : ℝ := ∑ i ∈ range (n - 1), h * (f i + f (i + 1)) / 2

end Verif.Round.Spec
