import Verif.Round.Basic
import Mathlib.Data.Int.Log
import Mathlib.Algebra.Order.Round
import Mathlib.Data.Real.Archimedean
import Mathlib.Tactic.FieldSimp
import Mathlib.Tactic.NormNum
/-!
# Rounding to the nearest number with 53 binary digits

The rounding of `double` numbers with an unbounded exponent meets the model of `Verif.Round.Basic` with `u = 2⁻⁵³`.
-/
namespace Verif.Round

noncomputable section

/-- The unit in the last place. -/
def ulp (x : ℝ) : ℝ := (2 : ℝ) ^ (Int.log 2 |x| - 52)

/-- Round to the nearest multiple of the unit in the last place. -/
def flDouble (x : ℝ) : ℝ := round (x / ulp x) * ulp x

theorem flDouble_err (x : ℝ) : |flDouble x - x| ≤ 1 / 2 ^ 53 * |x| := by
  rcases eq_or_ne x 0 with rfl | hx
  · simp [flDouble]
  have hp : 0 < |x| := abs_pos.2 hx
  have hu : 0 < ulp x := by exact zpow_pos (by norm_num) _
  have h1 : flDouble x - x = -(x / ulp x - round (x / ulp x)) * ulp x := by
    unfold flDouble
    field_simp
    ring
  rw [h1, abs_mul, abs_neg, abs_of_pos hu]
  have h2 := abs_sub_round (x / ulp x)
  have h3 : ulp x ≤ |x| / 2 ^ 52 := by
    unfold ulp
    rw [zpow_sub₀ (by norm_num)]
    have := Int.zpow_log_le_self (b := 2) (by norm_num) hp
    push_cast at this
    exact div_le_div_of_nonneg_right this (by positivity)
  calc _ ≤ 1 / 2 * ulp x := mul_le_mul_of_nonneg_right h2 hu.le
    _ ≤ 1 / 2 * (|x| / 2 ^ 52) := mul_le_mul_of_nonneg_left h3 (by norm_num)
    _ = _ := by ring

/-- The rounding of `double` numbers, without overflow and underflow. -/
def double : Rnd where
  u := 1 / 2 ^ 53
  fl := flDouble
  nonneg := by positivity
  err := flDouble_err

/-- It is not the identity: 1/3 is rounded. -/
theorem double_rounds : flDouble (1 / 3) ≠ 1 / 3 := by
  intro h
  have hl : Int.log 2 |(1 / 3 : ℝ)| = -2 := by
    rw [abs_of_pos (by norm_num)]
    refine le_antisymm ?_ ?_
    · rw [← Int.lt_add_one_iff, ← Int.lt_zpow_iff_log_lt (by norm_num) (by norm_num)]; norm_num
    · rw [← Int.zpow_le_iff_le_log (by norm_num) (by norm_num)]; norm_num
  unfold flDouble ulp at h
  rw [hl] at h
  set r := round (1 / 3 / (2 : ℝ) ^ (-2 - 52 : ℤ))
  have h2 : (r : ℝ) * 3 = 2 ^ 54 := by
    have : (2 : ℝ) ^ (-2 - 52 : ℤ) = 1 / 2 ^ 54 := by norm_num
    rw [this] at h
    field_simp at h
    linarith
  have h3 : r * 3 = 2 ^ 54 := by exact_mod_cast h2
  omega

end

end Verif.Round
