import Verif.Pairing.Model
import Mathlib.Tactic.Linarith
import Mathlib.Tactic.NormNum
import Mathlib.Tactic.Ring
/-! Arithmetic of triangular numbers and real floors. -/
namespace Verif.Pairing

theorem floorW_eq (z w t : Int) (hw : 0 ≤ w) (ht : 2 * t = w * w + w) (h1 : t ≤ z)
    (h2 : z < t + w + 1) : floorW z = w := by
  unfold floorW
  rw [Int.floor_eq_iff]
  have hwr : (0 : ℝ) ≤ w := by exact_mod_cast hw
  have htr : (2 : ℝ) * t = w * w + w := by exact_mod_cast ht
  have h1r : (t : ℝ) ≤ z := by exact_mod_cast h1
  have h2r : (z : ℝ) < t + w + 1 := by exact_mod_cast h2
  have lo : (2 * (w : ℝ) + 1) ≤ Real.sqrt (8.0 * z + 1.0) := by
    apply Real.le_sqrt_of_sq_le
    norm_num
    nlinarith
  have hi : Real.sqrt (8.0 * z + 1.0) < 2 * (w : ℝ) + 3 := by
    rw [Real.sqrt_lt' (by linarith)]
    norm_num
    nlinarith
  constructor
  · norm_num at *; linarith
  · norm_num at *; linarith

theorem floor_sqrt_eq (z t : Int) (ht : 0 ≤ t) (h1 : t * t ≤ z) (h2 : z < (t + 1) * (t + 1)) :
    ⌊Real.sqrt (z : ℝ)⌋ = t := by
  rw [Int.floor_eq_iff]
  have htr : (0 : ℝ) ≤ t := by exact_mod_cast ht
  constructor
  · apply Real.le_sqrt_of_sq_le
    rw [pow_two]; exact_mod_cast h1
  · rw [Real.sqrt_lt' (by linarith), pow_two]; exact_mod_cast h2

theorem tdiv_of_eq (a t d : Int) (hd : d ≠ 0) (h : a = d * t) : a.tdiv d = t := by
  subst h; exact Int.mul_tdiv_cancel_left _ hd

theorem tri (w : Int) : ∃ t, 2 * t = w * w + w := by
  obtain ⟨t, ht⟩ := Int.even_mul_succ_self w
  exact ⟨t, by linarith [ht, mul_add w w 1]⟩

/-- every natural lies in a triangular interval -/
theorem tri_interval (z : Int) (hz : 0 ≤ z) :
    ∃ w t : Int, 0 ≤ w ∧ 2 * t = w * w + w ∧ t ≤ z ∧ z < t + w + 1 := by
  obtain ⟨n, rfl⟩ := Int.eq_ofNat_of_zero_le hz
  induction n with
  | zero => exact ⟨0, 0, by norm_num, by norm_num, by norm_num, by norm_num⟩
  | succ n ih =>
    obtain ⟨w, t, h0, h1, h2, h3⟩ := ih (by omega)
    by_cases h : ((n + 1 : Nat) : Int) < t + w + 1
    · exact ⟨w, t, h0, h1, by omega, h⟩
    · refine ⟨w + 1, t + w + 1, by omega, by nlinarith, by omega, by omega⟩

/-- cantor value in terms of the triangular number -/
theorem cantor_val (a b t : Int) (ht : 2 * t = (a + b) * (a + b) + (a + b)) :
    ((a + b) * ((a + b) + 1)).tdiv 2 = t := tdiv_of_eq _ _ _ (by norm_num) (by rw [ht]; ring)

theorem invert_core (a b : Int) (ha : 0 ≤ a) (hb : 0 ≤ b) (t : Int)
    (ht : 2 * t = (a + b) * (a + b) + (a + b)) : floorW (t + b) = a + b :=
  floorW_eq (t + b) (a + b) t (by omega) ht (by omega) (by omega)

theorem sgnAccent_pos (n : Int) (h : 0 < n) : sgnAccent n = 1 := by
  unfold sgnAccent; rw [Int.sign_eq_one_of_pos h]; decide

theorem sgnAccent_nonpos (n : Int) (h : n ≤ 0) : sgnAccent n = 0 := by
  unfold sgnAccent
  rcases Int.lt_or_eq_of_le h with h | h
  · rw [Int.sign_eq_neg_one_of_neg h]; decide
  · subst h; decide

/-- Xie value for `m ≥ n ≥ 1`, even and odd sum. -/
theorem xie_val_even (m n k : Int) (h : m ≥ n) (hk : m + n - 1 = 2 * k) :
    ((m + n - 1) * (m + n - 1) - (m + n - 1) % 2).tdiv 4 + (m + n - |m - n|).tdiv 2 = k * k + n := by
  have h1 : (m + n - 1) % 2 = 0 := by omega
  rw [h1, abs_of_nonneg (by omega), tdiv_of_eq _ n 2 (by norm_num) (by ring),
    tdiv_of_eq _ (k * k) 4 (by norm_num) (by rw [hk]; ring)]

theorem xie_val_odd (m n k : Int) (h : m ≥ n) (hk : m + n - 1 = 2 * k + 1) :
    ((m + n - 1) * (m + n - 1) - (m + n - 1) % 2).tdiv 4 + (m + n - |m - n|).tdiv 2
      = k * k + k + n := by
  have h1 : (m + n - 1) % 2 = 1 := by omega
  rw [h1, abs_of_nonneg (by omega), tdiv_of_eq _ n 2 (by norm_num) (by ring),
    tdiv_of_eq _ (k * k + k) 4 (by norm_num) (by rw [hk]; ring)]

end Verif.Pairing
