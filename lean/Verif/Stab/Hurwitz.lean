import Mathlib.Analysis.Polynomial.Factorization
import Mathlib.Analysis.Real.Sqrt
import Mathlib.Tactic.Ring
import Mathlib.Tactic.Linarith
import Mathlib.Tactic.LinearCombination
import Mathlib.Tactic.ComputeDegree
/-!
# Routh–Hurwitz for real cubics and quartics
-/
namespace Verif.Stab
open Polynomial

/-- A real monic quartic is a product of two real monic quadratics. -/
theorem quartic_factor (a1 a2 a3 a4 : ℝ) : ∃ b c d e : ℝ,
    a1 = b + d ∧ a2 = c + e + b * d ∧ a3 = b * e + c * d ∧ a4 = c * e := by
  have hf : IsMonicOfDegree (X ^ 4 + C a1 * X ^ 3 + C a2 * X ^ 2 + C a3 * X + C a4 : ℝ[X]) (2 + 2) := by
    constructor
    · compute_degree!
    · monicity!
  obtain ⟨f1, f2, h1, h2, h⟩ := hf.eq_isMonicOfDegree_two_mul_isMonicOfDegree
  obtain ⟨b, c, rfl⟩ := isMonicOfDegree_two_iff.mp h1
  obtain ⟨d, e, rfl⟩ := isMonicOfDegree_two_iff.mp h2
  have e0 := congrArg (eval 0) h
  have e1 := congrArg (eval 1) h
  have e2 := congrArg (eval (-1)) h
  have e3 := congrArg (eval 2) h
  simp only [eval_add, eval_mul, eval_pow, eval_X, eval_C] at e0 e1 e2 e3
  refine ⟨b, c, d, e, ?_, ?_, ?_, ?_⟩ <;> linarith

/-- A real monic cubic has a real root. -/
theorem cubic_factor (a1 a2 a3 : ℝ) : ∃ b c d : ℝ,
    a1 = b + d ∧ a2 = c + b * d ∧ a3 = c * d := by
  have hf : IsMonicOfDegree (X ^ 3 + C a1 * X ^ 2 + C a2 * X + C a3 : ℝ[X]) (1 + 2) := by
    constructor
    · compute_degree!
    · monicity!
  obtain ⟨f1, f2, h1, h2, h⟩ := hf.eq_isMonicOfDegree_two_mul_isMonicOfDegree
  obtain ⟨b, c, rfl⟩ := isMonicOfDegree_two_iff.mp h1
  obtain ⟨d, rfl⟩ := isMonicOfDegree_one_iff.mp h2
  have e0 := congrArg (eval 0) h
  have e1 := congrArg (eval 1) h
  have e2 := congrArg (eval (-1)) h
  simp only [eval_add, eval_mul, eval_pow, eval_X, eval_C] at e0 e1 e2
  refine ⟨b, c, d, ?_, ?_, ?_⟩ <;> linarith

theorem quadratic_hurwitz (b c : ℝ) :
    (∀ z : ℂ, z ^ 2 + b * z + c = 0 → z.re < 0) ↔ 0 < b ∧ 0 < c := by
  constructor
  · intro h
    rcases le_or_gt 0 (b ^ 2 - 4 * c) with hD | hD
    · have hs := Real.sq_sqrt hD
      have hs0 := Real.sqrt_nonneg (b ^ 2 - 4 * c)
      set s := √(b ^ 2 - 4 * c)
      have := h (((-b + s) / 2 : ℝ) : ℂ) (by
        norm_cast
        linear_combination hs / 4)
      rw [Complex.ofReal_re] at this
      have hbs : s < b := by linarith
      refine ⟨by linarith, ?_⟩
      nlinarith
    · have hD' : 0 ≤ -(b ^ 2 - 4 * c) := by linarith
      have hs := Real.sq_sqrt hD'
      set s := √(-(b ^ 2 - 4 * c))
      have := h ⟨-b / 2, s / 2⟩ (by
        apply Complex.ext
        · simp [pow_two]; linear_combination -hs / 4
        · simp [pow_two]; ring)
      simp only at this
      refine ⟨by linarith, by nlinarith [sq_nonneg b]⟩
  · rintro ⟨hb, hc⟩ z hz
    have h1 := congrArg Complex.re hz
    have h2 := congrArg Complex.im hz
    simp [pow_two] at h1 h2
    by_contra hx
    push Not at hx
    have h3 : z.im * (2 * z.re + b) = 0 := by linarith
    rcases mul_eq_zero.1 h3 with h4 | h4
    · rw [h4] at h1
      nlinarith
    · linarith

theorem quartic_hurwitz (a1 a2 a3 a4 : ℝ) :
    (∀ z : ℂ, z ^ 4 + a1 * z ^ 3 + a2 * z ^ 2 + a3 * z + a4 = 0 → z.re < 0) ↔
      0 < a1 ∧ 0 < a3 ∧ 0 < a4 ∧ 0 < a1 * a2 * a3 - a3 ^ 2 - a1 ^ 2 * a4 := by
  obtain ⟨b, c, d, e, rfl, rfl, rfl, rfl⟩ := quartic_factor a1 a2 a3 a4
  have hfac : ∀ z : ℂ, z ^ 4 + ((b + d : ℝ) : ℂ) * z ^ 3 + ((c + e + b * d : ℝ) : ℂ) * z ^ 2 +
      ((b * e + c * d : ℝ) : ℂ) * z + ((c * e : ℝ) : ℂ) = (z ^ 2 + b * z + c) * (z ^ 2 + d * z + e) := by
    intro z; push_cast; ring
  have hiff : (∀ z : ℂ, z ^ 4 + ((b + d : ℝ) : ℂ) * z ^ 3 + ((c + e + b * d : ℝ) : ℂ) * z ^ 2 +
      ((b * e + c * d : ℝ) : ℂ) * z + ((c * e : ℝ) : ℂ) = 0 → z.re < 0) ↔
      (0 < b ∧ 0 < c) ∧ (0 < d ∧ 0 < e) := by
    rw [← quadratic_hurwitz, ← quadratic_hurwitz]
    constructor
    · intro h
      exact ⟨fun z hz => h z (by rw [hfac, hz, zero_mul]), fun z hz => h z (by rw [hfac, hz, mul_zero])⟩
    · rintro ⟨h1, h2⟩ z hz
      rw [hfac, mul_eq_zero] at hz
      exact hz.elim (h1 z) (h2 z)
  rw [hiff]
  have hΔ : (b + d) * (c + e + b * d) * (b * e + c * d) - (b * e + c * d) ^ 2 - (b + d) ^ 2 * (c * e) =
      b * d * ((c - e) ^ 2 + (b + d) * (b * e + c * d)) := by ring
  rw [hΔ]
  constructor
  · rintro ⟨⟨hb, hc⟩, hd, he⟩
    refine ⟨by positivity, by positivity, by positivity, by positivity⟩
  · rintro ⟨h1, h3, h4, h5⟩
    have hk : 0 < (c - e) ^ 2 + (b + d) * (b * e + c * d) := by positivity
    have hbd : 0 < b * d := (pos_iff_pos_of_mul_pos h5).2 hk
    have hb : 0 < b := by
      by_contra hb
      push Not at hb
      nlinarith
    have hd : 0 < d := (pos_iff_pos_of_mul_pos hbd).1 hb
    have hc : 0 < c := by
      by_contra hc
      push Not at hc
      have : e < 0 := by
        by_contra he
        push Not at he
        nlinarith
      nlinarith
    exact ⟨⟨hb, hc⟩, hd, (pos_iff_pos_of_mul_pos h4).1 hc⟩

theorem cubic_hurwitz (a1 a2 a3 : ℝ) :
    (∀ z : ℂ, z ^ 3 + a1 * z ^ 2 + a2 * z + a3 = 0 → z.re < 0) ↔
      0 < a1 ∧ 0 < a3 ∧ 0 < a1 * a2 - a3 := by
  obtain ⟨b, c, d, rfl, rfl, rfl⟩ := cubic_factor a1 a2 a3
  have hfac : ∀ z : ℂ, z ^ 3 + ((b + d : ℝ) : ℂ) * z ^ 2 + ((c + b * d : ℝ) : ℂ) * z +
      ((c * d : ℝ) : ℂ) = (z ^ 2 + b * z + c) * (z + d) := by
    intro z; push_cast; ring
  have hiff : (∀ z : ℂ, z ^ 3 + ((b + d : ℝ) : ℂ) * z ^ 2 + ((c + b * d : ℝ) : ℂ) * z +
      ((c * d : ℝ) : ℂ) = 0 → z.re < 0) ↔ (0 < b ∧ 0 < c) ∧ 0 < d := by
    rw [← quadratic_hurwitz]
    constructor
    · intro h
      refine ⟨fun z hz => h z (by rw [hfac, hz, zero_mul]), ?_⟩
      have := h ((-d : ℝ) : ℂ) (by rw [hfac]; push_cast; ring)
      rw [Complex.ofReal_re] at this
      linarith
    · rintro ⟨h1, h2⟩ z hz
      rw [hfac, mul_eq_zero] at hz
      refine hz.elim (h1 z) (fun h => ?_)
      have : z.re + d = 0 := by simpa using congrArg Complex.re h
      linarith
  rw [hiff]
  have hΔ : (b + d) * (c + b * d) - c * d = b * (c + d * (b + d)) := by ring
  rw [hΔ]
  constructor
  · rintro ⟨⟨hb, hc⟩, hd⟩
    exact ⟨by positivity, by positivity, by positivity⟩
  · rintro ⟨h1, h3, h5⟩
    have hb : 0 < b := by
      by_contra hb
      push Not at hb
      have hd : 0 < d := by linarith
      have hc : 0 < c := (pos_iff_pos_of_mul_pos h3).2 hd
      have : 0 < c + d * (b + d) := by positivity
      nlinarith
    have hd : 0 < d := by
      by_contra hd
      push Not at hd
      have hc : c < 0 := by
        by_contra hc
        push Not at hc
        nlinarith
      have : c + d * (b + d) < 0 := by nlinarith
      nlinarith
    exact ⟨⟨hb, (pos_iff_pos_of_mul_pos h3).2 hd⟩, hd⟩

end Verif.Stab
