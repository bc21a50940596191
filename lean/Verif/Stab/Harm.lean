import Verif.Stab.Stat
namespace Verif.Stab
open Real

theorem isHarmFP_iff {γ k : Fin 2 → ℝ} {δ : ℝ} {x : Fin 3 → ℝ} : IsHarmFP γ k δ x ↔
    0 < x 0 ∧ 0 < x 1 ∧ γ 0 * x 0 + k 0 * x 1 * x 1 * sin (x 2) = 0 ∧
    γ 1 * x 1 - k 1 * x 0 * x 1 * sin (x 2) = 0 ∧
    -δ + cos (x 2) * (k 0 * x 1 * x 1 / x 0 - 2 * k 1 * x 0) = 0 := by
  constructor
  · rintro ⟨h0, h1, e⟩
    have e0 := congrFun e 0
    have e1 := congrFun e 1
    have e2 := congrFun e 2
    simp only [harmField, Matrix.cons_val_zero, Matrix.cons_val_one, Matrix.cons_val, Pi.zero_apply] at e0 e1 e2
    exact ⟨h0, h1, e0, e1, e2⟩
  · rintro ⟨h0, h1, e0, e1, e2⟩
    refine ⟨h0, h1, ?_⟩
    funext i
    fin_cases i
    · exact e0
    · exact e1
    · exact e2

theorem harm_cot {γ k : Fin 2 → ℝ} {δ : ℝ} {x : Fin 3 → ℝ} (h : IsHarmFP γ k δ x) :
    cos (x 2) * (γ 0 + 2 * γ 1) = -δ * sin (x 2) := by
  obtain ⟨h0, h1, e0, e1, e2⟩ := isHarmFP_iff.1 h
  have k0 : (k 0 * x 1 * x 1 / x 0) * sin (x 2) = -γ 0 := by field_simp; linear_combination e0
  have k1 : k 1 * x 0 * sin (x 2) = γ 1 := by
    have : x 1 * (k 1 * x 0 * sin (x 2) - γ 1) = 0 := by linear_combination -e1
    have := (mul_eq_zero.1 this).resolve_left h1.ne'
    linarith
  linear_combination cos (x 2) * k0 - 2 * cos (x 2) * k1 - sin (x 2) * e2

/-- Jacobian at a fixed point of the two-mode system. -/
noncomputable def fpJac3 (γ : Fin 2 → ℝ) (κ : ℝ) (x : Fin 3 → ℝ) : Matrix (Fin 3) (Fin 3) ℝ :=
  !![γ 0, -2 * γ 0 * x 0 / x 1, -γ 0 * x 0 * κ;
     -γ 1 * x 1 / x 0, 0, -γ 1 * x 1 * κ;
     κ * (γ 0 - 2 * γ 1) / x 0, -2 * κ * γ 0 / x 1, γ 0 + 2 * γ 1]

theorem harm_jac {γ k : Fin 2 → ℝ} {δ : ℝ} {x : Fin 3 → ℝ} (h : IsHarmFP γ k δ x)
    (hs : sin (x 2) ≠ 0) : jac3 γ k x = fpJac3 γ (cos (x 2) / sin (x 2)) x := by
  obtain ⟨h0, h1, e0, e1, e2⟩ := isHarmFP_iff.1 h
  have h0' := h0.ne'
  have h1' := h1.ne'
  have k0 : k 0 = -γ 0 * x 0 / (x 1 * x 1 * sin (x 2)) := by field_simp; linear_combination e0
  have k1 : k 1 = γ 1 / (x 0 * sin (x 2)) := by
    have : x 1 * (k 1 * x 0 * sin (x 2) - γ 1) = 0 := by linear_combination -e1
    have := (mul_eq_zero.1 this).resolve_left h1.ne'
    field_simp; linarith
  ext i j
  fin_cases i <;> fin_cases j <;> simp [jac3, fpJac3]
  · rw [k0]; field_simp
  · rw [k0]; field_simp
  · rw [k1]; field_simp
  · rw [k1]; field_simp; ring
  · rw [k1]; field_simp
  · rw [k0, k1]; field_simp; try ring
  · rw [k0]; field_simp
  · rw [k0, k1]; field_simp; ring

theorem fpJac3_char (γ : Fin 2 → ℝ) (κ : ℝ) (x : Fin 3 → ℝ) (h0 : x 0 ≠ 0) (h1 : x 1 ≠ 0) (z : ℂ) :
    IsEig (fpJac3 γ κ x) z ↔
      z ^ 3 + ((-2 * (γ 0 + γ 1) : ℝ) : ℂ) * z ^ 2 +
      ((γ 0 ^ 2 + κ ^ 2 * γ 0 * (γ 0 - 4 * γ 1) : ℝ) : ℂ) * z +
      ((2 * γ 0 * γ 1 * (γ 0 + 2 * γ 1) * (1 + κ ^ 2) : ℝ) : ℂ) = 0 := by
  rw [isEig_iff_det, Matrix.det_fin_three]
  have c0 : (x 0 : ℂ) ≠ 0 := by exact_mod_cast h0
  have c1 : (x 1 : ℂ) ≠ 0 := by exact_mod_cast h1
  simp [fpJac3, Matrix.diagonal]
  apply Eq.congr_left
  field_simp
  ring

theorem harm_sin_ne {γ k : Fin 2 → ℝ} {δ : ℝ} {x : Fin 3 → ℝ} (h : IsHarmFP γ k δ x)
    (hst : LinStable (harmField γ k δ) x) : sin (x 2) ≠ 0 := by
  intro hs
  obtain ⟨h0, h1, e0, e1, -⟩ := isHarmFP_iff.1 h
  simp [hs, h0.ne', h1.ne'] at e0 e1
  obtain ⟨J, hJ, hev⟩ := hst
  rw [hJ.unique (isJac_jac3 γ k δ x h0.ne')] at hev
  have := hev 0 (by
    rw [isEig_iff_det, Matrix.det_fin_three]
    simp [jac3, Matrix.diagonal, hs, e0, e1])
  simp at this

theorem harm_stable_iff {γ k : Fin 2 → ℝ} {δ : ℝ} {x : Fin 3 → ℝ} (h : IsHarmFP γ k δ x)
    (hs : sin (x 2) ≠ 0) : LinStable (harmField γ k δ) x ↔
      γ 0 + γ 1 < 0 ∧ 0 < γ 0 * γ 1 * (γ 0 + 2 * γ 1) ∧
      0 < -2 * (γ 0 + γ 1) * (γ 0 ^ 2 + (δ / (γ 0 + 2 * γ 1)) ^ 2 * γ 0 * (γ 0 - 4 * γ 1))
        - 2 * γ 0 * γ 1 * (γ 0 + 2 * γ 1) * (1 + (δ / (γ 0 + 2 * γ 1)) ^ 2) := by
  have h0 := h.1.ne'
  have h1 := h.2.1.ne'
  have hiff : LinStable (harmField γ k δ) x ↔ ∀ z, IsEig (jac3 γ k x) z → z.re < 0 := by
    constructor
    · rintro ⟨J, hJ, hev⟩
      rwa [hJ.unique (isJac_jac3 γ k δ x h0)] at hev
    · intro hev
      exact ⟨_, isJac_jac3 γ k δ x h0, hev⟩
  rw [hiff, harm_jac h hs]
  simp only [fpJac3_char γ _ x h0 h1]
  rw [cubic_hurwitz]
  set κ := cos (x 2) / sin (x 2) with hκ
  have hcot : κ * (γ 0 + 2 * γ 1) = -δ := by
    rw [hκ, div_mul_eq_mul_div, harm_cot h]; field_simp
  have hk2 : γ 0 + 2 * γ 1 ≠ 0 → κ ^ 2 = (δ / (γ 0 + 2 * γ 1)) ^ 2 := by
    intro hS
    have : κ = -(δ / (γ 0 + 2 * γ 1)) := by field_simp; linarith
    rw [this]; ring
  have hpos : 0 < 1 + κ ^ 2 := by positivity
  constructor
  · rintro ⟨a1, a3, a5⟩
    have a3' : 0 < γ 0 * γ 1 * (γ 0 + 2 * γ 1) := by nlinarith
    have hS : γ 0 + 2 * γ 1 ≠ 0 := by
      rintro hS; rw [hS] at a3'; simp at a3'
    rw [hk2 hS] at a5
    exact ⟨by linarith, a3', a5⟩
  · rintro ⟨b1, b3, b5⟩
    have hS : γ 0 + 2 * γ 1 ≠ 0 := by
      rintro hS; rw [hS] at b3; simp at b3
    rw [← hk2 hS] at b5
    refine ⟨by linarith, ?_, b5⟩
    have : 2 * γ 0 * γ 1 * (γ 0 + 2 * γ 1) * (1 + κ ^ 2) = 2 * (γ 0 * γ 1 * (γ 0 + 2 * γ 1)) * (1 + κ ^ 2) := by ring
    rw [this]; positivity

/-- The Hurwitz determinant in terms of `θ = -γ₁/γ₀`. -/
theorem harm_hurwitz (γ : Fin 2 → ℝ) (q : ℝ) (h0 : γ 0 ≠ 0) :
    -2 * (γ 0 + γ 1) * (γ 0 ^ 2 + q ^ 2 * γ 0 * (γ 0 - 4 * γ 1))
        - 2 * γ 0 * γ 1 * (γ 0 + 2 * γ 1) * (1 + q ^ 2) =
    2 * γ 0 ^ 3 * (q ^ 2 * (2 * (-γ 1 / γ 0) * (-γ 1 / γ 0 - 1) - 1) - (2 * (-γ 1 / γ 0) * (-γ 1 / γ 0 - 1) + 1)) := by
  field_simp
  ring

/-- Existence of a two-mode fixed point when the rates have opposite signs. -/
theorem exists_harmFP (γ k : Fin 2 → ℝ) (δ : ℝ) (hg : γ 0 * γ 1 < 0) (k0 : 0 < k 0) (k1 : 0 < k 1)
    (hS : γ 0 + 2 * γ 1 ≠ 0) : ∃ x, IsHarmFP γ k δ x ∧ sin (x 2) ≠ 0 := by
  have main : ∀ Υ : ℝ, 0 < γ 1 * sin Υ → cos Υ = -(δ / (γ 0 + 2 * γ 1)) * sin Υ →
      ∃ x, IsHarmFP γ k δ x ∧ sin (x 2) ≠ 0 := by
    intro Υ hsg hc
    have hsne : sin Υ ≠ 0 := by rintro h; rw [h] at hsg; simp at hsg
    have hX : 0 < γ 1 / (k 1 * sin Υ) := by
      have : γ 1 / (k 1 * sin Υ) = (γ 1 * sin Υ) / (k 1 * sin Υ ^ 2) := by field_simp
      rw [this]; positivity
    have hγ1 : γ 1 ≠ 0 := by rintro h; rw [h] at hg; simp at hg
    have hY : 0 < -γ 0 * (γ 1 / (k 1 * sin Υ)) / (k 0 * sin Υ) := by
      have : -γ 0 * (γ 1 / (k 1 * sin Υ)) / (k 0 * sin Υ) = -(γ 0 * γ 1) / (k 0 * k 1 * sin Υ ^ 2) := by
        field_simp
      rw [this]
      have : 0 < -(γ 0 * γ 1) := by linarith
      positivity
    set X := γ 1 / (k 1 * sin Υ) with hXd
    have hsq := Real.mul_self_sqrt hY.le
    set Y := √(-γ 0 * X / (k 0 * sin Υ)) with hYd
    have hYp : 0 < Y := Real.sqrt_pos.2 hY
    refine ⟨![X, Y, Υ], ?_, by simpa using hsne⟩
    rw [isHarmFP_iff]
    simp only [Matrix.cons_val_zero, Matrix.cons_val_one, Matrix.cons_val]
    refine ⟨hX, hYp, ?_, ?_, ?_⟩
    · rw [mul_assoc (k 0), hsq]; field_simp; ring
    · rw [hXd]; field_simp; ring
    · rw [mul_assoc (k 0), hsq, hc]
      have : k 1 * X = γ 1 / sin Υ := by rw [hXd]; field_simp
      have h2 : k 0 * (-γ 0 * X / (k 0 * sin Υ)) / X = -γ 0 / sin Υ := by field_simp
      rw [h2, mul_assoc 2, this]
      field_simp
      ring
  set q := δ / (γ 0 + 2 * γ 1)
  have hR : 0 < √(1 + q ^ 2) := Real.sqrt_pos.2 (by positivity)
  rcases lt_trichotomy (γ 1) 0 with h | h | h
  · apply main (arctan q - π / 2)
    · rw [sin_sub_pi_div_two, cos_arctan]
      have : 0 < (-γ 1) * (1 / √(1 + q ^ 2)) := mul_pos (by linarith) (by positivity)
      linarith
    · rw [sin_sub_pi_div_two, cos_sub_pi_div_two, sin_arctan, cos_arctan]; ring
  · rw [h] at hg; simp at hg
  · apply main (arctan q + π / 2)
    · rw [sin_add_pi_div_two, cos_arctan]
      have := hR
      positivity
    · rw [sin_add_pi_div_two, cos_add_pi_div_two, sin_arctan, cos_arctan]; ring

end Verif.Stab
