import Mathlib.Tactic.Positivity
import Verif.Stab.Char
namespace Verif.Stab
open Real

theorem IsFP.eqs {γ ω : Fin 3 → ℝ} {δ η : ℝ} {x : Fin 4 → ℝ} (h : IsFP γ ω δ η x) :
    γ 0 * x 0 + 2 * η * ω 0 * x 1 * x 2 * sin (x 3) = 0 ∧
    γ 1 * x 1 - 2 * η * ω 1 * x 0 * x 2 * sin (x 3) = 0 ∧
    γ 2 * x 2 - 2 * η * ω 2 * x 0 * x 1 * sin (x 3) = 0 ∧
    -δ + 2 * η * cos (x 3) *
      (ω 0 * x 1 * x 2 / x 0 - ω 1 * x 0 * x 2 / x 1 - ω 2 * x 0 * x 1 / x 2) = 0 := by
  have e := h.2.2.2
  have e0 := congrFun e 0
  have e1 := congrFun e 1
  have e2 := congrFun e 2
  have e3 := congrFun e 3
  simp [aeField] at e0 e1 e2 e3
  exact ⟨e0, e1, e2, e3⟩

theorem isFP_iff {γ ω : Fin 3 → ℝ} {δ η : ℝ} {x : Fin 4 → ℝ} : IsFP γ ω δ η x ↔
    0 < x 0 ∧ 0 < x 1 ∧ 0 < x 2 ∧
    γ 0 * x 0 + 2 * η * ω 0 * x 1 * x 2 * sin (x 3) = 0 ∧
    γ 1 * x 1 - 2 * η * ω 1 * x 0 * x 2 * sin (x 3) = 0 ∧
    γ 2 * x 2 - 2 * η * ω 2 * x 0 * x 1 * sin (x 3) = 0 ∧
    -δ + 2 * η * cos (x 3) *
      (ω 0 * x 1 * x 2 / x 0 - ω 1 * x 0 * x 2 / x 1 - ω 2 * x 0 * x 1 / x 2) = 0 := by
  constructor
  · intro h
    exact ⟨h.1, h.2.1, h.2.2.1, h.eqs⟩
  · rintro ⟨h0, h1, h2, e0, e1, e2, e3⟩
    refine ⟨h0, h1, h2, ?_⟩
    funext i
    fin_cases i <;> simpa [aeField]

/-- `cot Υ · Σγ = -δ` at a fixed point. -/
theorem IsFP.cot {γ ω : Fin 3 → ℝ} {δ η : ℝ} {x : Fin 4 → ℝ} (h : IsFP γ ω δ η x) :
    cos (x 3) * (γ 0 + γ 1 + γ 2) = -δ * sin (x 3) := by
  obtain ⟨e0, e1, e2, e3⟩ := h.eqs
  obtain ⟨h0, h1, h2, -⟩ := h
  have k0 : 2 * η * (ω 0 * x 1 * x 2 / x 0) * sin (x 3) = -γ 0 := by
    field_simp; linear_combination e0
  have k1 : 2 * η * (ω 1 * x 0 * x 2 / x 1) * sin (x 3) = γ 1 := by
    field_simp; linear_combination -e1
  have k2 : 2 * η * (ω 2 * x 0 * x 1 / x 2) * sin (x 3) = γ 2 := by
    field_simp; linear_combination -e2
  linear_combination cos (x 3) * k0 - cos (x 3) * k1 - cos (x 3) * k2 - sin (x 3) * e3

theorem IsFP.jac {γ ω : Fin 3 → ℝ} {δ η : ℝ} {x : Fin 4 → ℝ} (h : IsFP γ ω δ η x)
    (hs : sin (x 3) ≠ 0) : jac4 γ ω η x = fpJac γ (cos (x 3) / sin (x 3)) x := by
  obtain ⟨e0, e1, e2, -⟩ := h.eqs
  obtain ⟨h0, h1, h2, -⟩ := h
  have h0' := h0.ne'
  have h1' := h1.ne'
  have h2' := h2.ne'
  have k0 : 2 * η * ω 0 = -γ 0 * x 0 / (x 1 * x 2 * sin (x 3)) := by
    field_simp; linear_combination e0
  have k1 : 2 * η * ω 1 = γ 1 * x 1 / (x 0 * x 2 * sin (x 3)) := by
    field_simp; linear_combination -e1
  have k2 : 2 * η * ω 2 = γ 2 * x 2 / (x 0 * x 1 * sin (x 3)) := by
    field_simp; linear_combination -e2
  ext i j
  fin_cases i <;> fin_cases j <;> simp [jac4, fpJac]
  · rw [k0]; field_simp
  · rw [k0]; field_simp
  · rw [k0]; field_simp
  · rw [k1]; field_simp
  · rw [k1]; field_simp
  · rw [k1]; field_simp
  · rw [k2]; field_simp
  · rw [k2]; field_simp
  · rw [k2]; field_simp
  · have : 2 * η * cos (x 3) * (-(ω 0 * x 1 * x 2 / x 0 ^ 2) - ω 1 * x 2 / x 1 - ω 2 * x 1 / x 2) =
      cos (x 3) * (-((2 * η * ω 0) * x 1 * x 2 / x 0 ^ 2) - (2 * η * ω 1) * x 2 / x 1 - (2 * η * ω 2) * x 1 / x 2) := by ring
    rw [this, k0, k1, k2]; field_simp; try ring
  · have : 2 * η * cos (x 3) * (ω 0 * x 2 / x 0 + ω 1 * x 0 * x 2 / x 1 ^ 2 - ω 2 * x 0 / x 2) =
      cos (x 3) * ((2 * η * ω 0) * x 2 / x 0 + (2 * η * ω 1) * x 0 * x 2 / x 1 ^ 2 - (2 * η * ω 2) * x 0 / x 2) := by ring
    rw [this, k0, k1, k2]; field_simp; try ring
  · have : 2 * η * cos (x 3) * (ω 0 * x 1 / x 0 - ω 1 * x 0 / x 1 + ω 2 * x 0 * x 1 / x 2 ^ 2) =
      cos (x 3) * ((2 * η * ω 0) * x 1 / x 0 - (2 * η * ω 1) * x 0 / x 1 + (2 * η * ω 2) * x 0 * x 1 / x 2 ^ 2) := by ring
    rw [this, k0, k1, k2]; field_simp; try ring
  · have : -(2 * η * sin (x 3) * (ω 0 * x 1 * x 2 / x 0 - ω 1 * x 0 * x 2 / x 1 - ω 2 * x 0 * x 1 / x 2)) =
      -(sin (x 3) * ((2 * η * ω 0) * x 1 * x 2 / x 0 - (2 * η * ω 1) * x 0 * x 2 / x 1 - (2 * η * ω 2) * x 0 * x 1 / x 2)) := by ring
    rw [this, k0, k1, k2]; field_simp; try ring

theorem IsFP.sin_ne {γ ω : Fin 3 → ℝ} {δ η : ℝ} {x : Fin 4 → ℝ} (h : IsFP γ ω δ η x)
    (hst : LinStable (aeField γ ω δ η) x) : sin (x 3) ≠ 0 := by
  intro hs
  obtain ⟨e0, e1, e2, -⟩ := h.eqs
  obtain ⟨h0, h1, h2, -⟩ := h
  simp [hs, h0.ne', h1.ne', h2.ne'] at e0 e1 e2
  obtain ⟨J, hJ, hev⟩ := hst
  rw [hJ.unique (isJac_jac4 γ ω δ η x h0.ne' h1.ne' h2.ne')] at hev
  have := hev 0 (by
    rw [isEig_iff_det, det4]
    simp [jac4, Matrix.diagonal, hs, e0, e1, e2])
  simp at this

/-- The Hurwitz determinant of the characteristic polynomial is the polynomial of the check. -/
theorem hurwitz_eq_corrected (γ : Fin 3 → ℝ) (k : ℝ) (h0 : γ 0 ≠ 0) :
    (-2 * (γ 0 + γ 1 + γ 2)) * ((γ 0 + γ 1 + γ 2) ^ 2 + k ^ 2 * ((γ 0 + γ 1 + γ 2) ^ 2
        - 4 * (γ 0 * γ 1 + γ 0 * γ 2 + γ 1 * γ 2))) * (4 * (γ 0 * γ 1 * γ 2) * (1 + 3 * k ^ 2))
      - (4 * (γ 0 * γ 1 * γ 2) * (1 + 3 * k ^ 2)) ^ 2
      - (-2 * (γ 0 + γ 1 + γ 2)) ^ 2 * (-4 * (γ 0 + γ 1 + γ 2) * (γ 0 * γ 1 * γ 2) * (1 + k ^ 2))
    = 8 * (γ 0 * γ 1 * γ 2) * γ 0 ^ 3 * correctedPoly γ k := by
  simp only [correctedPoly]
  field_simp
  ring

theorem corrected_eq_equivalent (γ : Fin 3 → ℝ) (q : ℝ) (h0 : γ 0 ≠ 0) (hS : γ 0 + γ 1 + γ 2 ≠ 0) :
    correctedPoly γ q = (-(γ 0 + γ 1 + γ 2) ^ 3 / γ 0 ^ 3) * equivalentPoly γ q := by
  simp only [correctedPoly, equivalentPoly]
  field_simp
  ring

theorem correctedPoly_neg (γ : Fin 3 → ℝ) (q : ℝ) : correctedPoly γ (-q) = correctedPoly γ q := by
  simp only [correctedPoly]
  ring

/-- Linear stability of a fixed point in terms of the rates. -/
theorem IsFP.stable_iff {γ ω : Fin 3 → ℝ} {δ η : ℝ} {x : Fin 4 → ℝ} (h : IsFP γ ω δ η x)
    (hs : sin (x 3) ≠ 0) (hg : γ 0 ≠ 0) : LinStable (aeField γ ω δ η) x ↔
      γ 0 + γ 1 + γ 2 < 0 ∧ 0 < γ 0 * γ 1 * γ 2 ∧
      0 < 8 * (γ 0 * γ 1 * γ 2) * γ 0 ^ 3 * correctedPoly γ (δ / (γ 0 + γ 1 + γ 2)) := by
  have h0 := h.1.ne'
  have h1 := h.2.1.ne'
  have h2 := h.2.2.1.ne'
  have hiff : LinStable (aeField γ ω δ η) x ↔ ∀ z, IsEig (jac4 γ ω η x) z → z.re < 0 := by
    constructor
    · rintro ⟨J, hJ, hev⟩
      rwa [hJ.unique (isJac_jac4 γ ω δ η x h0 h1 h2)] at hev
    · intro hev
      exact ⟨_, isJac_jac4 γ ω δ η x h0 h1 h2, hev⟩
  rw [hiff, h.jac hs]
  simp only [fpJac_char γ _ x h0 h1 h2]
  rw [quartic_hurwitz, hurwitz_eq_corrected γ _ hg]
  set k := cos (x 3) / sin (x 3) with hk
  have hcot : k * (γ 0 + γ 1 + γ 2) = -δ := by
    rw [hk, div_mul_eq_mul_div, h.cot]; field_simp
  constructor
  · rintro ⟨a1, a3, -, a5⟩
    have hS : γ 0 + γ 1 + γ 2 < 0 := by linarith
    have hkq : k = -(δ / (γ 0 + γ 1 + γ 2)) := by
      field_simp [hS.ne]; linarith
    rw [hkq, correctedPoly_neg] at a5
    refine ⟨hS, ?_, a5⟩
    have : 0 < 4 * (1 + 3 * k ^ 2) := by positivity
    nlinarith
  · rintro ⟨hS, he, hp⟩
    have hkq : k = -(δ / (γ 0 + γ 1 + γ 2)) := by
      field_simp [hS.ne]; linarith
    refine ⟨by linarith, by positivity, ?_, ?_⟩
    · have : -4 * (γ 0 + γ 1 + γ 2) * (γ 0 * γ 1 * γ 2) * (1 + k ^ 2) =
        4 * (-(γ 0 + γ 1 + γ 2)) * (γ 0 * γ 1 * γ 2) * (1 + k ^ 2) := by ring
      rw [this]
      have : 0 < -(γ 0 + γ 1 + γ 2) := by linarith
      positivity
    · rw [hkq, correctedPoly_neg]; exact hp

end Verif.Stab
