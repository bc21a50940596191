import Verif.Struct.Model
import Mathlib.Analysis.Calculus.Deriv.Mul
import Mathlib.Analysis.Calculus.Deriv.Inv
import Mathlib.Analysis.Calculus.Deriv.Pow
import Mathlib.Analysis.Calculus.Deriv.Add
import Mathlib.Tactic.FieldSimp
import Mathlib.Tactic.LinearCombination
import Mathlib.Tactic.Positivity
/-! # C88: derivatives of the stellar structure -/
namespace Verif.Struct
noncomputable section

/-- Specification: a spherical star in hydrostatic equilibrium, as functions of the radius on the open interval
`(0, Rs)`: `dM_r/dr = 4πr²ρ`, `dP/dr = -G M_r ρ / r²`, `N² = g (dlnP/dr / Γ₁ - dlnρ/dr)`. -/
structure Star where
  G : ℝ
  Rs : ℝ
  Mr : ℝ → ℝ
  ρ : ℝ → ℝ
  P : ℝ → ℝ
  Γ : ℝ → ℝ
  N2 : ℝ → ℝ
  posG : 0 < G
  posM : ∀ r, 0 < r → r < Rs → 0 < Mr r
  posρ : ∀ r, 0 < r → r < Rs → 0 < ρ r
  posP : ∀ r, 0 < r → r < Rs → 0 < P r
  posΓ : ∀ r, 0 < r → r < Rs → 0 < Γ r
  smooth : ∀ r, 0 < r → r < Rs → DifferentiableAt ℝ ρ r ∧ DifferentiableAt ℝ (deriv ρ) r
  mass : ∀ r, 0 < r → r < Rs → HasDerivAt Mr (4 * Real.pi * r ^ 2 * ρ r) r
  hydro : ∀ r, 0 < r → r < Rs → HasDerivAt P (-(G * Mr r / r ^ 2) * ρ r) r
  brunt : ∀ r, 0 < r → r < Rs →
    N2 r = G * Mr r / r ^ 2 * (deriv P r / P r / Γ r - deriv ρ r / ρ r)

/-- Gravity. -/
def Star.g (S : Star) (r : ℝ) : ℝ := S.G * S.Mr r / r ^ 2

theorem Star.g_pos (S : Star) {r : ℝ} (h0 : 0 < r) (h1 : r < S.Rs) : 0 < S.g r := by
  have := S.posG; have := S.posM r h0 h1
  unfold Star.g; positivity

theorem eventually_inside {S : Star} {r : ℝ} (h0 : 0 < r) (h1 : r < S.Rs) :
    ∀ᶠ t in nhds r, 0 < t ∧ t < S.Rs := (isOpen_Ioo (a := (0 : ℝ)) (b := S.Rs)).mem_nhds ⟨h0, h1⟩

theorem Star.g_deriv (S : Star) {r : ℝ} (h0 : 0 < r) (h1 : r < S.Rs) :
    HasDerivAt S.g (4 * Real.pi * S.G * S.ρ r - S.g r * (2 / r)) r := by
  have h := ((S.mass r h0 h1).const_mul S.G).div (hasDerivAt_pow 2 r) (by positivity)
  refine HasDerivAt.congr_deriv (f' := _) (h := h) ?_
  have := h0.ne'
  simp only [Star.g]
  field_simp
  norm_num
  ring

theorem Star.g2_deriv (S : Star) {r : ℝ} (h0 : 0 < r) (h1 : r < S.Rs) :
    HasDerivAt (deriv S.g) (4 * Real.pi * S.G * deriv S.ρ r + 2 / r * (S.g r / r - deriv S.g r)) r := by
  have he : deriv S.g =ᶠ[nhds r] fun t => 4 * Real.pi * S.G * S.ρ t - S.g t * (2 / t) := by
    filter_upwards [eventually_inside (S := S) h0 h1] with t ht using (S.g_deriv ht.1 ht.2).deriv
  have hinv : HasDerivAt (fun t : ℝ => 2 / t) (-2 / r ^ 2) r :=
    HasDerivAt.congr_deriv ((hasDerivAt_inv h0.ne').const_mul 2) (by ring)
  have h := ((S.smooth r h0 h1).1.hasDerivAt.const_mul (4 * Real.pi * S.G)).sub ((S.g_deriv h0 h1).mul hinv)
  refine (HasDerivAt.congr_of_eventuallyEq (f₁ := deriv S.g) ?_ he)
  refine HasDerivAt.congr_deriv (f' := _) (h := h) ?_
  rw [(S.g_deriv h0 h1).deriv]
  have := h0.ne'
  field_simp
  ring

theorem Star.P_deriv (S : Star) {r : ℝ} (h0 : 0 < r) (h1 : r < S.Rs) : HasDerivAt S.P (-S.g r * S.ρ r) r :=
  S.hydro r h0 h1

theorem Star.P2_deriv (S : Star) {r : ℝ} (h0 : 0 < r) (h1 : r < S.Rs) :
    HasDerivAt (deriv S.P) (-deriv S.g r * S.ρ r - S.g r * deriv S.ρ r) r := by
  have he : deriv S.P =ᶠ[nhds r] fun t => -S.g t * S.ρ t := by
    filter_upwards [eventually_inside (S := S) h0 h1] with t ht using (S.P_deriv ht.1 ht.2).deriv
  have h := (S.g_deriv h0 h1).neg.mul (S.smooth r h0 h1).1.hasDerivAt
  refine (HasDerivAt.congr_of_eventuallyEq (f₁ := deriv S.P) ?_ he)
  refine HasDerivAt.congr_deriv (f' := _) (h := h) ?_
  rw [(S.g_deriv h0 h1).deriv]
  simp only [Pi.neg_apply]
  ring

theorem Star.P3_deriv (S : Star) {r : ℝ} (h0 : 0 < r) (h1 : r < S.Rs) :
    HasDerivAt (deriv (deriv S.P)) (-deriv (deriv S.g) r * S.ρ r - 2 * deriv S.g r * deriv S.ρ r -
      S.g r * deriv (deriv S.ρ) r) r := by
  have he : deriv (deriv S.P) =ᶠ[nhds r] fun t => -deriv S.g t * S.ρ t - S.g t * deriv S.ρ t := by
    filter_upwards [eventually_inside (S := S) h0 h1] with t ht using (S.P2_deriv ht.1 ht.2).deriv
  have hg2 : HasDerivAt (deriv S.g) (deriv (deriv S.g) r) r := (S.g2_deriv h0 h1).differentiableAt.hasDerivAt
  have hg1 : HasDerivAt S.g (deriv S.g r) r := (S.g_deriv h0 h1).differentiableAt.hasDerivAt
  have h := (hg2.neg.mul (S.smooth r h0 h1).1.hasDerivAt).sub (hg1.mul (S.smooth r h0 h1).2.hasDerivAt)
  refine (HasDerivAt.congr_of_eventuallyEq (f₁ := deriv (deriv S.P)) ?_ he)
  refine HasDerivAt.congr_deriv (f' := _) (h := h) ?_
  simp only [Pi.neg_apply]
  ring

/-- The input arrays are samples of the star at interior radii, with the gravitational constant of the star. -/
structure Samples {n : ℕ} (a : In n) (S : Star) : Prop where
  inside : ∀ i, 0 < a.r i ∧ a.r i < S.Rs
  G : a.G = S.G
  G3 : a.G3 = S.G
  Mr : ∀ i, a.Mr i = S.Mr (a.r i)
  rho : ∀ i, a.rho i = S.ρ (a.r i)
  P : ∀ i, a.P i = S.P (a.r i)
  Γ : ∀ i, a.Gamma1 i = S.Γ (a.r i)
  N2 : ∀ i, a.N2 i = S.N2 (a.r i)

/-- **C88.** With symbolic derivatives and the buoyancy frequency: gravity and its first two derivatives, the density
gradient, and the first two pressure derivatives are exact at every radius; the third pressure derivative is exact
wherever the numerical derivative of the density gradient is. -/
theorem C88_derivatives_partial {n : ℕ} (der : (Fin n → ℝ) → (Fin n → ℝ) → Fin n → ℝ) (a : In n) (S : Star) (h : Samples a S)
    (hs : a.symbolic = true) (hb : a.brunt = true) : ∃ o, profiles der a = some o ∧
      ∀ i, o.dg i = S.g (a.r i) ∧ o.dg2 i = deriv S.g (a.r i) ∧ o.dg3 i = deriv (deriv S.g) (a.r i) ∧
        o.drho i = deriv S.ρ (a.r i) ∧ o.drho2 i = der a.r (fun i => deriv S.ρ (a.r i)) i ∧
        o.dP i = deriv S.P (a.r i) ∧ o.dP2 i = deriv (deriv S.P) (a.r i) ∧
        o.dP3 i = deriv (deriv (deriv S.P)) (a.r i) - S.g (a.r i) * (o.drho2 i - deriv (deriv S.ρ) (a.r i)) := by
  have e1 : ∀ i, dgravpot a i = S.g (a.r i) := fun i => by rw [dgravpot, h.G, h.Mr]; rfl
  have e2 : ∀ i, drhoBrunt a i = deriv S.ρ (a.r i) := by
    intro i
    obtain ⟨h0, h1⟩ := h.inside i
    have hg := (S.g_pos h0 h1).ne'
    have hρ := (S.posρ _ h0 h1).ne'
    have hP := (S.posP _ h0 h1).ne'
    have hΓ := (S.posΓ _ h0 h1).ne'
    rw [drhoBrunt, e1, h.rho, h.P, h.Γ, h.N2, S.brunt _ h0 h1, (S.P_deriv h0 h1).deriv]
    change _ * (_ - S.g (a.r i) * _ / _) = _
    field_simp
    ring
  have e2' : drhoBrunt a = fun i => deriv S.ρ (a.r i) := funext e2
  have e3 : ∀ i, 4 * Real.pi * a.G * a.rho i - dgravpot a i * (2 / a.r i) = deriv S.g (a.r i) := by
    intro i
    obtain ⟨h0, h1⟩ := h.inside i
    rw [(S.g_deriv h0 h1).deriv, e1, h.G, h.rho]
  have e4 : ∀ i, 4 * Real.pi * a.G3 * drhoBrunt a i + 2 / a.r i * (dgravpot a i / a.r i -
      (4 * Real.pi * a.G * a.rho i - dgravpot a i * (2 / a.r i))) = deriv (deriv S.g) (a.r i) := by
    intro i
    obtain ⟨h0, h1⟩ := h.inside i
    rw [(S.g2_deriv h0 h1).deriv, e3, e1, e2, h.G3]
  have hd : drho der a = some (drhoBrunt a) := by rw [drho, if_pos hs, if_pos hb]
  refine ⟨_, by rw [profiles, hd]; rfl, fun i => ?_⟩
  obtain ⟨h0, h1⟩ := h.inside i
  simp only [hs, if_true]
  refine ⟨e1 i, e3 i, e4 i, e2 i, by rw [e2'], ?_, ?_, ?_⟩
  · rw [e1, h.rho, (S.P_deriv h0 h1).deriv]
  · rw [e3, e1, e2, h.rho, (S.P2_deriv h0 h1).deriv]
  · rw [e4, e3, e1, e2, e2', h.rho, (S.P3_deriv h0 h1).deriv]; ring

/-- **C88.** The normalised profiles are the profiles and derivatives over the normalisation factors, whatever the
options. -/
theorem C88_normed {n : ℕ} (der : (Fin n → ℝ) → (Fin n → ℝ) → Fin n → ℝ) (a : In n) (o : Out n)
    (h : profiles der a = some o) (hP : a.normP ≠ 0) (hr : a.normRho ≠ 0) (i : Fin n) :
    o.pNormed i * a.normP = a.P i ∧ o.dPNormed i * a.normP = o.dP i ∧ o.dP2Normed i * a.normP = o.dP2 i ∧
    o.dP3Normed i * a.normP = o.dP3 i ∧ o.rhoNormed i * a.normRho = a.rho i ∧
    o.drhoNormed i * a.normRho = o.drho i ∧ o.drho2Normed i * a.normRho = o.drho2 i ∧
    o.drho3Normed i * a.normRho = o.drho3 i := by
  simp only [profiles, Option.bind_eq_bind] at h
  obtain ⟨d, -, hd⟩ := Option.bind_eq_some_iff.1 h
  simp only [Option.some.injEq] at hd
  subst hd
  exact ⟨div_mul_cancel₀ _ hP, div_mul_cancel₀ _ hP, div_mul_cancel₀ _ hP, div_mul_cancel₀ _ hP,
    div_mul_cancel₀ _ hr, div_mul_cancel₀ _ hr, div_mul_cancel₀ _ hr, div_mul_cancel₀ _ hr⟩

/-- **C88.** With numerical derivatives every derivative is the numerical derivative of the previous one. -/
theorem C88_numerical {n : ℕ} (der : (Fin n → ℝ) → (Fin n → ℝ) → Fin n → ℝ) (a : In n) (hs : a.symbolic = false) :
    ∃ o, profiles der a = some o ∧ o.dg = dgravpot a ∧ o.dg2 = der a.r o.dg ∧ o.dg3 = der a.r o.dg2 ∧
      o.drho = der a.r a.rho ∧ o.drho2 = der a.r o.drho ∧ o.drho3 = der a.r o.drho2 ∧
      o.dP = der a.r a.P ∧ o.dP2 = der a.r o.dP ∧ o.dP3 = der a.r o.dP2 := by
  have hd : drho der a = some (der a.r a.rho) := by rw [drho, if_neg (by simp [hs])]
  refine ⟨_, by rw [profiles, hd]; rfl, ?_⟩
  simp [hs]

/-- **C88 refuted** for polytropes without the buoyancy definition: the density attribute that is differentiated does
not exist for polytropes, so the initialisation fails. -/
theorem C88_polytrope_raises_wrong {n : ℕ} (der : (Fin n → ℝ) → (Fin n → ℝ) → Fin n → ℝ) (a : In n)
    (hs : a.symbolic = true) (hb : a.brunt = false) (hp : a.rhoAlt = none) : profiles der a = none := by
  simp [profiles, drho, hs, hb, hp]

/-- Non-vacuity: the homogeneous star of unit density and radius with `G = 1`, `P = (2π/3)(1 - r²)`, sampled anywhere
inside. -/
def homogeneous : Star where
  G := 1
  Rs := 1
  Mr r := 4 / 3 * Real.pi * r ^ 3
  ρ _ := 1
  P r := 2 / 3 * Real.pi * (1 - r ^ 2)
  Γ _ := 5 / 3
  N2 r := -(4 / 3 * Real.pi * r) ^ 2 / (2 / 3 * Real.pi * (1 - r ^ 2)) / (5 / 3)
  posG := by norm_num
  posM r h _ := by have := Real.pi_pos; positivity
  posρ _ _ _ := by norm_num
  posP r h0 h1 := by
    have := Real.pi_pos
    have : 0 < 1 - r ^ 2 := by nlinarith
    positivity
  posΓ _ _ _ := by norm_num
  smooth r _ _ := by
    have : deriv (fun _ : ℝ => (1 : ℝ)) = fun _ => 0 := by funext t; simp
    exact ⟨differentiableAt_const _, by rw [this]; exact differentiableAt_const _⟩
  mass r _ _ := by
    refine ((hasDerivAt_pow 3 r).const_mul (4 / 3 * Real.pi)).congr_deriv ?_
    norm_num; ring
  hydro r h0 _ := by
    refine HasDerivAt.congr_deriv (((hasDerivAt_const r (1 : ℝ)).sub (hasDerivAt_pow 2 r)).const_mul (2 / 3 * Real.pi)) ?_
    have := h0.ne'
    field_simp
    norm_num; ring
  brunt r h0 h1 := by
    have hd : HasDerivAt (fun r : ℝ => 2 / 3 * Real.pi * (1 - r ^ 2)) (-(4 / 3 * Real.pi * r)) r := by
      refine HasDerivAt.congr_deriv (((hasDerivAt_const r (1 : ℝ)).sub (hasDerivAt_pow 2 r)).const_mul (2 / 3 * Real.pi)) ?_
      norm_num; ring
    have := h0.ne'
    have := Real.pi_pos.ne'
    have : (1 - r ^ 2 : ℝ) ≠ 0 := by nlinarith
    simp only [hd.deriv, deriv_const]
    field_simp
    ring

example {n : ℕ} (r : Fin n → ℝ) (hr : ∀ i, 0 < r i ∧ r i < 1) :
    Samples ⟨r, 1, fun i => homogeneous.Mr (r i), fun _ => 1, fun i => homogeneous.P (r i), fun _ => 5 / 3,
      fun i => homogeneous.N2 (r i), 1, none, 1, 1, true, true⟩ homogeneous :=
  ⟨hr, rfl, rfl, fun _ => rfl, fun _ => rfl, fun _ => rfl, fun _ => rfl, fun _ => rfl⟩

end
end Verif.Struct
