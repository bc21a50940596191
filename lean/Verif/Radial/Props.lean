import Verif.Radial.Model
import Verif.Radial.Spec
import Mathlib.Analysis.Calculus.Deriv.ZPow
import Mathlib.Analysis.Calculus.Deriv.Mul
import Mathlib.Analysis.Calculus.Deriv.Inv
import Mathlib.Tactic.FieldSimp
import Mathlib.Tactic.LinearCombination
import Mathlib.Tactic.Positivity
/-! # C86, C87: the radial vectors, their gradients and the divergence -/
namespace Verif.Radial
noncomputable section

/-- The object and the mode hold the samples of a star and of the variables of a mode. -/
structure Samples {n : ℕ} (o : Obj n) (M : ModeIn n) (S : Spec.Star) (y1 y2 : ℝ → ℝ) : Prop where
  mass : o.Mstar = S.M
  radius : o.Rstar = S.R
  V2 : ∀ i, o.V2 i * o.x i ^ 2 = S.V (o.x i)
  gamma : ∀ i, o.Gamma1 i = S.Γ (o.x i)
  c1 : ∀ i, o.c1 i = S.c1 (o.x i)
  as : ∀ i, o.As i = S.As (o.x i)
  u : ∀ i, o.U i = S.U (o.x i)
  rho : ∀ i, (if o.polytropic then o.rhoProfile i else o.rho i) = S.ρ (o.x i)
  y1 : ∀ i, M.y1 i = y1 (o.x i)
  y2 : ∀ i, M.y2 i = y2 (o.x i)

/-- The star and the frequency are not degenerate at `x`. -/
structure Proper (S : Spec.Star) (ω x : ℝ) : Prop where
  posX : 0 < x
  posM : 0 < S.M
  posR : 0 < S.R
  posMr : 0 < S.Mr x
  freq : ω ≠ 0

theorem z1_eq {n : ℕ} {o : Obj n} {M : ModeIn n} {S : Spec.Star} {y1 y2 : ℝ → ℝ} (h : Samples o M S y1 y2) (i : Fin n) :
    z1 o M i = Spec.xiR M.l y1 (o.x i) := by
  rw [z1, h.y1, Spec.xiR]; ring

theorem z2_eq {n : ℕ} {o : Obj n} {M : ModeIn n} {S : Spec.Star} {y1 y2 : ℝ → ℝ} (h : Samples o M S y1 y2) (i : Fin n) :
    z2 o M i = Spec.xiR M.l y2 (o.x i) := by
  rw [z2, h.y2, Spec.xiR]; ring

theorem rhoUsed_eq {n : ℕ} {o : Obj n} {M : ModeIn n} {S : Spec.Star} {y1 y2 : ℝ → ℝ} (h : Samples o M S y1 y2) (i : Fin n) :
    rhoUsed o i = S.ρ (o.x i) := by
  rw [← h.rho i, rhoUsed]; split_ifs <;> rfl

/-- **C86.** The stored radial vectors are the radial and the horizontal displacement over the radius, and
over the total radius, of the mode. -/
theorem C86_vectors {n : ℕ} (o : Obj n) (M : ModeIn n) (S : Spec.Star) (y1 y2 : ℝ → ℝ) (h : Samples o M S y1 y2)
    (i : Fin n) :
    z1 o M i = Spec.xiR M.l y1 (o.x i) ∧ xz1 o M i = o.x i * Spec.xiR M.l y1 (o.x i) ∧
    z2OverC1Omega o M i = Spec.xiH S M.l M.omega y2 (o.x i) ∧
    xz2OverC1Omega o M i = o.x i * Spec.xiH S M.l M.omega y2 (o.x i) := by
  have e : z2OverC1Omega o M i = Spec.xiH S M.l M.omega y2 (o.x i) := by
    rw [z2OverC1Omega, z2_eq h, h.c1]; rfl
  exact ⟨z1_eq h i, by rw [xz1, z1_eq h], e, by rw [xz2OverC1Omega, e]⟩

/-- Derivative of `x · x^(l-2) · y`. -/
theorem hasDeriv_scaled {y : ℝ → ℝ} {d x : ℝ} (l : ℤ) (hx : 0 < x) (hy : HasDerivAt y d x) :
    HasDerivAt (fun t => t * Spec.xiR l y t) (√(4 * Real.pi) * x ^ (l - 2) * ((l - 1) * y x + x * d)) x := by
  have hz : HasDerivAt (fun t : ℝ => t ^ (l - 2)) (((l - 2 : ℤ) : ℝ) * x ^ (l - 2 - 1)) x :=
    hasDerivAt_zpow _ _ (Or.inl hx.ne')
  have h1 := (hasDerivAt_id x).mul (((hz.const_mul √(4 * Real.pi))).mul hy)
  refine HasDerivAt.congr_deriv (f' := _) (h := h1) ?_
  have e : x ^ (l - 2 - 1) = x ^ (l - 2) / x := zpow_sub_one₀ hx.ne' _
  simp only [Pi.mul_apply, id_eq, e]
  push_cast
  field_simp
  ring

/-- Logarithmic derivative of `c₁`. -/
theorem hasDeriv_c1 {S : Spec.Star} {ω x : ℝ} (hp : Proper S ω x) (hm : S.Mass x) :
    HasDerivAt S.c1 (S.c1 x * (3 - S.U x) / x) x := by
  have h1 : HasDerivAt (fun t : ℝ => t ^ 3 * S.M) (3 * x ^ 2 * S.M) x :=
    HasDerivAt.congr_deriv ((hasDerivAt_pow 3 x).mul_const S.M) (by norm_num)
  have h2 := h1.div hm hp.posMr.ne'
  refine HasDerivAt.congr_deriv (f' := _) (h := h2) ?_
  have := hp.posX.ne'
  have := hp.posMr.ne'
  rw [Spec.Star.c1, Spec.Star.U, hm.deriv]
  field_simp

theorem c1_pos {S : Spec.Star} {ω x : ℝ} (hp : Proper S ω x) : 0 < S.c1 x := by
  have := hp.posX; have := hp.posM; have := hp.posMr
  unfold Spec.Star.c1; positivity

/-- **C86.** Stored radial gradients for variables scaled with the degree `li`: they differ from the derivatives
of `ξ_r` and `ξ_h` (over the total radius) by `(li - l)` times the displacement over the radius. -/
theorem C86_gradients_effective_degree {n : ℕ} (o : Obj n) (M : ModeIn n) (S : Spec.Star) (y1 y2 : ℝ → ℝ)
    (h : Samples o M S y1 y2) (i : Fin n) (hp : Proper S M.omega (o.x i)) (hm : S.Mass (o.x i)) (li : ℝ)
    (he : Spec.Equations S li M.lambda M.omega y1 y2 (o.x i)) :
    HasDerivAt (fun x => x * Spec.xiR M.l y1 x)
      (radDerXZ1 o M i - (li - M.l) * Spec.xiR M.l y1 (o.x i)) (o.x i) ∧
    HasDerivAt (fun x => x * Spec.xiH S M.l M.omega y2 x)
      (radDerXZ2 o M i - (li - M.l) * Spec.xiH S M.l M.omega y2 (o.x i)) (o.x i) := by
  obtain ⟨d1, hd1, e1⟩ := he.d1
  obtain ⟨d2, hd2, e2⟩ := he.d2
  have hc := c1_pos hp
  have hω := hp.freq
  have hx := hp.posX
  have hx0 := hx.ne'
  have hc0 := hc.ne'
  have hv : vOverG1 o i = S.V (o.x i) / S.Γ (o.x i) := by rw [vOverG1, h.V2, h.gamma]
  constructor
  · refine (hasDeriv_scaled M.l hx hd1).congr_deriv ?_
    rw [radDerXZ1, hv, z1_eq h, z2_eq h, h.c1, e1, Spec.xiR, Spec.xiR]
    ring
  · have hq := (hasDeriv_scaled M.l hx hd2).div ((hasDeriv_c1 hp hm).mul_const (M.omega ^ 2)) (by positivity)
    have ef : (fun x => x * Spec.xiH S M.l M.omega y2 x) =
        (fun t => t * Spec.xiR M.l y2 t) / (fun t => S.c1 t * M.omega ^ 2) := by
      funext t; simp only [Spec.xiH, Spec.xiR, Pi.div_apply]; ring
    rw [ef]
    refine HasDerivAt.congr_deriv (f' := _) (h := hq) ?_
    rw [radDerXZ2, rhoUsed_eq h, z1_eq h, z2_eq h, h.c1, h.as, h.u, h.mass, h.radius, e2, Spec.xiR, Spec.xiR, Spec.xiH]
    have hU : 4 * Real.pi * S.ρ (o.x i) / (S.M / S.R ^ 3 * M.omega ^ 2) =
        S.U (o.x i) / (S.c1 (o.x i) * M.omega ^ 2) := by
      have := hp.posM.ne'
      have := hp.posR.ne'
      have := hp.posMr.ne'
      rw [Spec.Star.U, hm.deriv, Spec.Star.c1]
      field_simp
    rw [hU]
    generalize S.c1 (o.x i) = c at *
    generalize S.U (o.x i) = u at *
    generalize S.As (o.x i) = a at *
    generalize y1 (o.x i) = p at *
    generalize y2 (o.x i) = q at *
    generalize √(4 * Real.pi) * (o.x i) ^ (M.l - 2) = k at *
    field_simp
    ring

/-- **C86.** The stored radial gradients (symbolic option) are the derivatives of the radial and of the
horizontal displacement, for every mode that satisfies the oscillation equations with its own degree. -/
theorem C86_gradients {n : ℕ} (o : Obj n) (M : ModeIn n) (S : Spec.Star) (y1 y2 : ℝ → ℝ) (h : Samples o M S y1 y2)
    (i : Fin n) (hp : Proper S M.omega (o.x i)) (hm : S.Mass (o.x i))
    (he : Spec.Equations S M.l M.lambda M.omega y1 y2 (o.x i)) :
    HasDerivAt (fun x => x * Spec.xiR M.l y1 x) (radDerXZ1 o M i) (o.x i) ∧
    HasDerivAt (fun x => x * Spec.xiH S M.l M.omega y2 x) (radDerXZ2 o M i) (o.x i) := by
  have := C86_gradients_effective_degree o M S y1 y2 h i hp hm M.l he
  simpa using this

/-- **C87.** The stored radial part of the divergence times `Hr` is the divergence of the displacement,
`d(ξ_r)/dr + 2 ξ_r/r + horizontal divergence`, exactly when the horizontal divergence of the angular functions is
`-λ Hr` (or the horizontal displacement vanishes). -/
theorem C87_divergence {n : ℕ} (o : Obj n) (M : ModeIn n) (i : Fin n) (Hr dHt pp : ℝ) :
    radDiverg o M i * Hr = radDerXZ1 o M i * Hr + (z2OverC1Omega o M i * dHt + z1 o M i * Hr) +
      (z1 o M i * Hr + z2OverC1Omega o M i * pp) ↔
    dHt + pp = -M.lambda * Hr ∨ z2OverC1Omega o M i = 0 := by
  have e : radDerXZ1 o M i = vOverG1 o i * (z1 o M i - z2 o M i) - 2 * z1 o M i + M.lambda * z2OverC1Omega o M i := by
    rw [radDerXZ1, z2OverC1Omega]; ring
  rw [e, radDiverg]
  constructor
  · intro h
    have : z2OverC1Omega o M i * (dHt + pp + M.lambda * Hr) = 0 := by linear_combination -h
    rcases mul_eq_zero.1 this with h | h
    · exact Or.inr h
    · exact Or.inl (by linear_combination h)
  · rintro (h | h)
    · linear_combination (-z2OverC1Omega o M i) * h
    · rw [h]; ring

/-- **C87.** In terms of the physical mode: the stored array is the radial factor of the Lagrangian compression,
`V/Γ₁ (ξ_r/r - ω² c₁ ξ_h/r)`. -/
theorem C87_compression {n : ℕ} (o : Obj n) (M : ModeIn n) (S : Spec.Star) (y1 y2 : ℝ → ℝ) (h : Samples o M S y1 y2)
    (i : Fin n) (hp : Proper S M.omega (o.x i)) :
    radDiverg o M i = S.V (o.x i) / S.Γ (o.x i) *
      (Spec.xiR M.l y1 (o.x i) - S.c1 (o.x i) * M.omega ^ 2 * Spec.xiH S M.l M.omega y2 (o.x i)) := by
  have hc := (c1_pos hp).ne'
  have hω := hp.freq
  rw [radDiverg, z1_eq h, z2_eq h, vOverG1, h.V2, h.gamma, Spec.xiH, Spec.xiR, Spec.xiR]
  field_simp

/-- Non-vacuity: the Kelvin mode of degree 2 of the homogeneous incompressible-like star, on any grid of
positive radii. -/
def kelvin : Spec.Star := ⟨1, 1, fun x => x ^ 3, fun _ => 3 / (4 * Real.pi), fun x => x ^ 2, fun _ => 5 / 3, fun _ => 0⟩

theorem kelvin_mass (x : ℝ) : kelvin.Mass x := by
  unfold Spec.Star.Mass kelvin
  refine (hasDerivAt_pow 3 x).congr_deriv ?_
  have := Real.pi_pos.ne'
  field_simp
  norm_num
  ring

theorem kelvin_equations (x : ℝ) (hx : 0 < x) :
    Spec.Equations kelvin ((2 : ℤ) : ℝ) 6 √2 (fun _ => 1) (fun _ => 1) x := by
  have h2 : (√2 : ℝ) ^ 2 = 2 := Real.sq_sqrt (by norm_num)
  have hc : kelvin.c1 x = 1 := by simp only [Spec.Star.c1, kelvin]; field_simp
  have hU : kelvin.U x = 3 := by
    rw [Spec.Star.U, (kelvin_mass x).deriv]
    have := Real.pi_pos.ne'
    simp only [kelvin]; field_simp
  refine ⟨⟨0, hasDerivAt_const x 1, ?_⟩, ⟨0, hasDerivAt_const x 1, ?_⟩⟩
  · rw [hc, h2]; push_cast; ring
  · rw [hc, h2, hU]; simp only [kelvin]; push_cast; ring

/-- The arrays of the Kelvin mode. -/
def kelvinObj {n : ℕ} (x : Fin n → ℝ) : Obj n :=
  ⟨x, fun _ => 1, fun _ => 5 / 3, fun i => kelvin.c1 (x i), fun _ => 0, fun i => kelvin.U (x i), false,
    fun _ => 3 / (4 * Real.pi), fun _ => 0, 1, 1⟩

example {n : ℕ} (x : Fin n → ℝ) (hx : ∀ i, 0 < x i) :
    Samples (kelvinObj x) ⟨fun _ => 1, fun _ => 1, 2, 6, √2⟩ kelvin (fun _ => 1) (fun _ => 1) ∧
    (∀ i, Proper kelvin √2 (x i) ∧ kelvin.Mass (x i) ∧
      Spec.Equations kelvin ((2 : ℤ) : ℝ) 6 √2 (fun _ => 1) (fun _ => 1) (x i)) ∧
    ∀ i, z2OverC1Omega (kelvinObj x) ⟨fun _ => 1, fun _ => 1, 2, 6, √2⟩ i ≠ 0 := by
  refine ⟨⟨rfl, rfl, fun i => by simp [kelvinObj, kelvin], fun i => rfl, fun i => rfl, fun i => rfl, fun i => rfl,
    fun i => rfl, fun i => rfl, fun i => rfl⟩, fun i => ⟨⟨hx i, by norm_num [kelvin], by norm_num [kelvin], ?_, by simp⟩,
      kelvin_mass _, kelvin_equations _ (hx i)⟩, fun i => ?_⟩
  · have := hx i
    simp only [kelvin]; positivity
  · have := hx i
    have hc : kelvin.c1 (x i) = 1 := by simp only [Spec.Star.c1, kelvin]; field_simp
    have := Real.pi_pos
    simp only [z2OverC1Omega, z2, kelvinObj, hc]
    positivity

end
end Verif.Radial
