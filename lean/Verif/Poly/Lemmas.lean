import Verif.Poly.Spec
import Mathlib.Analysis.SpecialFunctions.Pow.Deriv
import Mathlib.Analysis.SpecialFunctions.Pow.Continuity
import Mathlib.Tactic.FieldSimp
import Mathlib.Tactic.Linarith
import Mathlib.Tactic.Positivity

namespace Verif.Poly

open Real Filter Topology

variable {s : Inp} {Th Th' : ℝ → ℝ}

theorem last_mem (h : s.grid ≠ []) : s.last ∈ s.grid := by
  unfold Inp.last
  rw [List.getLastD_eq_getLast?, List.getLast?_eq_getLast_of_ne_nil h]
  exact List.getLast_mem h

theorem Sampled.last_dtheta (h : Sampled s Th Th') : s.last.dtheta = Th' s.zs :=
  h.dtheta _ (last_mem h.grid_ne)

theorem Sampled.auxS (h : Sampled s Th Th') : s.auxS = s.zs ^ 2 * -Th' s.zs := by
  unfold Inp.auxS auxMass
  rw [h.last_dtheta, show s.last.z = s.zs from rfl, rpow_two]; ring

theorem Sampled.auxS_pos (h : Sampled s Th Th') : 0 < s.auxS := by
  rw [h.auxS]; have := h.solves.zs_pos; have := h.solves.slope
  exact mul_pos (by positivity) (by linarith)

theorem rpow_three (x : ℝ) : x ^ (3 : ℝ) = x ^ 3 := by
  rw [show (3 : ℝ) = ((3 : ℕ) : ℝ) by norm_num, rpow_natCast]
theorem rpow_four (x : ℝ) : x ^ (4 : ℝ) = x ^ 4 := by
  rw [show (4 : ℝ) = ((4 : ℕ) : ℝ) by norm_num, rpow_natCast]

theorem Sampled.rho0_eq (h : Sampled s Th Th') :
    s.rho0 = s.mass * s.zs / (4 * π * s.radius ^ 3 * -Th' s.zs) := by
  have h1 := h.solves.zs_pos
  have h2 := h.solves.slope
  have h3 := h.radius_pos
  have h4 := pi_pos
  have h5 : -Th' s.zs ≠ 0 := by linarith [neg_pos.2 h2] |> fun (h : (0:ℝ) < -Th' s.zs) => h.ne'
  unfold Inp.rho0 Inp.avgRho
  rw [h.auxS, rpow_three, rpow_three]
  field_simp

theorem Sampled.rho0_pos (h : Sampled s Th Th') : 0 < s.rho0 := by
  rw [h.rho0_eq]
  have h1 := h.solves.zs_pos
  have h2 := h.solves.slope
  have h3 := h.radius_pos
  have h4 := pi_pos
  have h5 := h.mass_pos
  have h6 : 0 < -Th' s.zs := by linarith
  positivity

/-- The value of the pressure formula: the exponents `1/n` cancel. -/
theorem wn_eq (n zs A : ℝ) (hn : 0 < n) (hz : 0 < zs) (hA : 0 < A) :
    (zs ^ (1 - 3 / n) / (n + 1)) * ((4 * π) ^ (1 / n) * A ^ (1 / n - 1)) *
      (zs ^ 3 / (4 * π * A)) ^ (1 + 1 / n) = zs ^ 4 / (4 * π * (n + 1) * A ^ 2) := by
  have hp := pi_pos
  have h4 : (0 : ℝ) < 4 * π := by positivity
  rw [div_rpow (by positivity) (by positivity), mul_rpow h4.le hA.le, ← rpow_natCast zs 3,
    ← rpow_mul hz.le]
  have e1 : zs ^ (1 - 3 / n) * zs ^ (((3 : ℕ) : ℝ) * (1 + 1 / n)) = zs ^ 4 := by
    rw [← rpow_add hz, ← rpow_natCast zs 4]
    congr 1; push_cast; field_simp; ring
  have e2 : (4 * π) ^ (1 + 1 / n) = 4 * π * (4 * π) ^ (1 / n) := by
    rw [rpow_add h4, rpow_one]
  have e3 : A ^ (1 + 1 / n) = A ^ (1 / n - 1) * A ^ 2 := by
    rw [← rpow_natCast A 2, ← rpow_add hA]
    congr 1; push_cast; ring
  rw [e2, e3]
  have p1 : 0 < (4 * π) ^ (1 / n) := rpow_pos_of_pos h4 _
  have p2 : 0 < A ^ (1 / n - 1) := rpow_pos_of_pos hA _
  have p3 : n + 1 ≠ 0 := by positivity
  have : zs ^ (1 - 3 / n) / (n + 1) * ((4 * π) ^ (1 / n) * A ^ (1 / n - 1)) *
      (zs ^ (((3 : ℕ) : ℝ) * (1 + 1 / n)) / (4 * π * (4 * π) ^ (1 / n) * (A ^ (1 / n - 1) * A ^ 2)))
      = (zs ^ (1 - 3 / n) * zs ^ (((3 : ℕ) : ℝ) * (1 + 1 / n))) / (4 * π * (n + 1) * A ^ 2) := by
    generalize (4 * π) ^ (1 / n) = a at *
    generalize A ^ (1 / n - 1) = b at *
    field_simp
  rw [this, e1]

theorem Sampled.p0_eq (h : Sampled s Th Th') :
    s.p0 = s.G * s.mass ^ 2 * s.zs ^ 4 / (4 * π * (s.n + 1) * s.auxS ^ 2 * s.radius ^ 4) := by
  have h1 := h.solves.zs_pos
  have h3 := h.radius_pos
  have h4 := pi_pos
  have h5 := h.mass_pos
  have hA := h.auxS_pos
  have hn := h.n_pos
  have e : 3 / (4 * π) * (s.rho0 / s.avgRho) = s.zs ^ 3 / (4 * π * s.auxS) := by
    unfold Inp.rho0
    have : s.avgRho ≠ 0 := by unfold Inp.avgRho; rw [rpow_three]; positivity
    rw [rpow_three]
    field_simp
  unfold Inp.p0
  simp only
  rw [e, wn_eq s.n s.zs s.auxS hn h1 hA, rpow_two, rpow_four]
  field_simp

theorem Sampled.p0_pos (h : Sampled s Th Th') : 0 < s.p0 := by
  rw [h.p0_eq]
  have h1 := h.solves.zs_pos
  have h3 := h.radius_pos
  have h4 := pi_pos
  have h5 := h.mass_pos
  have hA := h.auxS_pos
  have hn := h.n_pos
  have := h.G_pos
  positivity

theorem Sampled.alpha_eq (h : Sampled s Th Th') : s.alpha = s.radius / s.zs := by
  have h1 := h.solves.zs_pos
  have h3 := h.radius_pos
  have h4 := pi_pos
  have h5 := h.mass_pos
  have hA := h.auxS_pos
  have hn := h.n_pos
  have hG := h.G_pos
  have hn1 : s.n + 1 ≠ 0 := by positivity
  unfold Inp.alpha
  rw [show s.p0 * (1 + s.n) / (s.G * 4 * π * s.rho0 ^ (2 : ℝ)) = (s.radius / s.zs) ^ 2 by
    rw [h.p0_eq, rpow_two]
    unfold Inp.rho0 Inp.avgRho
    rw [rpow_three, rpow_three]
    field_simp
    ring]
  exact sqrt_sq (by positivity)

/-- `p0 (n+1) / rho0 = 4 π G rho0 alpha²`. -/
theorem Sampled.alpha_sq (h : Sampled s Th Th') :
    s.p0 * (s.n + 1) = 4 * π * s.G * s.rho0 ^ 2 * (s.radius / s.zs) ^ 2 := by
  have h1 := h.solves.zs_pos
  have h3 := h.radius_pos
  have h4 := pi_pos
  have h5 := h.mass_pos
  have hA := h.auxS_pos
  have hn := h.n_pos
  have hG := h.G_pos
  have hn1 : s.n + 1 ≠ 0 := by positivity
  rw [h.p0_eq]
  unfold Inp.rho0 Inp.avgRho
  rw [rpow_three, rpow_three]
  field_simp

/-! ### Derivatives of a rescaled function -/

theorem scaled_deriv {c a zs : ℝ} (ha : 0 < a) {f f' : ℝ → ℝ}
    (hf : ∀ z, 0 < z → z < zs → HasDerivAt f (f' z) z) (r : ℝ) (h0 : 0 < r) (h1 : r < a * zs) :
    HasDerivAt (fun r => c * f (r / a)) (c / a * f' (r / a)) r := by
  have h2 : r / a < zs := by rw [div_lt_iff₀ ha]; linarith
  have := (hf (r / a) (by positivity) h2).comp r ((hasDerivAt_id r).div_const a)
  have := this.const_mul c
  refine this.congr_deriv ?_
  field_simp

theorem congr_near {f g : ℝ → ℝ} {d r b : ℝ} (hfg : ∀ x, 0 < x → x < b → f x = g x)
    (h : HasDerivAt g d r) (h0 : 0 < r) (h1 : r < b) : HasDerivAt f d r := by
  refine h.congr_of_eventuallyEq ?_
  filter_upwards [Ioo_mem_nhds h0 h1] with x hx using hfg x hx.1 hx.2

theorem derivs_of_chain {b : ℝ} {f f1 f2 f3 : ℝ → ℝ}
    (h1 : ∀ z, 0 < z → z < b → HasDerivAt f (f1 z) z)
    (h2 : ∀ z, 0 < z → z < b → HasDerivAt f1 (f2 z) z)
    (h3 : ∀ z, 0 < z → z < b → HasDerivAt f2 (f3 z) z) (r : ℝ) (h0 : 0 < r) (hr : r < b) :
    Derivs f r (f1 r) (f2 r) (f3 r) := by
  have e1 : ∀ x, 0 < x → x < b → deriv f x = f1 x := fun x a c => (h1 x a c).deriv
  have d2 : ∀ x, 0 < x → x < b → HasDerivAt (deriv f) (f2 x) x :=
    fun x a c => congr_near e1 (h2 x a c) a c
  have e2 : ∀ x, 0 < x → x < b → deriv (deriv f) x = f2 x := fun x a c => (d2 x a c).deriv
  exact ⟨h1 r h0 hr, d2 r h0 hr, congr_near e2 (h3 r h0 hr) h0 hr⟩

theorem scaled_derivs {c a zs : ℝ} (ha : 0 < a) {f f1 f2 f3 : ℝ → ℝ}
    (h1 : ∀ z, 0 < z → z < zs → HasDerivAt f (f1 z) z)
    (h2 : ∀ z, 0 < z → z < zs → HasDerivAt f1 (f2 z) z)
    (h3 : ∀ z, 0 < z → z < zs → HasDerivAt f2 (f3 z) z) (r : ℝ) (h0 : 0 < r) (hr : r < a * zs) :
    Derivs (fun r => c * f (r / a)) r (c / a * f1 (r / a)) (c / a / a * f2 (r / a))
      (c / a / a / a * f3 (r / a)) :=
  derivs_of_chain (b := a * zs) (f1 := fun r => c / a * f1 (r / a))
    (f2 := fun r => c / a / a * f2 (r / a)) (f3 := fun r => c / a / a / a * f3 (r / a))
    (scaled_deriv ha h1) (scaled_deriv ha h2) (scaled_deriv ha h3) r h0 hr

/-! ### The Lane–Emden function and its powers -/

/-- Second derivative of a Lane–Emden solution. -/
noncomputable def le2 (n : ℝ) (Th Th' : ℝ → ℝ) (z : ℝ) : ℝ := -(Th z ^ n) - 2 / z * Th' z
/-- Third derivative of a Lane–Emden solution. -/
noncomputable def le3 (n : ℝ) (Th Th' : ℝ → ℝ) (z : ℝ) : ℝ :=
  2 / z * Th z ^ n + (-n * Th z ^ (n - 1) + 6 / z ^ 2) * Th' z

theorem LaneEmden.pow_deriv {n zs : ℝ} (h : LaneEmden n zs Th Th') (k z : ℝ) (h0 : 0 < z)
    (h1 : z < zs) : HasDerivAt (fun z => Th z ^ k) (Th' z * k * Th z ^ (k - 1)) z :=
  (h.deriv1 z h0 h1).rpow_const (Or.inl (h.pos z h0 h1).ne')

theorem LaneEmden.deriv3 {n zs : ℝ} (h : LaneEmden n zs Th Th') (z : ℝ) (h0 : 0 < z)
    (h1 : z < zs) : HasDerivAt (le2 n Th Th') (le3 n Th Th' z) z := by
  have a := h.pow_deriv n z h0 h1
  have b := h.deriv2 z h0 h1
  have c : HasDerivAt (fun z : ℝ => 2 / z) (-2 / z ^ 2) z := by
    have := (hasDerivAt_inv h0.ne').const_mul (2 : ℝ)
    simp only [div_eq_mul_inv] at this ⊢
    exact this.congr_deriv (by ring)
  have := a.neg.sub (c.mul b)
  refine this.congr_deriv ?_
  unfold le3
  field_simp; ring

theorem fin_div {a b : ℝ} (h : b ≠ 0) : (F.fin a).div (.fin b) = .fin (a / b) := by
  simp [F.div, h]

theorem dtheta2_eq (p : Pt) (hz : p.z ≠ 0) (ht : p.theta = Th p.z) (hd : p.dtheta = Th' p.z) :
    s.dtheta2 p = le2 s.n Th Th' p.z := by
  unfold Inp.dtheta2 le2
  rw [fin_div hz, ht, hd]
  simp [F.mul, F.neg, F.add, F.nanToNum]; ring

theorem dtheta3_eq (p : Pt) (hz : p.z ≠ 0) (ht : p.theta = Th p.z) (hd : p.dtheta = Th' p.z) :
    s.dtheta3 p = le3 s.n Th Th' p.z := by
  unfold Inp.dtheta3 le3
  rw [fin_div hz, rpow_two, fin_div (by positivity), ht, hd]
  simp [F.mul, F.add, F.nanToNum]

end Verif.Poly
