import Verif.Poly.Lemmas
import Mathlib.Analysis.SpecialFunctions.Trigonometric.Deriv
import Mathlib.Analysis.SpecialFunctions.Trigonometric.Bounds

/-!
# Properties C79–C83: analytic polytropes
-/
namespace Verif.Poly

open Real Filter Topology

variable {s : Inp} {Th Th' : ℝ → ℝ}

/-! ### The witness fields -/

noncomputable def rhoW (s : Inp) (Th : ℝ → ℝ) (r : ℝ) : ℝ :=
  s.rho0 * Th (r / (s.radius / s.zs)) ^ s.n
noncomputable def pW (s : Inp) (Th : ℝ → ℝ) (r : ℝ) : ℝ :=
  s.p0 * Th (r / (s.radius / s.zs)) ^ (s.n + 1)
noncomputable def mW (s : Inp) (Th' : ℝ → ℝ) (r : ℝ) : ℝ :=
  s.mass * (Th' (r / (s.radius / s.zs)) / Th' s.zs) * (r / s.radius) ^ 2

theorem Sampled.a_pos (h : Sampled s Th Th') : 0 < s.radius / s.zs :=
  div_pos h.radius_pos h.solves.zs_pos

theorem Sampled.a_mul (h : Sampled s Th Th') : s.radius / s.zs * s.zs = s.radius :=
  div_mul_cancel₀ _ h.solves.zs_pos.ne'

theorem Sampled.inside (h : Sampled s Th Th') {r : ℝ} (h0 : 0 < r) (h1 : r < s.radius) :
    0 < r / (s.radius / s.zs) ∧ r / (s.radius / s.zs) < s.zs := by
  have ha := h.a_pos
  refine ⟨div_pos h0 ha, ?_⟩
  rw [div_lt_iff₀ ha, mul_comm, h.a_mul]; exact h1

theorem Sampled.r_eq (h : Sampled s Th Th') (p : Pt) :
    (s.point p).r = p.z * (s.radius / s.zs) := by
  simp only [Inp.point]; rw [h.alpha_eq]

theorem Sampled.r_div (h : Sampled s Th Th') (p : Pt) :
    (s.point p).r / (s.radius / s.zs) = p.z := by
  rw [h.r_eq]; exact mul_div_cancel_right₀ _ h.a_pos.ne'

theorem Sampled.r_inside (h : Sampled s Th Th') {p : Pt} (h0 : 0 < p.z) (h1 : p.z < s.zs) :
    0 < (s.point p).r ∧ (s.point p).r < s.radius := by
  have ha := h.a_pos
  rw [h.r_eq]
  refine ⟨by positivity, ?_⟩
  calc p.z * (s.radius / s.zs) < s.zs * (s.radius / s.zs) := by gcongr
    _ = s.radius := by rw [mul_comm, h.a_mul]

/-! ### Gravity -/

theorem Sampled.grav_eq (h : Sampled s Th Th') (r : ℝ) (h0 : 0 < r) :
    s.G * mW s Th' r / r ^ 2 =
      s.G * s.mass / s.radius ^ 2 / Th' s.zs * Th' (r / (s.radius / s.zs)) := by
  have hs := h.solves.slope.ne
  have hr := h.radius_pos
  unfold mW
  generalize Th' (r / (s.radius / s.zs)) = t
  field_simp

theorem Sampled.rho0_rel (h : Sampled s Th Th') :
    4 * π * s.rho0 * s.radius ^ 3 * Th' s.zs = -(s.mass * s.zs) := by
  have hs := h.solves.slope.ne
  have hr := h.radius_pos
  have hp := pi_pos
  rw [h.rho0_eq]
  field_simp

theorem Sampled.grav_rel (h : Sampled s Th Th') :
    s.G * s.mass / s.radius ^ 2 / Th' s.zs = -(s.n + 1) * (s.p0 / s.rho0) / (s.radius / s.zs) := by
  have hs := h.solves.slope.ne
  have hr := h.radius_pos
  have hz := h.solves.zs_pos
  have hp := pi_pos
  have h0 := h.rho0_pos
  have e1 := h.rho0_rel
  have e2 := h.alpha_sq
  rw [div_div, div_eq_div_iff (by positivity) (by positivity)]
  have e3 : s.p0 = 4 * π * s.G * s.rho0 ^ 2 * (s.radius / s.zs) ^ 2 / (s.n + 1) := by
    rw [eq_div_iff (by have := h.n_pos; positivity), e2]
  have hn := h.n_pos
  rw [e3]
  have hm : s.mass = -(4 * π * s.rho0 * s.radius ^ 3 * Th' s.zs) / s.zs := by
    rw [eq_div_iff hz.ne', e1]; ring
  rw [hm]
  field_simp

/-! ### Star equations -/

theorem Sampled.mass_cont (h : Sampled s Th Th') (r : ℝ) (h0 : 0 < r) (h1 : r < s.radius) :
    HasDerivAt (mW s Th') (4 * π * r ^ 2 * rhoW s Th r) r := by
  obtain ⟨i0, i1⟩ := h.inside h0 h1
  have hs := h.solves.slope.ne
  have hr := h.radius_pos
  have hz := h.solves.zs_pos
  have ha := h.a_pos
  have d := scaled_deriv (c := s.mass / Th' s.zs) ha h.solves.deriv2 r h0
    (by rw [h.a_mul]; exact h1)
  have d2 : HasDerivAt (fun r : ℝ => (r / s.radius) ^ 2) (2 * r / s.radius ^ 2) r := by
    have := ((hasDerivAt_id r).div_const s.radius).pow 2
    refine this.congr_deriv ?_
    simp; field_simp
  have e := d.mul d2
  have e1 := h.rho0_rel
  have e' : HasDerivAt (mW s Th') _ r := e.congr_of_eventuallyEq (Eventually.of_forall fun x => by
    simp only [mW, Pi.mul_apply]; ring)
  refine e'.congr_deriv ?_
  · have hm : s.mass = -(4 * π * s.rho0 * s.radius ^ 3 * Th' s.zs) / s.zs := by
      rw [eq_div_iff hz.ne', e1]; ring
    rw [hm]
    unfold rhoW
    generalize Th (r / (s.radius / s.zs)) ^ s.n = t
    generalize Th' (r / (s.radius / s.zs)) = t'
    field_simp
    ring

theorem Sampled.pressure_deriv (h : Sampled s Th Th') (r : ℝ) (h0 : 0 < r) (h1 : r < s.radius) :
    HasDerivAt (pW s Th) (-(s.G * mW s Th' r / r ^ 2) * rhoW s Th r) r := by
  have ha := h.a_pos
  have d := scaled_deriv (c := s.p0) ha (h.solves.pow_deriv (s.n + 1)) r h0
    (by rw [h.a_mul]; exact h1)
  refine d.congr_deriv ?_
  rw [h.grav_eq r h0, h.grav_rel]
  have := h.rho0_pos
  unfold rhoW
  rw [add_sub_cancel_right]
  field_simp
  try ring

theorem Sampled.star (h : Sampled s Th Th') :
    Star s.n s.G s.mass s.radius (rhoW s Th) (pW s Th) (mW s Th') := by
  have hr := h.radius_pos
  have hz := h.solves.zs_pos
  have ha := h.a_pos
  have hs := h.solves.slope.ne
  have hn := h.n_pos
  have lim0 : Tendsto (fun r => r / (s.radius / s.zs)) (𝓝[>] 0) (𝓝[>] 0) := by
    refine tendsto_nhdsWithin_of_tendsto_nhds_of_eventually_within _ ?_ ?_
    · have : Tendsto (fun r : ℝ => r / (s.radius / s.zs)) (𝓝 0) (𝓝 (0 / (s.radius / s.zs))) :=
        tendsto_id.div_const _
      rw [zero_div] at this
      exact this.mono_left nhdsWithin_le_nhds
    · filter_upwards [self_mem_nhdsWithin] with r hr'
      exact div_pos hr' ha
  have lim1 : Tendsto (fun r => r / (s.radius / s.zs)) (𝓝[<] s.radius) (𝓝[<] s.zs) := by
    refine tendsto_nhdsWithin_of_tendsto_nhds_of_eventually_within _ ?_ ?_
    · have : Tendsto (fun r : ℝ => r / (s.radius / s.zs)) (𝓝 s.radius)
          (𝓝 (s.radius / (s.radius / s.zs))) := tendsto_id.div_const _
      rw [show s.radius / (s.radius / s.zs) = s.zs by field_simp] at this
      exact this.mono_left nhdsWithin_le_nhds
    · filter_upwards [self_mem_nhdsWithin] with r hr'
      show r / (s.radius / s.zs) < s.zs
      rw [div_lt_iff₀ ha, mul_comm, h.a_mul]; exact hr'
  refine ⟨fun r h0 h1 => ?_, h.mass_cont, h.pressure_deriv, ?_, ?_, ⟨?_, ?_⟩, ?_⟩
  · obtain ⟨i0, i1⟩ := h.inside h0 h1
    exact mul_pos h.rho0_pos (rpow_pos_of_pos (h.solves.pos _ i0 i1) _)
  · refine ⟨s.p0 / s.rho0 ^ (1 + 1 / s.n),
      div_pos h.p0_pos (rpow_pos_of_pos h.rho0_pos _), fun r h0 h1 => ?_⟩
    obtain ⟨i0, i1⟩ := h.inside h0 h1
    have hp := h.solves.pos _ i0 i1
    unfold pW rhoW
    rw [mul_rpow h.rho0_pos.le (rpow_nonneg hp.le _), ← rpow_mul hp.le,
      show s.n * (1 + 1 / s.n) = s.n + 1 by field_simp]
    have := (rpow_pos_of_pos h.rho0_pos (1 + 1 / s.n)).ne'
    generalize s.rho0 ^ (1 + 1 / s.n) = q at *
    generalize Th (r / (s.radius / s.zs)) ^ (s.n + 1) = q' at *
    field_simp
  · have a := h.solves.centre_lim.comp lim0
    have b : Tendsto (fun r : ℝ => (r / s.radius) ^ 2) (𝓝[>] 0) (𝓝 0) := by
      have : Tendsto (fun r : ℝ => (r / s.radius) ^ 2) (𝓝 0) (𝓝 ((0 / s.radius) ^ 2)) :=
        (tendsto_id.div_const _).pow 2
      simp only [zero_div, ne_eq, OfNat.ofNat_ne_zero, not_false_eq_true, zero_pow] at this
      exact this.mono_left nhdsWithin_le_nhds
    have := ((a.div_const (Th' s.zs)).const_mul s.mass).mul b
    rw [mul_zero] at this
    exact this
  · unfold mW
    rw [show s.radius / (s.radius / s.zs) = s.zs by field_simp, div_self hs, div_self hr.ne']
    ring
  · have a := h.solves.slope_lim.comp lim1
    have b : Tendsto (fun r : ℝ => (r / s.radius) ^ 2) (𝓝[<] s.radius) (𝓝 1) := by
      have : Tendsto (fun r : ℝ => (r / s.radius) ^ 2) (𝓝 s.radius)
          (𝓝 ((s.radius / s.radius) ^ 2)) := (tendsto_id.div_const _).pow 2
      rw [div_self hr.ne', one_pow] at this
      exact this.mono_left nhdsWithin_le_nhds
    have := ((a.div_const (Th' s.zs)).const_mul s.mass).mul b
    rw [div_self hs, mul_one, mul_one] at this
    exact this
  · have a := h.solves.surface_lim.comp lim1
    have b := (a.rpow_const (p := s.n + 1) (Or.inr (by positivity))).const_mul s.p0
    rw [zero_rpow (by positivity), mul_zero] at b
    exact b

/-- The input index `i` and what is reported there, for a point strictly inside the star. -/
def Interior (s : Inp) (i : ℕ) (p : Pt) (o : Out) : Prop :=
  s.grid[i]? = some p ∧ s.profiles[i]? = some o ∧ 0 < p.z ∧ p.z < s.zs

theorem Interior.out {i : ℕ} {p : Pt} {o : Out} (h : Interior s i p o) :
    o = s.point p ∧ p ∈ s.grid := by
  obtain ⟨h1, h2, -, -⟩ := h
  unfold Inp.profiles at h2
  rw [List.getElem?_map, h1] at h2
  simp only [Option.map_some, Option.some.injEq] at h2
  exact ⟨h2.symm, List.mem_of_getElem? h1⟩

theorem Sampled.values (h : Sampled s Th Th') {i : ℕ} {p : Pt} {o : Out} (hi : Interior s i p o) :
    ValuesMatch (rhoW s Th) (pW s Th) (mW s Th') o := by
  obtain ⟨rfl, hp⟩ := hi.out
  unfold ValuesMatch rhoW pW mW
  rw [h.r_div]
  refine ⟨?_, ?_, ?_⟩
  · simp only [Inp.point, Inp.rhoNorm, h.theta p hp]; ring
  · simp only [Inp.point, Inp.pNorm, h.theta p hp]; ring
  · have : (s.point p).r / s.radius = p.z / s.zs := by
      have := h.radius_pos; have := h.solves.zs_pos
      rw [h.r_eq]; field_simp
    rw [this]
    simp only [Inp.point, Inp.mr, Inp.dtRatio, Inp.x, h.dtheta p hp, h.last_dtheta, rpow_two]

/-! ### Derivative chains -/

theorem LaneEmden.rho_chain2 {n zs : ℝ} (h : LaneEmden n zs Th Th') (k z : ℝ) (h0 : 0 < z)
    (h1 : z < zs) : HasDerivAt (fun z => Th' z * k * Th z ^ (k - 1))
      (k * ((k - 1) * Th z ^ (k - 1 - 1) * Th' z ^ 2 + Th z ^ (k - 1) * le2 n Th Th' z)) z := by
  have a := h.pow_deriv (k - 1) z h0 h1
  have b := ((h.deriv2 z h0 h1).mul_const k).mul a
  refine b.congr_deriv ?_
  unfold le2; ring

theorem LaneEmden.rho_chain3 {n zs : ℝ} (h : LaneEmden n zs Th Th') (k z : ℝ) (h0 : 0 < z)
    (h1 : z < zs) : HasDerivAt
      (fun z => k * ((k - 1) * Th z ^ (k - 1 - 1) * Th' z ^ 2 + Th z ^ (k - 1) * le2 n Th Th' z))
      (k * ((k - 1) * ((k - 1 - 1) * Th z ^ (k - 1 - 1 - 1) * Th' z ^ 3
        + 3 * Th z ^ (k - 1 - 1) * le2 n Th Th' z * Th' z) + Th z ^ (k - 1) * le3 n Th Th' z)) z := by
  have a := h.pow_deriv (k - 1) z h0 h1
  have b := h.pow_deriv (k - 1 - 1) z h0 h1
  have c := (h.deriv2 z h0 h1).pow 2
  have d := h.deriv3 z h0 h1
  have e := (((b.const_mul (k - 1)).mul c).add (a.mul d)).const_mul k
  refine e.congr_deriv ?_
  have : -(Th z ^ n) - 2 / z * Th' z = le2 n Th Th' z := rfl
  rw [this]
  push_cast
  simp only [Pi.pow_apply, Nat.add_one_sub_one, pow_one]
  ring

theorem conv_eq (h : Sampled s Th Th') (k : ℕ) (d f : ℝ) :
    s.conv k d f = f / (s.radius / s.zs) ^ k * d := by
  unfold Inp.conv
  rw [h.alpha_eq, rpow_neg h.a_pos.le, rpow_natCast]
  field_simp

theorem Sampled.derivs (h : Sampled s Th Th') {i : ℕ} {p : Pt} {o : Out} (hi : Interior s i p o) :
    DerivsMatch (rhoW s Th) (pW s Th) o := by
  obtain ⟨rfl, hp⟩ := hi.out
  obtain ⟨-, -, hz0, hz1⟩ := hi
  obtain ⟨r0, r1⟩ := h.r_inside hz0 hz1
  have ha := h.a_pos
  have ht := h.theta p hp
  have hd := h.dtheta p hp
  have hpos := h.solves.pos _ hz0 hz1
  have key : ∀ c k : ℝ, _ := fun c k => scaled_derivs (c := c) ha (h.solves.pow_deriv k)
    (h.solves.rho_chain2 k) (h.solves.rho_chain3 k) (s.point p).r r0 (by rw [h.a_mul]; exact r1)
  have pw1 : Th p.z ^ s.n = Th p.z ^ (s.n - 1) * Th p.z := by
    rw [← rpow_add_one hpos.ne']; ring_nf
  have pw2 : Th p.z ^ (s.n - 1) = Th p.z ^ (s.n - 1 - 1) * Th p.z := by
    rw [← rpow_add_one hpos.ne']; ring_nf
  refine ⟨?_, ?_⟩
  · have := key s.rho0 s.n
    rw [h.r_div] at this
    unfold Derivs at this ⊢
    simp only [Inp.point, conv_eq h, Inp.drhoDz, Inp.drhoDz2, Inp.drhoDz3,
      dtheta2_eq p hz0.ne' ht hd, dtheta3_eq p hz0.ne' ht hd, ht, hd, rpow_two, rpow_three] at this ⊢
    refine ⟨this.1.congr_deriv ?_, this.2.1.congr_deriv ?_, this.2.2.congr_deriv ?_⟩
    · field_simp
    · field_simp
    · field_simp
  · have := key s.p0 (s.n + 1)
    rw [h.r_div] at this
    unfold Derivs at this ⊢
    simp only [Inp.point, conv_eq h, Inp.dpDz, Inp.dpDz2, Inp.dpDz3,
      dtheta2_eq p hz0.ne' ht hd, dtheta3_eq p hz0.ne' ht hd, ht, hd, rpow_two, rpow_three,
      add_sub_cancel_right] at this ⊢
    refine ⟨this.1.congr_deriv ?_, this.2.1.congr_deriv ?_, this.2.2.congr_deriv ?_⟩
    · field_simp
    · rw [pw1]
      generalize le2 s.n Th Th' p.z = l2
      field_simp
    · rw [pw1, pw2]
      generalize le2 s.n Th Th' p.z = l2
      generalize le3 s.n Th Th' p.z = l3
      field_simp

theorem Sampled.gravity (h : Sampled s Th Th') {i : ℕ} {p : Pt} {o : Out}
    (hi : Interior s i p o) : GravityMatch s.G (mW s Th') o := by
  obtain ⟨rfl, hp⟩ := hi.out
  obtain ⟨-, -, hz0, hz1⟩ := hi
  obtain ⟨r0, r1⟩ := h.r_inside hz0 hz1
  have ha := h.a_pos
  have ht := h.theta p hp
  have hd := h.dtheta p hp
  have hr := h.radius_pos
  have hs := h.solves.slope.ne
  have g1 : ∀ x, 0 < x → x < s.radius → HasDerivAt (fun r => s.G * mW s Th' r / r ^ 2)
      (s.G * s.mass / s.radius ^ 2 / Th' s.zs / (s.radius / s.zs) *
        le2 s.n Th Th' (x / (s.radius / s.zs))) x := fun x x0 x1 =>
    congr_near (b := s.radius) (fun y y0 _ => h.grav_eq y y0)
      (scaled_deriv ha h.solves.deriv2 x x0 (by rw [h.a_mul]; exact x1)) x0 x1
  have g2 : HasDerivAt (deriv (fun r => s.G * mW s Th' r / r ^ 2))
      (s.G * s.mass / s.radius ^ 2 / Th' s.zs / (s.radius / s.zs) / (s.radius / s.zs) *
        le3 s.n Th Th' ((s.point p).r / (s.radius / s.zs))) (s.point p).r :=
    congr_near (b := s.radius) (fun y y0 y1 => (g1 y y0 y1).deriv)
      (scaled_deriv ha h.solves.deriv3 _ r0 (by rw [h.a_mul]; exact r1)) r0 r1
  refine ⟨?_, ?_, (g1 _ r0 r1).congr_deriv ?_, g2.congr_deriv ?_⟩
  · rw [h.grav_eq _ r0, h.grav_rel, h.r_div]
    simp only [Inp.point, conv_eq h, Inp.dgravDz, Inp.gravFactor, hd]
    field_simp
  · rw [h.grav_eq _ r0, h.r_div]
    simp only [Inp.point, Inp.surfGrav, Inp.dtRatio, hd, h.last_dtheta, rpow_two]
    field_simp
  · rw [h.grav_rel, h.r_div]
    simp only [Inp.point, conv_eq h, Inp.dgravDz2, Inp.gravFactor, dtheta2_eq p hz0.ne' ht hd]
    field_simp
  · rw [h.grav_rel, h.r_div]
    simp only [Inp.point, conv_eq h, Inp.dgravDz3, Inp.gravFactor, dtheta3_eq p hz0.ne' ht hd]
    field_simp

/-! ### Structure factors -/

theorem LaneEmden.neg' {n zs : ℝ} (h : LaneEmden n zs Th Th') (z : ℝ) (h0 : 0 < z) (h1 : z < zs) :
    Th' z < 0 := by
  have hd : ∀ x, 0 < x → x < zs →
      HasDerivAt (fun z => z ^ 2 * Th' z) (-(x ^ 2 * Th x ^ n)) x := fun x x0 x1 => by
    have := ((hasDerivAt_pow 2 x).mul (h.deriv2 x x0 x1))
    refine this.congr_deriv ?_
    push_cast
    field_simp
    ring
  have anti : StrictAntiOn (fun z => z ^ 2 * Th' z) (Set.Ico 0 zs) := by
    refine strictAntiOn_of_deriv_neg (convex_Ico 0 zs) ?_ ?_
    · intro x hx
      rcases hx.1.eq_or_lt with rfl | hx0
      · have a : ContinuousWithinAt Th' (Set.Ioi 0) 0 := by
          unfold ContinuousWithinAt; rw [h.centre']; exact h.centre_lim
        have b := (continuousWithinAt_Ioi_iff_Ici.1 a).mono
          (Set.Ico_subset_Ici_self : Set.Ico 0 zs ⊆ Set.Ici 0)
        exact ((continuous_pow 2).continuousWithinAt).mul b
      · exact (hd x hx0 hx.2).continuousAt.continuousWithinAt
    · intro x hx
      rw [interior_Ico] at hx
      rw [(hd x hx.1 hx.2).deriv]
      have := rpow_pos_of_pos (h.pos x hx.1 hx.2) n
      have := hx.1
      have : 0 < x ^ 2 * Th x ^ n := by positivity
      linarith
  have := anti (Set.left_mem_Ico.2 h.zs_pos) ⟨h0.le, h1⟩ h0
  simp only [ne_eq, OfNat.ofNat_ne_zero, not_false_eq_true, zero_pow, zero_mul] at this
  by_contra hc
  have : 0 ≤ z ^ 2 * Th' z := mul_nonneg (by positivity) (not_lt.1 hc)
  linarith

theorem Sampled.factors (h : Sampled s Th Th') {i : ℕ} {p : Pt} {o : Out}
    (hi : Interior s i p o) :
    FactorsMatch s.G s.mass s.radius (rhoW s Th) (pW s Th) (mW s Th') p.gamma1 o := by
  obtain ⟨rfl, hp⟩ := hi.out
  obtain ⟨-, -, hz0, hz1⟩ := hi
  obtain ⟨r0, r1⟩ := h.r_inside hz0 hz1
  have ha := h.a_pos
  have ht := h.theta p hp
  have hd := h.dtheta p hp
  have hr := h.radius_pos
  have hz := h.solves.zs_pos
  have hs := h.solves.slope.ne
  have hneg := (h.solves.neg' p.z hz0 hz1).ne
  have hpos := h.solves.pos p.z hz0 hz1
  have hr0 := h.rho0_pos
  have hp0 := h.p0_pos
  have hm := h.mass_pos
  have hn := h.n_pos
  have r1' : (s.point p).r < s.radius / s.zs * s.zs := by rw [h.a_mul]; exact r1
  have dP : deriv (pW s Th) (s.point p).r = _ :=
    (scaled_deriv (c := s.p0) ha (h.solves.pow_deriv (s.n + 1)) _ r0 r1').deriv
  have dR : deriv (rhoW s Th) (s.point p).r = _ :=
    (scaled_deriv (c := s.rho0) ha (h.solves.pow_deriv s.n) _ r0 r1').deriv
  have dM : deriv (mW s Th') (s.point p).r = _ := (h.mass_cont _ r0 r1).deriv
  have pw1 : Th p.z ^ s.n ≠ 0 := (rpow_pos_of_pos hpos _).ne'
  have hth : p.theta ≠ 0 := by rw [ht]; exact hpos.ne'
  have hx : s.x p ≠ 0 := (div_pos hz0 hz).ne'
  have hdt : s.dtRatio p ≠ 0 := by
    unfold Inp.dtRatio; rw [hd, h.last_dtheta]; exact div_ne_zero hneg hs
  have hxR : (s.point p).r / s.radius = p.z / s.zs := by rw [h.r_eq]; field_simp
  have qP : (s.point p).r * deriv (pW s Th) (s.point p).r / pW s Th (s.point p).r
      = p.z * (s.n + 1) * Th' p.z / Th p.z := by
    rw [dP]; unfold pW; rw [h.r_div, h.r_eq, add_sub_cancel_right, rpow_add_one hpos.ne']
    field_simp
  have qR : (s.point p).r * deriv (rhoW s Th) (s.point p).r / rhoW s Th (s.point p).r
      = p.z * s.n * Th' p.z / Th p.z := by
    rw [dR]; unfold rhoW
    have : Th p.z ^ s.n = Th p.z ^ (s.n - 1) * Th p.z := by
      rw [← rpow_add_one hpos.ne']; ring_nf
    have q : Th p.z ^ (s.n - 1) ≠ 0 := (rpow_pos_of_pos hpos _).ne'
    rw [h.r_div, h.r_eq, this]
    generalize Th p.z ^ (s.n - 1) = w at *
    field_simp
  have eM : mW s Th' (s.point p).r = s.mass * (Th' p.z / Th' s.zs) * (p.z / s.zs) ^ 2 := by
    unfold mW; rw [hxR, h.r_div]
  have qM : (s.point p).r * deriv (mW s Th') (s.point p).r / mW s Th' (s.point p).r
      = -p.z * Th p.z ^ s.n / Th' p.z := by
    rw [dM, eM]; unfold rhoW
    have hpi := pi_pos
    rw [h.r_div, h.r_eq, h.rho0_eq]
    field_simp
  have qG : s.G * mW s Th' (s.point p).r / (s.point p).r ^ 2
      = s.G * s.mass / s.radius ^ 2 * (Th' p.z / Th' s.zs) := by
    rw [h.grav_eq _ r0, h.r_div]; field_simp
  have eDT : dtTRatio p = .fin (Th' p.z / Th p.z) := by
    unfold dtTRatio; rw [fin_div hth, ht, hd]
  have eV : s.v p = .fin (-p.z * (s.n + 1) * (Th' p.z / Th p.z)) := by
    unfold Inp.v; rw [eDT]; rfl
  have eA : s.as p = .fin (-p.z * (s.n + 1) * (Th' p.z / Th p.z) *
      (s.n / (s.n + 1) - 1 / p.gamma1)) := by
    unfold Inp.as; rw [eV]; rfl
  have hn1 : s.n + 1 ≠ 0 := by positivity
  have aA : -p.z * (s.n + 1) * (Th' p.z / Th p.z) * (s.n / (s.n + 1) - 1 / p.gamma1)
      = p.z * (s.n + 1) * Th' p.z / Th p.z / p.gamma1 - p.z * s.n * Th' p.z / Th p.z := by
    have : (s.n + 1) * (s.n / (s.n + 1)) = s.n := by field_simp
    calc _ = -p.z * (Th' p.z / Th p.z) * ((s.n + 1) * (s.n / (s.n + 1)) - (s.n + 1) / p.gamma1) := by
            ring
      _ = _ := by rw [this]; ring
  unfold FactorsMatch
  simp only
  rw [qP, qR, qM, qG, eM, hxR]
  refine ⟨?_, ?_, ?_, ?_, ?_, ?_⟩
  · show s.v p = _
    rw [eV]; congr 1; ring
  · show s.v2 p = _
    unfold Inp.v2
    rw [eDT, fin_div hx]
    simp only [F.mul, Inp.x]
    congr 1
    field_simp
  · show s.u p = _
    unfold Inp.u
    rw [ht, hd, fin_div hneg]
  · show s.c1 p = _
    unfold Inp.c1
    rw [fin_div hdt]
    simp only [Inp.x, Inp.dtRatio, hd, h.last_dtheta]
    congr 1
    field_simp
  · show s.as p = _
    rw [eA, aA]
  · show s.brunt p = _
    unfold Inp.brunt
    rw [eA, aA]
    simp only [F.mul]
    rw [fin_div (mul_ne_zero hx hr.ne')]
    congr 1
    simp only [Inp.surfGrav, Inp.dtRatio, Inp.x, hd, h.last_dtheta, rpow_two]
    rw [h.r_eq]
    field_simp

/-! ### The theorems -/

/-- **C79.** Whatever the polytropic index, mass, radius and grid: when the stored arrays sample a
Lane–Emden solution, the radius, density, pressure and enclosed mass reported at every interior
grid point are those of one polytropic star of exactly the requested mass and radius, whose radii
are the requested radius times the fractional grid coordinate. -/
theorem C79_polytropic_star (h : Sampled s Th Th') :
    ∃ rho P m, Star s.n s.G s.mass s.radius rho P m ∧
      s.profiles.length = s.grid.length ∧
      ∀ i p o, Interior s i p o →
        o.r = s.radius * (p.z / s.last.z) ∧ ValuesMatch rho P m o :=
  ⟨_, _, _, h.star, by simp [Inp.profiles], fun i p o hi => ⟨by
    rw [hi.out.1, h.r_eq]; simp only [Inp.zs]; ring, h.values hi⟩⟩

/-- **C80.** The reported first, second and third derivatives of density and pressure are, at every
interior grid point, exactly the derivatives with respect to radius of that star's density and
pressure. -/
theorem C80_polytropic_derivatives (h : Sampled s Th Th') :
    ∃ rho P m, Star s.n s.G s.mass s.radius rho P m ∧
      ∀ i p o, Interior s i p o → ValuesMatch rho P m o ∧ DerivsMatch rho P o :=
  ⟨_, _, _, h.star, fun _ _ _ hi => ⟨h.values hi, h.derivs hi⟩⟩

/-- **C81.** The reported gravity equals `G m / r²` of that star and the reported second and third
derivatives of the gravitational potential are its exact derivatives; hydrostatic equilibrium
holds between the reported numbers. -/
theorem C81_polytropic_gravity (h : Sampled s Th Th') :
    ∃ rho P m, Star s.n s.G s.mass s.radius rho P m ∧
      ∀ i p o, Interior s i p o →
        ValuesMatch rho P m o ∧ GravityMatch s.G m o ∧ o.dp = -(o.dgravpot * o.rho) := by
  refine ⟨_, _, _, h.star, fun i p o hi => ⟨h.values hi, h.gravity hi, ?_⟩⟩
  obtain ⟨r0, r1⟩ := h.r_inside hi.2.2.1 hi.2.2.2
  rw [← hi.out.1] at r0 r1
  have e := (h.derivs hi).2.1.unique (h.pressure_deriv o.r r0 r1)
  rw [e, (h.gravity hi).1, (h.values hi).1]; ring

/-- **C82.** The reported dimensionless structure functions and buoyancy frequency have their
textbook definitions for that star at every interior point. -/
theorem C82_polytropic_factors (h : Sampled s Th Th') :
    ∃ rho P m, Star s.n s.G s.mass s.radius rho P m ∧
      ∀ i p o, Interior s i p o →
        ValuesMatch rho P m o ∧ FactorsMatch s.G s.mass s.radius rho P m p.gamma1 o :=
  ⟨_, _, _, h.star, fun _ _ _ hi => ⟨h.values hi, h.factors hi⟩⟩

end Verif.Poly
