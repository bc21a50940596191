import Verif.Poly.Props
import Mathlib.Analysis.Calculus.LHopital

/-!
# C79, C83: the centre and the surface of the polytrope, and a concrete star
-/
namespace Verif.Poly

open Real Filter Topology

variable {s : Inp} {Th Th' : ℝ → ℝ}

theorem getElem?_profiles {i : ℕ} {p : Pt} {o : Out} (h1 : s.grid[i]? = some p)
    (h2 : s.profiles[i]? = some o) : o = s.point p ∧ p ∈ s.grid := by
  unfold Inp.profiles at h2
  rw [List.getElem?_map, h1] at h2
  simp only [Option.map_some, Option.some.injEq] at h2
  exact ⟨h2.symm, List.mem_of_getElem? h1⟩

/-- **C79** (surface). At the outermost grid point the reported radius, enclosed mass and gravity
are exactly `R`, `M` and `G M / R²`, and density and pressure vanish. -/
theorem C79_polytropic_surface (h : Sampled s Th Th') (o : Out)
    (ho : s.profiles[s.grid.length - 1]? = some o) :
    o.r = s.radius ∧ o.mr = s.mass ∧ o.surfgrav = s.G * s.mass / s.radius ^ 2 ∧
      o.dgravpot = s.G * s.mass / s.radius ^ 2 ∧ o.rho = 0 ∧ o.p = 0 := by
  have hl : s.grid[s.grid.length - 1]? = some s.last := by
    unfold Inp.last
    rw [List.getLastD_eq_getLast?, List.getLast?_eq_getLast_of_ne_nil h.grid_ne,
      ← List.getLast?_eq_getElem?, List.getLast?_eq_getLast_of_ne_nil h.grid_ne]
    rfl
  obtain ⟨rfl, hp⟩ := getElem?_profiles hl ho
  have hz := h.solves.zs_pos
  have hs := h.solves.slope.ne
  have hr := h.radius_pos
  have hn := h.n_pos
  have ht : s.last.theta = 0 := by rw [h.theta _ hp]; exact h.solves.surface
  have hd : s.last.dtheta ≠ 0 := by rw [h.last_dtheta]; exact hs
  refine ⟨?_, ?_, ?_, ?_, ?_, ?_⟩
  · rw [h.r_eq, show s.last.z = s.zs from rfl, mul_comm, h.a_mul]
  · simp only [Inp.point, Inp.mr, Inp.dtRatio, Inp.x]
    rw [div_self hd, show s.last.z = s.zs from rfl, div_self hz.ne', one_rpow]; ring
  · simp only [Inp.point, Inp.surfGrav, Inp.dtRatio]
    rw [div_self hd, rpow_two, mul_one]
  · have := h.grav_rel
    simp only [Inp.point, conv_eq h, Inp.dgravDz, Inp.gravFactor, h.last_dtheta]
    rw [div_eq_iff hs] at this
    rw [this, pow_one]
    field_simp
  · simp only [Inp.point, Inp.rhoNorm, ht]
    rw [zero_rpow hn.ne', zero_mul]
  · simp only [Inp.point, Inp.pNorm, ht]
    rw [zero_rpow (by positivity), zero_mul]

/-- Near the centre the slope of a Lane–Emden solution is `-z/3`. -/
theorem LaneEmden.slope_centre {n zs : ℝ} (h : LaneEmden n zs Th Th') :
    Tendsto (fun z => Th' z / z) (𝓝[>] 0) (𝓝 (-1 / 3)) := by
  have hd : ∀ x, 0 < x → x < zs →
      HasDerivAt (fun z => z ^ 2 * Th' z) (-(x ^ 2 * Th x ^ n)) x := fun x x0 x1 => by
    have := ((hasDerivAt_pow 2 x).mul (h.deriv2 x x0 x1))
    refine this.congr_deriv ?_
    push_cast
    field_simp
    ring
  have ev : ∀ᶠ x in 𝓝[>] (0 : ℝ), 0 < x ∧ x < zs := by
    filter_upwards [Ioo_mem_nhdsGT h.zs_pos] with x hx using hx
  have key : Tendsto (fun z => z ^ 2 * Th' z / z ^ 3) (𝓝[>] 0) (𝓝 (-1 / 3)) := by
    refine HasDerivAt.lhopital_zero_nhdsGT (f' := fun x => -(x ^ 2 * Th x ^ n))
      (g' := fun x => 3 * x ^ 2) ?_ ?_ ?_ ?_ ?_ ?_
    · filter_upwards [ev] with x hx using hd x hx.1 hx.2
    · filter_upwards [ev] with x hx
      refine (hasDerivAt_pow 3 x).congr_deriv ?_
      push_cast; ring
    · filter_upwards [ev] with x hx
      have := hx.1
      positivity
    · have : Tendsto (fun z : ℝ => z ^ 2) (𝓝[>] 0) (𝓝 0) := by
        have : Tendsto (fun z : ℝ => z ^ 2) (𝓝 0) (𝓝 (0 ^ 2)) := tendsto_id.pow 2
        rw [zero_pow two_ne_zero] at this
        exact this.mono_left nhdsWithin_le_nhds
      have := this.mul h.centre_lim
      rw [mul_zero] at this; exact this
    · have : Tendsto (fun z : ℝ => z ^ 3) (𝓝 0) (𝓝 (0 ^ 3)) := tendsto_id.pow 3
      rw [zero_pow three_ne_zero] at this
      exact this.mono_left nhdsWithin_le_nhds
    · have a := (h.centre_val.rpow_const (p := n) (Or.inl one_ne_zero)).neg.div_const 3
      rw [one_rpow] at a
      refine a.congr' ?_
      filter_upwards [ev] with x hx
      have := hx.1
      field_simp
  refine key.congr' ?_
  filter_upwards [ev] with x hx
  have := hx.1
  field_simp

theorem LaneEmden.le2_centre {n zs : ℝ} (h : LaneEmden n zs Th Th') :
    Tendsto (le2 n Th Th') (𝓝[>] 0) (𝓝 (-1 / 3)) := by
  have a := (h.centre_val.rpow_const (p := n) (Or.inl one_ne_zero)).neg
  have b := h.slope_centre.const_mul 2
  have c := a.sub b
  rw [one_rpow, show -(1 : ℝ) - 2 * (-1 / 3) = -1 / 3 by norm_num] at c
  refine c.congr' (Eventually.of_forall fun x => ?_)
  simp only [le2]; ring

theorem centre_dtheta2 (p : Pt) (hz : p.z = 0) (hd : p.dtheta = 0) : s.dtheta2 p = 0 := by
  unfold Inp.dtheta2
  simp [hz, hd, F.div, F.mul, F.neg, F.add, F.nanToNum]

theorem add_nan (x : F) : x.add .nan = .nan := by cases x <;> rfl

theorem centre_dtheta3 (p : Pt) (hz : p.z = 0) (hd : p.dtheta = 0) : s.dtheta3 p = 0 := by
  unfold Inp.dtheta3
  have : ((F.fin (-s.n * p.theta ^ (s.n - 1))).add
        ((F.fin 6).div (.fin (p.z ^ (2 : ℝ))))).mul (.fin p.dtheta) = .nan := by
    rw [rpow_two]
    simp [hz, hd, F.div, F.add, F.mul]
  rw [this, add_nan]; rfl

/-- **C83** (what does hold at the centre). At a grid point in the centre the reported radius,
enclosed mass, gravity, and first and third derivatives are zero, and density and pressure are the
limits of the star's density and pressure. -/
theorem C83_centre_values_partial (h : Sampled s Th Th') :
    ∃ rho P m, Star s.n s.G s.mass s.radius rho P m ∧
      ∀ (i : ℕ) (p : Pt) (o : Out), s.grid[i]? = some p → s.profiles[i]? = some o → p.z = 0 →
        o.r = 0 ∧ o.mr = 0 ∧ o.dgravpot = 0 ∧ o.surfgrav = 0 ∧ o.drho = 0 ∧ o.dp = 0 ∧
        o.drho3 = 0 ∧ o.dp3 = 0 ∧ o.dgravpot3 = 0 ∧
        Tendsto rho (𝓝[>] 0) (𝓝 o.rho) ∧ Tendsto P (𝓝[>] 0) (𝓝 o.p) := by
  refine ⟨_, _, _, h.star, fun i p o h1 h2 hz => ?_⟩
  obtain ⟨rfl, hp⟩ := getElem?_profiles h1 h2
  have hd : p.dtheta = 0 := by rw [h.dtheta p hp, hz]; exact h.solves.centre'
  have ht : p.theta = 1 := by rw [h.theta p hp, hz]; exact h.solves.centre
  have d2 := centre_dtheta2 (s := s) p hz hd
  have d3 := centre_dtheta3 (s := s) p hz hd
  have ha := h.a_pos
  have lim0 : Tendsto (fun r => r / (s.radius / s.zs)) (𝓝[>] 0) (𝓝[>] 0) := by
    refine tendsto_nhdsWithin_of_tendsto_nhds_of_eventually_within _ ?_ ?_
    · have : Tendsto (fun r : ℝ => r / (s.radius / s.zs)) (𝓝 0) (𝓝 (0 / (s.radius / s.zs))) :=
        tendsto_id.div_const _
      rw [zero_div] at this
      exact this.mono_left nhdsWithin_le_nhds
    · filter_upwards [self_mem_nhdsWithin] with r hr'
      exact div_pos hr' ha
  have lT := h.solves.centre_val.comp lim0
  refine ⟨?_, ?_, ?_, ?_, ?_, ?_, ?_, ?_, ?_, ?_, ?_⟩
  · simp [Inp.point, hz]
  · simp [Inp.point, Inp.mr, Inp.dtRatio, hd]
  · simp [Inp.point, Inp.conv, Inp.dgravDz, hd]
  · simp [Inp.point, Inp.surfGrav, Inp.dtRatio, hd]
  · simp [Inp.point, Inp.conv, Inp.drhoDz, hd]
  · simp [Inp.point, Inp.conv, Inp.dpDz, hd]
  · simp [Inp.point, Inp.conv, Inp.drhoDz3, hd, d2, d3]
  · simp [Inp.point, Inp.conv, Inp.dpDz3, hd, d2, d3]
  · simp [Inp.point, Inp.conv, Inp.dgravDz3, d3]
  · have := (lT.rpow_const (p := s.n) (Or.inl one_ne_zero)).const_mul s.rho0
    rw [show (s.point p).rho = s.rho0 * 1 ^ s.n by simp [Inp.point, Inp.rhoNorm, ht]]
    exact this
  · have := (lT.rpow_const (p := s.n + 1) (Or.inl one_ne_zero)).const_mul s.p0
    rw [show (s.point p).p = s.p0 * 1 ^ (s.n + 1) by simp [Inp.point, Inp.pNorm, ht]]
    exact this

/-- **C83** is false for the second derivatives: at a grid point in the centre the code reports
zero for the second derivatives of density, pressure and gravitational potential (the undefined
quotient is replaced by zero), for *every* polytrope, although the second derivative of the
potential tends to `4 π G ρc / 3`, which is not zero. -/
theorem C83_centre_second_derivative_wrong (h : Sampled s Th Th') :
    ∃ rho P m, Star s.n s.G s.mass s.radius rho P m ∧
      ∀ (i : ℕ) (p : Pt) (o : Out), s.grid[i]? = some p → s.profiles[i]? = some o → p.z = 0 →
        o.drho2 = 0 ∧ o.dp2 = 0 ∧ o.dgravpot2 = 0 ∧
        Tendsto (deriv (fun r => s.G * m r / r ^ 2)) (𝓝[>] 0) (𝓝 (4 * π * s.G * o.rho / 3)) ∧
        4 * π * s.G * o.rho / 3 ≠ 0 := by
  refine ⟨_, _, _, h.star, fun i p o h1 h2 hz => ?_⟩
  obtain ⟨rfl, hp⟩ := getElem?_profiles h1 h2
  have hd : p.dtheta = 0 := by rw [h.dtheta p hp, hz]; exact h.solves.centre'
  have ht : p.theta = 1 := by rw [h.theta p hp, hz]; exact h.solves.centre
  have d2 := centre_dtheta2 (s := s) p hz hd
  have ha := h.a_pos
  have hr := h.radius_pos
  have hzs := h.solves.zs_pos
  have hs := h.solves.slope.ne
  have hpi := pi_pos
  have lim0 : Tendsto (fun r => r / (s.radius / s.zs)) (𝓝[>] 0) (𝓝[>] 0) := by
    refine tendsto_nhdsWithin_of_tendsto_nhds_of_eventually_within _ ?_ ?_
    · have : Tendsto (fun r : ℝ => r / (s.radius / s.zs)) (𝓝 0) (𝓝 (0 / (s.radius / s.zs))) :=
        tendsto_id.div_const _
      rw [zero_div] at this
      exact this.mono_left nhdsWithin_le_nhds
    · filter_upwards [self_mem_nhdsWithin] with r hr'
      exact div_pos hr' ha
  have hrho : (s.point p).rho = s.rho0 := by simp [Inp.point, Inp.rhoNorm, ht]
  refine ⟨?_, ?_, ?_, ?_, ?_⟩
  · simp [Inp.point, Inp.conv, Inp.drhoDz2, hd, d2]
  · simp [Inp.point, Inp.conv, Inp.dpDz2, hd, d2]
  · simp [Inp.point, Inp.conv, Inp.dgravDz2, d2]
  · have a := (h.solves.le2_centre.comp lim0).const_mul
      (s.G * s.mass / s.radius ^ 2 / Th' s.zs / (s.radius / s.zs))
    have hm : s.mass = -(4 * π * s.rho0 * s.radius ^ 3 * Th' s.zs) / s.zs := by
      rw [eq_div_iff hzs.ne', h.rho0_rel]; ring
    rw [show s.G * s.mass / s.radius ^ 2 / Th' s.zs / (s.radius / s.zs) * (-1 / 3)
      = 4 * π * s.G * (s.point p).rho / 3 by rw [hrho, hm]; field_simp] at a
    refine a.congr' ?_
    filter_upwards [Ioo_mem_nhdsGT hr] with x hx
    refine (congr_near (b := s.radius) (fun y y0 _ => h.grav_eq y y0)
      (scaled_deriv ha h.solves.deriv2 x hx.1 (by rw [h.a_mul]; exact hx.2)) hx.1 hx.2).deriv.symm
  · rw [hrho]
    have := h.rho0_pos
    have := h.G_pos
    positivity

/-- **C83** is false for the structure functions too: at a grid point in the centre `V_2`, `U`,
`c1` and the buoyancy frequency are reported as NaN. -/
theorem C83_centre_nan_wrong (h : Sampled s Th Th') (i : ℕ) (p : Pt) (o : Out)
    (h1 : s.grid[i]? = some p) (h2 : s.profiles[i]? = some o) (hz : p.z = 0) :
    o.v2 = .nan ∧ o.u = .nan ∧ o.c1 = .nan ∧ o.bruntN2 = .nan := by
  obtain ⟨rfl, hp⟩ := getElem?_profiles h1 h2
  have hd : p.dtheta = 0 := by rw [h.dtheta p hp, hz]; exact h.solves.centre'
  have ht : p.theta = 1 := by rw [h.theta p hp, hz]; exact h.solves.centre
  have hzs := h.solves.zs_pos.ne'
  simp [Inp.point, Inp.v2, Inp.u, Inp.c1, Inp.brunt, Inp.as, Inp.v, Inp.x, Inp.dtRatio, dtTRatio,
    Inp.surfGrav, hz, hd, ht, F.div, F.mul, hzs]

/-! ### A concrete star: the polytrope of index 1 -/

noncomputable def th1 (z : ℝ) : ℝ := if z = 0 then 1 else sin z / z
noncomputable def th1' (z : ℝ) : ℝ := if z = 0 then 0 else (z * cos z - sin z) / z ^ 2

theorem th1'_bound (z : ℝ) (h0 : 0 < z) (h1 : z ≤ 1) : |th1' z| ≤ z / 2 := by
  unfold th1'
  rw [if_neg h0.ne', abs_le]
  have a := sin_le h0.le
  have b := sin_gt_sub_cube h0
  have c := one_sub_sq_div_two_le_cos (x := z)
  have d := cos_le_one z
  have e : z * (1 - z ^ 2 / 2) ≤ z * cos z := by gcongr
  have f : z * cos z ≤ z * 1 := by gcongr
  constructor
  · rw [le_div_iff₀ (by positivity)]; nlinarith
  · rw [div_le_iff₀ (by positivity)]; nlinarith [pow_pos h0 3]

theorem laneEmden_one : LaneEmden 1 π th1 th1' := by
  have hev : ∀ z : ℝ, 0 < z → ∀ᶠ x in 𝓝 z, x ≠ 0 := fun z hz =>
    isOpen_ne.mem_nhds hz.ne'
  have hsin : ∀ z : ℝ, 0 < z → HasDerivAt (fun z => sin z / z) ((z * cos z - sin z) / z ^ 2) z :=
    fun z hz => ((hasDerivAt_sin z).div (hasDerivAt_id z) hz.ne').congr_deriv (by simp; ring)
  have hsin' : ∀ z : ℝ, 0 < z → HasDerivAt (fun z => (z * cos z - sin z) / z ^ 2)
      (-(sin z / z) - 2 / z * ((z * cos z - sin z) / z ^ 2)) z := fun z hz => by
    have a := (((hasDerivAt_id z).mul (hasDerivAt_cos z)).sub (hasDerivAt_sin z)).div
      (hasDerivAt_pow 2 z) (by positivity)
    refine a.congr_deriv ?_
    simp
    field_simp
  have e1 : ∀ z : ℝ, 0 < z → th1 =ᶠ[𝓝 z] fun z => sin z / z := fun z hz => by
    filter_upwards [hev z hz] with x hx; simp [th1, hx]
  have e2 : ∀ z : ℝ, 0 < z → th1' =ᶠ[𝓝 z] fun z => (z * cos z - sin z) / z ^ 2 := fun z hz => by
    filter_upwards [hev z hz] with x hx; simp [th1', hx]
  have c1 : ∀ z : ℝ, 0 < z → ContinuousAt th1 z := fun z hz =>
    ((hsin z hz).congr_of_eventuallyEq (e1 z hz)).continuousAt
  have c2 : ∀ z : ℝ, 0 < z → ContinuousAt th1' z := fun z hz =>
    ((hsin' z hz).congr_of_eventuallyEq (e2 z hz)).continuousAt
  refine ⟨pi_pos, ?_, ?_, ?_, by simp [th1], by simp [th1'], ?_, ?_, ?_, ?_, ?_, ?_⟩
  · intro z h0 h1
    simp only [th1, if_neg h0.ne']
    exact div_pos (sin_pos_of_pos_of_lt_pi h0 h1) h0
  · intro z h0 h1
    have := (hsin z h0).congr_of_eventuallyEq (e1 z h0)
    rwa [show (z * cos z - sin z) / z ^ 2 = th1' z by simp [th1', h0.ne']] at this
  · intro z h0 h1
    have := (hsin' z h0).congr_of_eventuallyEq (e2 z h0)
    simpa [th1', th1, h0.ne'] using this
  · have a : HasDerivAt sin 1 0 := by simpa using hasDerivAt_sin 0
    have b := hasDerivAt_iff_tendsto_slope_zero.1 a
    have b' := b.mono_left (nhdsWithin_mono (0 : ℝ) (fun x (hx : 0 < x) => (hx.ne' : x ≠ 0)) :
      𝓝[>] (0 : ℝ) ≤ 𝓝[≠] 0)
    refine b'.congr' ?_
    filter_upwards [self_mem_nhdsWithin] with x hx
    have hx : 0 < x := hx
    simp [th1, hx.ne']; field_simp
  · have : Tendsto (fun z : ℝ => z / 2) (𝓝[>] 0) (𝓝 0) := by
      have : Tendsto (fun z : ℝ => z / 2) (𝓝 0) (𝓝 (0 / 2)) := tendsto_id.div_const 2
      rw [zero_div] at this
      exact this.mono_left nhdsWithin_le_nhds
    refine squeeze_zero_norm' ?_ this
    filter_upwards [Ioo_mem_nhdsGT one_pos] with x hx
    exact th1'_bound x hx.1 hx.2.le
  · simp [th1, pi_ne_zero]
  · have := (c1 π pi_pos).tendsto.mono_left (nhdsWithin_le_nhds (s := Set.Iio π))
    rwa [show th1 π = 0 by simp [th1, pi_ne_zero]] at this
  · simp only [th1', if_neg pi_ne_zero, cos_pi, sin_pi]
    have := pi_pos
    rw [show (π * -1 - 0) / π ^ 2 = -(1 / π) by field_simp; ring]
    have : 0 < 1 / π := by positivity
    linarith
  · exact (c2 π pi_pos).tendsto.mono_left nhdsWithin_le_nhds

/-- A three-point grid (centre, half radius, surface) of the polytrope of index 1. -/
noncomputable def ex : Inp where
  n := 1
  G := 1
  mass := 2
  radius := 3
  grid := [⟨0, th1 0, th1' 0, 5/3⟩, ⟨π / 2, th1 (π / 2), th1' (π / 2), 5/3⟩, ⟨π, th1 π, th1' π, 5/3⟩]
  big := 2 ^ 1000

/-- The hypotheses of C79–C83 are met: a star with a centre, an interior and a surface point. -/
theorem ex_sampled : Sampled ex th1 th1' := by
  refine ⟨by norm_num [ex], by norm_num [ex], by norm_num [ex], by norm_num [ex],
    by simp [ex], ?_, ?_, ?_⟩
  · exact laneEmden_one
  · intro p hp; simp [ex] at hp; rcases hp with rfl | rfl | rfl <;> rfl
  · intro p hp; simp [ex] at hp; rcases hp with rfl | rfl | rfl <;> rfl

example : ∃ p o, Interior ex 1 p o := by
  refine ⟨⟨π / 2, th1 (π / 2), th1' (π / 2), 5/3⟩, ex.point ⟨π / 2, th1 (π / 2), th1' (π / 2), 5/3⟩,
    rfl, rfl, ?_, ?_⟩
  · have := pi_pos; positivity
  · show π / 2 < π
    linarith [pi_pos]

example : ∃ p o, ex.grid[0]? = some p ∧ ex.profiles[0]? = some o ∧ p.z = 0 := ⟨_, _, rfl, rfl, rfl⟩

end Verif.Poly
