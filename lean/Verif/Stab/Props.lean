import Mathlib.Topology.Order.IntermediateValue
import Mathlib.Topology.Algebra.Field
import Mathlib.Topology.Instances.Real.Lemmas
import Verif.Stab.Harm
/-!
# C23–C26, C54, C55: stability checks, hyperbolicity flag, stationary amplitudes
-/
namespace Verif.Stab
open Real

theorem vec3_two {α : Type*} (a b c : α) : ![a, b, c] 2 = c := rfl

/-! ## C23 -/

/-- The corrected condition and the "equivalent" condition accept the same triads. -/
theorem C23_corrected_iff_equivalent (γ : Fin 3 → ℝ) (q : ℝ) (hp : isParametric γ)
    (hS : gammaSumStability γ) : checkCorrected γ q ↔ checkEquivalent γ q := by
  obtain ⟨h0, -, -⟩ := hp
  have hS' : γ 0 + γ 1 + γ 2 < 0 := hS
  unfold checkCorrected checkEquivalent
  rw [corrected_eq_equivalent γ q h0.ne' hS'.ne]
  have : 0 < -(γ 0 + γ 1 + γ 2) ^ 3 / γ 0 ^ 3 := by
    have h3 : -(γ 0 + γ 1 + γ 2) ^ 3 = (-(γ 0 + γ 1 + γ 2)) ^ 3 := by ring
    rw [h3]
    have : 0 < -(γ 0 + γ 1 + γ 2) := by linarith
    positivity
  constructor
  · intro h; exact (pos_iff_pos_of_mul_pos h).1 this
  · intro h; exact mul_pos this h

/-- The original (uncorrected) condition is weaker: it accepts everything the corrected one accepts. -/
theorem C23_original_is_weaker (γ : Fin 3 → ℝ) (q : ℝ) (hp : isParametric γ)
    (hS : gammaSumStability γ) (h : checkCorrected γ q) : checkOriginal γ q := by
  obtain ⟨h0, -, -⟩ := hp
  have hS' : γ 0 + γ 1 + γ 2 < 0 := hS
  have h1 : 1 < -γ 1 / γ 0 + -γ 2 / γ 0 := by
    rw [← add_div, lt_div_iff₀ h0]; linarith
  unfold checkCorrected at h
  unfold checkOriginal
  simp only [correctedPoly, originalPoly] at *
  set r := -γ 1 / γ 0
  set s := -γ 2 / γ 0
  have : 0 ≤ 6 * (r + s - 1) * ((r + s) ^ 2 - (r + s)) * q ^ 4 := by
    have : 0 ≤ (r + s) ^ 2 - (r + s) := by nlinarith
    have : 0 ≤ r + s - 1 := by linarith
    positivity
  nlinarith

/-- … and strictly so: the original condition accepts triads which the corrected one rejects. -/
theorem C23_original_differs : ∃ γ q, isParametric γ ∧ gammaSumStability γ ∧ checkOriginal γ q ∧
    ¬ checkCorrected γ q := by
  refine ⟨![1, -1, -1], 2, ?_, ?_, ?_, ?_⟩ <;>
    norm_num [vec3_two, isParametric, gammaSumStability, checkOriginal, checkCorrected, originalPoly, correctedPoly]

/-- Non-vacuity for C23: a parametric triad accepted by both and one rejected by both. -/
example : isParametric ![1, -3, -2] ∧ gammaSumStability ![1, -3, -2] ∧ checkEquivalent ![1, -3, -2] 2 ∧
    ¬ checkEquivalent ![1, -3, -2] 0 := by
  refine ⟨?_, ?_, ?_, ?_⟩ <;>
    norm_num [vec3_two, isParametric, gammaSumStability, checkEquivalent, equivalentPoly]

/-! ## C24 -/

/-- The three-mode stability check accepts exactly when the amplitude equations have a linearly stable
fixed point with all three modes excited — for every sign pattern of the rates, every detuning and every
non-zero coupling. -/
theorem C24_check_iff_stable_fixed_point (γ ω : Fin 3 → ℝ) (δ η : ℝ) (hω : ∀ i, 0 < ω i) (hη : η ≠ 0) :
    checkLinearlyStableFp false γ (δ / (γ 0 + γ 1 + γ 2)) = true ↔
      ∃ x, IsFP γ ω δ η x ∧ LinStable (aeField γ ω δ η) x := by
  have hchk : checkLinearlyStableFp false γ (δ / (γ 0 + γ 1 + γ 2)) = true ↔
      isParametric γ ∧ gammaSumStability γ ∧ checkCorrected γ (δ / (γ 0 + γ 1 + γ 2)) := by
    unfold checkLinearlyStableFp
    by_cases hp : isParametric γ <;> simp [hp]
  rw [hchk]
  constructor
  · rintro ⟨⟨h0, h1, h2⟩, hS, hc⟩
    have hS' : γ 0 + γ 1 + γ 2 < 0 := hS
    let s : StatIn := { γ := γ, ω := ω, δ := δ, η := some η }
    obtain ⟨Υ, hs, hcos⟩ := exists_phase s.q η hη
    have hfp := isFP_of_phase s η rfl hη h0 h1 h2 (hω 0) (hω 1) (hω 2) hS'.ne _
      (amps_eq s η rfl h0 h1 h2 (hω 0) (hω 1) (hω 2)) Υ hs hcos
    refine ⟨_, hfp, ?_⟩
    have hsne : sin Υ ≠ 0 := by
      intro h
      rw [h, mul_zero] at hs
      have : -|η| / √(1 + s.q ^ 2) < 0 :=
        div_neg_of_neg_of_pos (by simpa using hη) (Real.sqrt_pos.2 (by positivity))
      linarith
    rw [hfp.stable_iff (by simpa using hsne) h0.ne']
    have he : 0 < γ 0 * γ 1 * γ 2 := by
      have := mul_pos_of_neg_of_neg h1 h2
      nlinarith
    refine ⟨hS', he, ?_⟩
    have : 0 < correctedPoly γ (δ / (γ 0 + γ 1 + γ 2)) := hc
    have : 0 < γ 0 := h0
    positivity
  · rintro ⟨x, hfp, hst⟩
    have hsne := hfp.sin_ne hst
    obtain ⟨e0, e1, e2, -⟩ := hfp.eqs
    have hfp' := hfp
    obtain ⟨p0, p1, p2, -⟩ := hfp
    have w0 := hω 0
    have w1 := hω 1
    have w2 := hω 2
    have hg : γ 0 ≠ 0 := by
      intro hg
      rw [hg] at e0
      simp [hη, w0.ne', p1.ne', p2.ne', hsne] at e0
    obtain ⟨hS, he, hpl⟩ := (hfp'.stable_iff hsne hg).1 hst
    have hηs : η * sin (x 3) ≠ 0 := mul_ne_zero hη hsne
    have hpar : isParametric γ := by
      rcases lt_or_gt_of_ne hηs with hn | hpz
      · have t : ∀ a b c : ℝ, 0 < a → 0 < b → 0 < c → 2 * η * a * b * c * sin (x 3) < 0 := by
          intro a b c ha hb hc
          have : 0 < a * b * c := by positivity
          nlinarith
        have t0 := t (ω 0) (x 1) (x 2) w0 p1 p2
        have t1 := t (ω 1) (x 0) (x 2) w1 p0 p2
        have t2 := t (ω 2) (x 0) (x 1) w2 p0 p1
        refine ⟨?_, ?_, ?_⟩
        · have : 0 < γ 0 * x 0 := by linarith
          exact (pos_iff_pos_of_mul_pos this).2 p0
        · have : γ 1 * x 1 < 0 := by linarith
          exact neg_of_mul_neg_left this p1.le
        · have : γ 2 * x 2 < 0 := by linarith
          exact neg_of_mul_neg_left this p2.le
      · exfalso
        have t : ∀ a b c : ℝ, 0 < a → 0 < b → 0 < c → 0 < 2 * η * a * b * c * sin (x 3) := by
          intro a b c ha hb hc
          have : 0 < a * b * c := by positivity
          nlinarith
        have t0 := t (ω 0) (x 1) (x 2) w0 p1 p2
        have t1 := t (ω 1) (x 0) (x 2) w1 p0 p2
        have t2 := t (ω 2) (x 0) (x 1) w2 p0 p1
        have g0 : γ 0 < 0 := by
          have : γ 0 * x 0 < 0 := by linarith
          exact neg_of_mul_neg_left this p0.le
        have g1 : 0 < γ 1 := by
          have : 0 < γ 1 * x 1 := by linarith
          exact (pos_iff_pos_of_mul_pos this).2 p1
        have g2 : 0 < γ 2 := by
          have : 0 < γ 2 * x 2 := by linarith
          exact (pos_iff_pos_of_mul_pos this).2 p2
        have := mul_pos g1 g2
        nlinarith
    refine ⟨hpar, hS, ?_⟩
    have : 0 < γ 0 := hpar.1
    exact (pos_iff_pos_of_mul_pos hpl).1 (by positivity)

/-- Non-vacuity for C24: an accepted and a rejected parametric triad. -/
example : checkLinearlyStableFp false ![1, -3, -2] (-8 / (1 + -3 + -2)) = true ∧
    checkLinearlyStableFp false ![1, -3, -2] (0 / (1 + -3 + -2)) = false := by
  constructor <;>
    norm_num [vec3_two, checkLinearlyStableFp, isParametric, gammaSumStability, checkCorrected, correctedPoly]

/-! ## C25 -/

/-- In exact arithmetic the matrix passed to the hyperbolicity check is singular for *every* parametric
triad: its first three rows are proportional. -/
theorem hyperJac_det (γ ω : Fin 3 → ℝ) (q η : ℝ) (hp : isParametric γ) (hω : ∀ i, 0 < ω i) :
    (hyperJac γ ω q η).det = 0 := by
  obtain ⟨h0, h1, h2⟩ := hp
  have ha2 : √(γ 0 / ω 0) ^ 2 = γ 0 / ω 0 := Real.sq_sqrt (div_pos h0 (hω 0)).le
  have hb2 : √(-γ 1 / ω 1) ^ 2 = -γ 1 / ω 1 := Real.sq_sqrt (div_pos (by linarith) (hω 1)).le
  have ha0 : 0 ≤ γ 0 / ω 0 := (div_pos h0 (hω 0)).le
  have hb0 : 0 ≤ -γ 1 / ω 1 := (div_pos (by linarith) (hω 1)).le
  have s12 : √(-(γ 0 / ω 0) * (γ 1 / ω 1)) = √(γ 0 / ω 0) * √(-γ 1 / ω 1) := by
    rw [← Real.sqrt_mul ha0]; congr 1; ring
  have s13 : √(-(γ 0 / ω 0) * (γ 2 / ω 2)) = √(γ 0 / ω 0) * √(-γ 2 / ω 2) := by
    rw [← Real.sqrt_mul ha0]; congr 1; ring
  have s23 : √((γ 1 / ω 1) * (γ 2 / ω 2)) = √(-γ 1 / ω 1) * √(-γ 2 / ω 2) := by
    rw [← Real.sqrt_mul hb0]; congr 1; ring
  have g0 : γ 0 = √(γ 0 / ω 0) ^ 2 * ω 0 := by rw [ha2]; field_simp [(hω 0).ne']
  have g1 : γ 1 = -(√(-γ 1 / ω 1) ^ 2 * ω 1) := by rw [hb2]; field_simp [(hω 1).ne']
  have hrow : ∀ j, √(-γ 1 / ω 1) * ω 1 * hyperJac γ ω q η 0 j + √(γ 0 / ω 0) * ω 0 * hyperJac γ ω q η 1 j = 0 := by
    intro j
    set a := √(γ 0 / ω 0)
    set b := √(-γ 1 / ω 1)
    set c := √(-γ 2 / ω 2)
    fin_cases j <;> simp only [hyperJac, s12, s13, s23] <;> simp
    · rw [g0]; ring
    · rw [g1]; ring
    · ring
    · rw [g0, g1]; ring
  apply Matrix.exists_vecMul_eq_zero_iff.1
  refine ⟨![√(-γ 1 / ω 1) * ω 1, √(γ 0 / ω 0) * ω 0, 0, 0], ?_, ?_⟩
  · intro h
    have := congrFun h 0
    simp only [Matrix.cons_val_zero, Pi.zero_apply] at this
    have hb : 0 < √(-γ 1 / ω 1) := Real.sqrt_pos.2 (div_pos (by linarith) (hω 1))
    have := mul_pos hb (hω 1)
    linarith
  · funext j
    rw [Matrix.vecMul, dotProduct, Fin.sum_univ_four]
    simpa using hrow j

/-- What does hold of C25: the flag never reports `True` for a parametric triad (hence in particular not
for a non-hyperbolic fixed point).  Missing: the claimed direction, which is false (next theorem). -/
theorem C25_flag_never_true_partial (γ ω : Fin 3 → ℝ) (q η : ℝ) (hp : isParametric γ)
    (hω : ∀ i, 0 < ω i) : ¬ checkHyperbolicity (hyperJac γ ω q η) :=
  fun h => h.2 (hyperJac_det γ ω q η hp hω)

/-- The claim C25 is false of the code: *every* triad that passes the stability check has a hyperbolic
fixed point with a regular Jacobian, and the check (in exact arithmetic) reports `False` for each. -/
theorem C25_flag_wrong (γ ω : Fin 3 → ℝ) (δ η : ℝ) (hω : ∀ i, 0 < ω i) (hη : η ≠ 0)
    (hst : checkLinearlyStableFp false γ (δ / (γ 0 + γ 1 + γ 2)) = true) :
    (∃ x J, IsFP γ ω δ η x ∧ Hyperbolic (aeField γ ω δ η) x ∧ IsJac (aeField γ ω δ η) x J ∧ J.det ≠ 0) ∧
      ¬ checkHyperbolicity (hyperJac γ ω (δ / (γ 0 + γ 1 + γ 2)) η) := by
  constructor
  · obtain ⟨x, hfp, J, hJ, hev⟩ := (C24_check_iff_stable_fixed_point γ ω δ η hω hη).1 hst
    refine ⟨x, J, hfp, ⟨J, hJ, fun z hz => (hev z hz).ne⟩, hJ, ?_⟩
    intro hd
    have := hev 0 (by
      rw [isEig_iff_det]
      have : (Matrix.diagonal (fun _ => (0 : ℂ)) - J.map Complex.ofReal) = -(J.map Complex.ofReal) := by
        ext i j; simp [Matrix.diagonal]
      rw [this, Matrix.det_neg]
      have h2 : (J.map Complex.ofReal).det = ((J.det : ℝ) : ℂ) := by
        exact (RingHom.map_det Complex.ofRealHom J).symm
      rw [h2, hd]; simp)
    simp at this
  · apply C25_flag_never_true_partial _ _ _ _ _ hω
    by_contra hp
    simp [checkLinearlyStableFp, hp] at hst

/-- The two tests of the check are one: for every square matrix, `True` is reported exactly when no eigenvalue
lies on the imaginary axis.  The test on the determinant never changes the answer. -/
theorem C25_check_is_hyperbolic {n : ℕ} (J : Matrix (Fin n) (Fin n) ℝ) :
    checkHyperbolicity J ↔ ∀ z : ℂ, IsEig J z → z.re ≠ 0 := by
  refine ⟨fun h => h.1, fun h => ⟨h, fun hd => ?_⟩⟩
  refine h 0 ?_ rfl
  rw [isEig_iff_det]
  have e : (Matrix.diagonal (fun _ => (0 : ℂ)) - J.map Complex.ofReal) = -(J.map Complex.ofReal) := by
    ext i j; simp [Matrix.diagonal]
  rw [e, Matrix.det_neg]
  have h2 : (J.map Complex.ofReal).det = ((J.det : ℝ) : ℂ) := (RingHom.map_det Complex.ofRealHom J).symm
  rw [h2, hd]; simp

/-- A rotation in the plane is regular but not hyperbolic, a dilation is hyperbolic. -/
example : ¬ checkHyperbolicity !![(0 : ℝ), -1; 1, 0] ∧ checkHyperbolicity !![(1 : ℝ), 0; 0, 2] := by
  constructor
  · rw [C25_check_is_hyperbolic]
    intro h
    refine h Complex.I ⟨![Complex.I, 1], ?_, ?_⟩ Complex.I_re
    · intro e; simpa using congrFun e 1
    · funext i; fin_cases i <;> simp [Matrix.mulVec, dotProduct, Fin.sum_univ_two]
  · rw [C25_check_is_hyperbolic]
    rintro z ⟨v, hv, e⟩ hz
    have e0 := congrFun e 0
    have e1 := congrFun e 1
    simp [Matrix.mulVec, dotProduct, Fin.sum_univ_two] at e0 e1
    apply hv
    funext i
    fin_cases i
    · by_contra h0
      have : z = 1 := by
        have : (z - 1) * v 0 = 0 := by linear_combination -e0
        exact sub_eq_zero.1 ((mul_eq_zero.1 this).resolve_right h0)
      rw [this] at hz; simp at hz
    · by_contra h0
      have : z = 2 := (e1.resolve_right h0).symm
      rw [this] at hz; simp at hz

/-- Non-vacuity for C25: the triad of the C24 example meets the hypotheses. -/
example : ∃ x J, IsFP ![1, -3, -2] ![5, 3, 2] (-8) 1 x ∧ Hyperbolic (aeField ![1, -3, -2] ![5, 3, 2] (-8) 1) x ∧
    IsJac (aeField ![1, -3, -2] ![5, 3, 2] (-8) 1) x J ∧ J.det ≠ 0 := by
  apply (C25_flag_wrong ![1, -3, -2] ![5, 3, 2] (-8) 1 _ one_ne_zero _).1
  · intro i; fin_cases i <;> simp
  · norm_num [vec3_two, checkLinearlyStableFp, isParametric, gammaSumStability, checkCorrected, correctedPoly]

/-- The three-dimensional (harmonic) matrix is not the Jacobian of the two-mode system in any smooth
coordinates either: the traces differ for every excited fixed point with damped or driven second mode. -/
theorem C25_three_trace_wrong (γ k : Fin 2 → ℝ) (ω : Fin 3 → ℝ) (δ q η : ℝ) (x : Fin 3 → ℝ)
    (hx : IsHarmFP γ k δ x) (h1 : γ 1 ≠ 0) (J : Matrix (Fin 3) (Fin 3) ℝ)
    (hJ : IsJac (harmField γ k δ) x J) :
    J.trace = 2 * (γ 0 + γ 1) ∧ (hyperJacThree ![γ 0, γ 1, γ 1] ω q η).trace ≠ J.trace := by
  have ht : J.trace = 2 * (γ 0 + γ 1) := by
    rw [hJ.unique (isJac_jac3 γ k δ x hx.1.ne')]
    obtain ⟨h0, h1', e0, e1, e2⟩ := isHarmFP_iff.1 hx
    have k0 : (k 0 * x 1 * x 1 / x 0) * sin (x 2) = -γ 0 := by field_simp; linear_combination e0
    have k1 : k 1 * x 0 * sin (x 2) = γ 1 := by
      have : x 1 * (k 1 * x 0 * sin (x 2) - γ 1) = 0 := by linear_combination -e1
      have := (mul_eq_zero.1 this).resolve_left h1'.ne'
      linarith
    simp only [Matrix.trace_fin_three, jac3]
    simp
    linear_combination -k0 + k1
  refine ⟨ht, ?_⟩
  rw [ht]
  simp only [Matrix.trace_fin_three, hyperJacThree]
  simp
  intro h
  apply h1
  linarith

/-! ## C26 -/

/-- The stationary amplitudes, with the right one of the returned phase and the returned phase plus `π`,
make all four equations stationary.  Missing for the full property: the returned phase itself is only
right for one sign of `η·q` (see `C26_returned_phase_iff`). -/
theorem C26_amplitudes_stationary_partial (s : StatIn) (el : ℝ) (am : Amps) (hel : s.η = some el)
    (hne : el ≠ 0) (hp : isParametric s.γ) (hω : ∀ i, 0 < s.ω i) (hS : s.γ 0 + s.γ 1 + s.γ 2 ≠ 0)
    (hδ : s.δ ≠ 0) (ham : s.amps = some am) :
    IsFP s.γ s.ω s.δ el ![am.a1, am.a2, am.a3, s.relStatPhase] ∨
    IsFP s.γ s.ω s.δ el ![am.a1, am.a2, am.a3, s.relStatPhase + π] := by
  obtain ⟨h0, h1, h2⟩ := hp
  have hq : s.q ≠ 0 := div_ne_zero hδ hS
  obtain ⟨hsn, hcs⟩ := sin_cos_arctan_neg_inv s.q hq
  have hmul : el * s.q ≠ 0 := mul_ne_zero hne hq
  rcases lt_or_gt_of_ne hmul with hm | hm
  · right
    apply isFP_of_phase s el hel hne h0 h1 h2 (hω 0) (hω 1) (hω 2) hS am ham
    · rw [sin_add_pi, StatIn.relStatPhase, hsn]
      have : |el| * |s.q| = -(el * s.q) := by rw [← abs_mul, abs_of_neg hm]
      have h3 : el * (|s.q| / s.q) = -|el| := by
        rcases lt_or_gt_of_ne hq with h | h
        · have he : 0 < el := by nlinarith
          rw [abs_of_neg h, abs_of_pos he]; field_simp
        · have he : el < 0 := by nlinarith
          rw [abs_of_pos h, abs_of_neg he]; field_simp
      rw [← h3]; ring
    · rw [cos_add_pi, StatIn.relStatPhase, hcs]
      rcases lt_or_gt_of_ne hq with h | h
      · have he : 0 < el := by nlinarith
        rw [abs_of_neg h, abs_of_pos he]; ring
      · have he : el < 0 := by nlinarith
        rw [abs_of_pos h, abs_of_neg he]; ring
  · left
    apply isFP_of_phase s el hel hne h0 h1 h2 (hω 0) (hω 1) (hω 2) hS am ham
    · rw [StatIn.relStatPhase, hsn]
      rcases lt_or_gt_of_ne hq with h | h
      · have he : el < 0 := by nlinarith
        rw [abs_of_neg h, abs_of_neg he]; field_simp
      · have he : 0 < el := by nlinarith
        rw [abs_of_pos h, abs_of_pos he]; field_simp
    · rw [StatIn.relStatPhase, hcs]
      rcases lt_or_gt_of_ne hq with h | h
      · have he : el < 0 := by nlinarith
        rw [abs_of_neg h, abs_of_neg he]; ring
      · have he : 0 < el := by nlinarith
        rw [abs_of_pos h, abs_of_pos he]; ring

/-- The returned phase (with the returned amplitudes) is stationary iff coupling coefficient and `q` have
the same sign. -/
theorem C26_returned_phase_iff (s : StatIn) (el : ℝ) (am : Amps) (hel : s.η = some el)
    (hne : el ≠ 0) (hp : isParametric s.γ) (hω : ∀ i, 0 < s.ω i) (hS : s.γ 0 + s.γ 1 + s.γ 2 ≠ 0)
    (hδ : s.δ ≠ 0) (ham : s.amps = some am) :
    IsFP s.γ s.ω s.δ el ![am.a1, am.a2, am.a3, s.relStatPhase] ↔ 0 < el * s.q := by
  have hq : s.q ≠ 0 := div_ne_zero hδ hS
  obtain ⟨hsn, hcs⟩ := sin_cos_arctan_neg_inv s.q hq
  have hR : 0 < √(1 + s.q ^ 2) := Real.sqrt_pos.2 (by positivity)
  -- at a fixed point `el · sin Υ < 0`
  have sgn : ∀ Υ, IsFP s.γ s.ω s.δ el ![am.a1, am.a2, am.a3, Υ] → el * sin Υ < 0 := by
    intro Υ h
    obtain ⟨e0, -⟩ := h.eqs
    obtain ⟨p0, p1, p2, -⟩ := h
    simp only [Matrix.cons_val_zero, Matrix.cons_val_one, Matrix.cons_val] at *
    have w0 := hω 0
    have g0 : 0 < s.γ 0 := hp.1
    by_contra hh
    push Not at hh
    have a : 0 < s.γ 0 * am.a1 := by positivity
    have b : 0 ≤ 2 * (el * sin Υ) * (s.ω 0 * am.a2 * am.a3) := by positivity
    nlinarith
  have key : el * sin s.relStatPhase = -(el * s.q) * (|s.q| / (s.q ^ 2 * √(1 + s.q ^ 2))) := by
    rw [StatIn.relStatPhase, hsn]; field_simp
  have hpos : 0 < |s.q| / (s.q ^ 2 * √(1 + s.q ^ 2)) := by positivity
  constructor
  · intro h
    have := sgn _ h
    rw [key] at this
    nlinarith
  · intro h
    rcases C26_amplitudes_stationary_partial s el am hel hne hp hω hS hδ ham with h' | h'
    · exact h'
    · exfalso
      have := sgn _ h'
      rw [sin_add_pi, mul_neg, key] at this
      nlinarith

/-- The stationary amplitudes are unique: every fixed point with all modes excited has them. -/
theorem C26_amplitudes_unique (s : StatIn) (el : ℝ) (am : Amps) (hel : s.η = some el)
    (hne : el ≠ 0) (hp : isParametric s.γ) (hω : ∀ i, 0 < s.ω i) (hS : s.γ 0 + s.γ 1 + s.γ 2 ≠ 0)
    (ham : s.amps = some am) (x : Fin 4 → ℝ) (hx : IsFP s.γ s.ω s.δ el x) :
    x 0 = am.a1 ∧ x 1 = am.a2 ∧ x 2 = am.a3 :=
  hx.amps_unique s el hel hne hp.1 hp.2.1 hp.2.2 (hω 0) (hω 1) (hω 2) hS am ham

/-- Amplitudes are produced whenever a coupling coefficient is available, and only then. -/
theorem C26_amplitudes_defined (s : StatIn) : s.amps.isSome = s.η.isSome := by
  cases h : s.η <;> simp [StatIn.amps, h]

/-- Non-vacuity for C26, and a triad for which the returned phase is on the wrong branch. -/
example : ∃ (s : StatIn) (am : Amps), s.η = some 1 ∧ isParametric s.γ ∧ (∀ i, 0 < s.ω i) ∧
    s.γ 0 + s.γ 1 + s.γ 2 ≠ 0 ∧ s.δ ≠ 0 ∧ s.amps = some am ∧
    ¬ IsFP s.γ s.ω s.δ 1 ![am.a1, am.a2, am.a3, s.relStatPhase] := by
  let s : StatIn := { γ := ![1, -3, -2], ω := ![5, 3, 2], δ := 8, η := some 1 }
  have hw : ∀ i, 0 < s.ω i := by intro i; fin_cases i <;> simp [s]
  have hp : isParametric s.γ := by simp [isParametric, s]
  have hS : s.γ 0 + s.γ 1 + s.γ 2 ≠ 0 := by norm_num [vec3_two, s]
  have hd : s.δ ≠ 0 := by norm_num [vec3_two, s]
  obtain ⟨am, ham⟩ := Option.isSome_iff_exists.1 ((C26_amplitudes_defined s).trans (by rfl))
  refine ⟨s, am, rfl, hp, hw, hS, hd, ham, ?_⟩
  rw [C26_returned_phase_iff s 1 am rfl one_ne_zero hp hw hS hd ham]
  norm_num [vec3_two, s, StatIn.q]

/-! ## C54: the two-mode (harmonic) check -/

theorem harm_signs {γ k : Fin 2 → ℝ} {δ : ℝ} {x : Fin 3 → ℝ} (h : IsHarmFP γ k δ x) (k0 : 0 < k 0)
    (k1 : 0 < k 1) (hs : sin (x 2) ≠ 0) : γ 0 * γ 1 < 0 := by
  obtain ⟨h0, h1, e0, e1, -⟩ := isHarmFP_iff.1 h
  have a0 : γ 0 = -(k 0 * x 1 * x 1 / x 0) * sin (x 2) := by field_simp; linear_combination e0
  have a1 : γ 1 = k 1 * x 0 * sin (x 2) := by
    have : x 1 * (k 1 * x 0 * sin (x 2) - γ 1) = 0 := by linear_combination -e1
    have := (mul_eq_zero.1 this).resolve_left h1.ne'
    linarith
  rw [a0, a1]
  have : 0 < (k 0 * x 1 * x 1 / x 0) * (k 1 * x 0) * sin (x 2) ^ 2 := by positivity
  nlinarith

theorem harm_check_iff (γ : Fin 3 → ℝ) (q : ℝ) : checkLinearlyStableFp true γ q = true ↔
    (isParametric γ ∧ checkHarmParametric γ q) ∨ (isDirect γ ∧ checkHarmDirect γ) := by
  unfold checkLinearlyStableFp
  by_cases hp : isParametric γ
  · have hd : ¬ isDirect γ := fun hd => by have := hp.1; have := hd.1; linarith
    simp [hp, hd]
  · by_cases hd : isDirect γ <;> simp [hp, hd]

/-- The truth for parametric (`γ₀ > 0`) two-mode couplings: a linearly stable excited fixed point exists
iff `θ > (1+√3)/2` and `q² > (2θ(θ-1)+1)/(2θ(θ-1)-1)` — the reciprocal of the quotient in the code. -/
theorem C54_parametric_truth (γ k : Fin 2 → ℝ) (δ : ℝ) (k0 : 0 < k 0) (k1 : 0 < k 1) (g0 : 0 < γ 0) :
    (∃ x, IsHarmFP γ k δ x ∧ LinStable (harmField γ k δ) x) ↔
      (1 + √3) / 2 < -γ 1 / γ 0 ∧
      (2 * (-γ 1 / γ 0) * (-γ 1 / γ 0 - 1) + 1) / (2 * (-γ 1 / γ 0) * (-γ 1 / γ 0 - 1) - 1) <
        (δ / (γ 0 + 2 * γ 1)) ^ 2 := by
  have h3 : √3 ^ 2 = 3 := Real.sq_sqrt (by norm_num)
  have h3p : 0 < √3 := Real.sqrt_pos.2 (by norm_num)
  constructor
  · rintro ⟨x, hfp, hst⟩
    have hs := harm_sin_ne hfp hst
    obtain ⟨a1, a2, a3⟩ := (harm_stable_iff hfp hs).1 hst
    rw [harm_hurwitz γ _ g0.ne'] at a3
    have hth : 1 < -γ 1 / γ 0 := by rw [lt_div_iff₀ g0]; linarith
    set th := -γ 1 / γ 0
    set q := δ / (γ 0 + 2 * γ 1)
    have hpos : 0 < q ^ 2 * (2 * th * (th - 1) - 1) - (2 * th * (th - 1) + 1) :=
      (pos_iff_pos_of_mul_pos a3).1 (by positivity)
    have hden : 0 < 2 * th * (th - 1) + 1 := by nlinarith
    have hnum : 0 < 2 * th * (th - 1) - 1 := by
      by_contra hh
      push Not at hh
      nlinarith [sq_nonneg q]
    refine ⟨?_, ?_⟩
    · by_contra hh
      push Not at hh
      nlinarith
    · rw [div_lt_iff₀ hnum]; linarith
  · rintro ⟨ht, hq⟩
    have h3' : 1 < √3 := by
      rw [Real.lt_sqrt] <;> norm_num
    have hth : 1 < -γ 1 / γ 0 := by linarith
    have hg1 : γ 0 < -γ 1 := by rwa [lt_div_iff₀ g0, one_mul] at hth
    obtain ⟨x, hfp, hs⟩ := exists_harmFP γ k δ (by nlinarith) k0 k1 (by linarith)
    refine ⟨x, hfp, (harm_stable_iff hfp hs).2 ⟨by linarith, ?_, ?_⟩⟩
    · have : 0 < -γ 1 := by linarith
      have : 0 < -(γ 0 + 2 * γ 1) := by linarith
      have : 0 < γ 0 * (-γ 1) * (-(γ 0 + 2 * γ 1)) := by positivity
      linarith
    · rw [harm_hurwitz γ _ g0.ne']
      set th := -γ 1 / γ 0
      set q := δ / (γ 0 + 2 * γ 1)
      have hnum : 0 < 2 * th * (th - 1) - 1 := by nlinarith
      rw [div_lt_iff₀ hnum] at hq
      have : 0 < q ^ 2 * (2 * th * (th - 1) - 1) - (2 * th * (th - 1) + 1) := by linarith
      positivity

/-- Completeness for all sign patterns: every two-mode coupling with a linearly stable excited fixed point
is accepted.  Missing for the full equivalence: soundness in the parametric case, which is false
(`C54_parametric_unsound`). -/
theorem C54_harmonic_complete_partial (γ k : Fin 2 → ℝ) (δ : ℝ) (k0 : 0 < k 0) (k1 : 0 < k 1)
    (h : ∃ x, IsHarmFP γ k δ x ∧ LinStable (harmField γ k δ) x) :
    checkLinearlyStableFp true ![γ 0, γ 1, γ 1] (δ / (γ 0 + γ 1 + γ 1)) = true := by
  have hS : γ 0 + γ 1 + γ 1 = γ 0 + 2 * γ 1 := by ring
  rw [hS]
  obtain ⟨x, hfp, hst⟩ := h
  have hs := harm_sin_ne hfp hst
  have hsg := harm_signs hfp k0 k1 hs
  rcases lt_trichotomy (γ 0) 0 with g0 | g0 | g0
  · have g1 : 0 < γ 1 := by
      by_contra hh; push Not at hh; nlinarith
    have hnp : ¬ isParametric ![γ 0, γ 1, γ 1] := fun hp => by
      have := hp.1; simp at this; linarith
    have hd : isDirect ![γ 0, γ 1, γ 1] := by simp [isDirect, g0, g1]
    obtain ⟨a1, a2, a3⟩ := (harm_stable_iff hfp hs).1 hst
    have hSn : γ 0 + 2 * γ 1 < 0 := by
      by_contra hh; push Not at hh; nlinarith
    rw [harm_check_iff]
    refine Or.inr ⟨hd, ?_⟩
    simp only [checkHarmDirect, theta, Matrix.cons_val_zero, Matrix.cons_val_one]
    rw [div_lt_iff_of_neg g0]
    norm_num; linarith
  · rw [g0] at hsg; simp at hsg
  · have g1 : γ 1 < 0 := by
      by_contra hh; push Not at hh; nlinarith
    have hpar : isParametric ![γ 0, γ 1, γ 1] := by simp [isParametric, g0, g1]
    obtain ⟨ht, hq⟩ := (C54_parametric_truth γ k δ k0 k1 g0).1 ⟨x, hfp, hst⟩
    rw [harm_check_iff]
    refine Or.inl ⟨hpar, ?_⟩
    simp only [checkHarmParametric, theta, Matrix.cons_val_zero, Matrix.cons_val_one]
    refine ⟨ht, lt_trans ?_ hq⟩
    set th := -γ 1 / γ 0
    have h3 : √3 ^ 2 = 3 := Real.sq_sqrt (by norm_num)
    have h3p : 0 < √3 := Real.sqrt_pos.2 (by norm_num)
    have hnum : 0 < 2 * th * (th - 1) - 1 := by nlinarith
    rw [div_lt_div_iff₀ (by linarith) hnum]
    nlinarith

/-- For direct (`γ₀ < 0`) couplings the check is exact. -/
theorem C54_direct_exact (γ k : Fin 2 → ℝ) (δ : ℝ) (k0 : 0 < k 0) (k1 : 0 < k 1) (g0 : γ 0 < 0) :
    checkLinearlyStableFp true ![γ 0, γ 1, γ 1] (δ / (γ 0 + γ 1 + γ 1)) = true ↔
      ∃ x, IsHarmFP γ k δ x ∧ LinStable (harmField γ k δ) x := by
  refine ⟨fun h => ?_, C54_harmonic_complete_partial γ k δ k0 k1⟩
  have hnp : ¬ isParametric ![γ 0, γ 1, γ 1] := fun hp => by
    have := hp.1; simp at this; linarith
  rw [harm_check_iff] at h
  rcases h with ⟨hp, -⟩ | ⟨hd, h⟩
  · exact absurd hp hnp
  · simp only [checkHarmDirect, theta, Matrix.cons_val_zero, Matrix.cons_val_one] at h
    have g1 : 0 < γ 1 := by simpa using hd.2.1
    have hh := h
    rw [div_lt_iff_of_neg g0] at h
    norm_num at h
    have hSn : γ 0 + 2 * γ 1 < 0 := by linarith
    obtain ⟨x, hfp, hs⟩ := exists_harmFP γ k δ (by nlinarith) k0 k1 hSn.ne
    refine ⟨x, hfp, (harm_stable_iff hfp hs).2 ⟨by linarith, ?_, ?_⟩⟩
    · have : 0 < (-γ 0) * γ 1 * (-(γ 0 + 2 * γ 1)) := by
        have : 0 < -γ 0 := by linarith
        have : 0 < -(γ 0 + 2 * γ 1) := by linarith
        positivity
      linarith
    · rw [harm_hurwitz γ _ g0.ne]
      have hth0 : 0 < -γ 1 / γ 0 := div_pos_of_neg_of_neg (by linarith) g0
      set th := -γ 1 / γ 0
      set q := δ / (γ 0 + 2 * γ 1)
      norm_num at hh
      have c : γ 0 ^ 3 < 0 := by
        have : 0 < (-γ 0) ^ 3 := pow_pos (by linarith) 3
        nlinarith
      have hn : 2 * th * (th - 1) - 1 < 0 := by nlinarith
      have hdn : 0 < 2 * th * (th - 1) + 1 := by nlinarith [sq_nonneg (th - 1/2)]
      have : q ^ 2 * (2 * th * (th - 1) - 1) - (2 * th * (th - 1) + 1) < 0 := by nlinarith [sq_nonneg q]
      nlinarith

/-- The parametric harmonic check is unsound: it accepts a coupling without any linearly stable excited
fixed point, whatever the coupling strengths. -/
theorem C54_parametric_unsound : ∃ (γ : Fin 2 → ℝ) (δ : ℝ),
    checkLinearlyStableFp true ![γ 0, γ 1, γ 1] (δ / (γ 0 + γ 1 + γ 1)) = true ∧
    ∀ k : Fin 2 → ℝ, 0 < k 0 → 0 < k 1 →
      ¬ ∃ x, IsHarmFP γ k δ x ∧ LinStable (harmField γ k δ) x := by
  have h3 : √3 < 2 := by rw [Real.sqrt_lt'] <;> norm_num
  refine ⟨![1, -2], -3, ?_, ?_⟩
  · rw [harm_check_iff]
    left
    norm_num [vec3_two, isParametric, checkHarmParametric, theta]
    linarith
  · intro k k0 k1
    rw [C54_parametric_truth _ k _ k0 k1 (by simp)]
    norm_num

/-- **C54** refuted, exactly where: a coupling with a driven parent is accepted without having a linearly stable excited fixed point
if and only if `θ > (1+√3)/2` and `q²` lies between the quotient `(2θ(θ-1)-1)/(2θ(θ-1)+1)` and its reciprocal; at every such `θ`
there are detunings of that kind. -/
theorem C54_parametric_exact_wrong (γ k : Fin 2 → ℝ) (k0 : 0 < k 0) (k1 : 0 < k 1) (g0 : 0 < γ 0) :
    (∀ δ : ℝ, (checkLinearlyStableFp true ![γ 0, γ 1, γ 1] (δ / (γ 0 + γ 1 + γ 1)) = true ∧
        ¬ ∃ x, IsHarmFP γ k δ x ∧ LinStable (harmField γ k δ) x) ↔
      (1 + √3) / 2 < -γ 1 / γ 0 ∧
      (2 * (-γ 1 / γ 0) * (-γ 1 / γ 0 - 1) - 1) / (2 * (-γ 1 / γ 0) * (-γ 1 / γ 0 - 1) + 1) < (δ / (γ 0 + 2 * γ 1)) ^ 2 ∧
      (δ / (γ 0 + 2 * γ 1)) ^ 2 ≤ (2 * (-γ 1 / γ 0) * (-γ 1 / γ 0 - 1) + 1) / (2 * (-γ 1 / γ 0) * (-γ 1 / γ 0 - 1) - 1)) ∧
    ((1 + √3) / 2 < -γ 1 / γ 0 → ∃ δ : ℝ, checkLinearlyStableFp true ![γ 0, γ 1, γ 1] (δ / (γ 0 + γ 1 + γ 1)) = true ∧
        ¬ ∃ x, IsHarmFP γ k δ x ∧ LinStable (harmField γ k δ) x) := by
  have h3 : √3 ^ 2 = 3 := Real.sq_sqrt (by norm_num)
  have h3p : 0 < √3 := Real.sqrt_pos.2 (by norm_num)
  have main : ∀ δ : ℝ, (checkLinearlyStableFp true ![γ 0, γ 1, γ 1] (δ / (γ 0 + γ 1 + γ 1)) = true ∧
        ¬ ∃ x, IsHarmFP γ k δ x ∧ LinStable (harmField γ k δ) x) ↔
      (1 + √3) / 2 < -γ 1 / γ 0 ∧
      (2 * (-γ 1 / γ 0) * (-γ 1 / γ 0 - 1) - 1) / (2 * (-γ 1 / γ 0) * (-γ 1 / γ 0 - 1) + 1) < (δ / (γ 0 + 2 * γ 1)) ^ 2 ∧
      (δ / (γ 0 + 2 * γ 1)) ^ 2 ≤ (2 * (-γ 1 / γ 0) * (-γ 1 / γ 0 - 1) + 1) / (2 * (-γ 1 / γ 0) * (-γ 1 / γ 0 - 1) - 1) := by
    intro δ
    rw [C54_parametric_truth γ k δ k0 k1 g0, show γ 0 + γ 1 + γ 1 = γ 0 + 2 * γ 1 by ring, harm_check_iff]
    have hnd : ¬ isDirect ![γ 0, γ 1, γ 1] := fun h => by
      have := h.1; simp at this; linarith
    constructor
    · rintro ⟨⟨-, h⟩ | ⟨h, -⟩, hn⟩
      · simp only [checkHarmParametric, theta, Matrix.cons_val_zero, Matrix.cons_val_one] at h
        refine ⟨h.1, h.2, not_lt.1 fun hh => hn ⟨h.1, hh⟩⟩
      · exact absurd h hnd
    · rintro ⟨h1, h2, h4⟩
      have g1 : γ 1 < 0 := by
        have : 0 < -γ 1 / γ 0 := by linarith
        by_contra hh
        push Not at hh
        have := div_nonpos_of_nonpos_of_nonneg (show -γ 1 ≤ 0 by linarith) g0.le
        linarith
      refine ⟨Or.inl ⟨by simp [isParametric, g0, g1], ?_⟩, fun hh => absurd hh.2 (not_lt.2 h4)⟩
      simp only [checkHarmParametric, theta, Matrix.cons_val_zero, Matrix.cons_val_one]
      exact ⟨h1, h2⟩
  refine ⟨main, fun hth => ?_⟩
  have g01 : γ 0 + 2 * γ 1 ≠ 0 := by
    have : 1 < -γ 1 / γ 0 := by nlinarith
    rw [lt_div_iff₀ g0] at this
    intro h
    linarith
  refine ⟨γ 0 + 2 * γ 1, (main _).2 ⟨hth, ?_, ?_⟩⟩ <;> rw [div_self g01, one_pow]
  · set th := -γ 1 / γ 0
    have hd : 0 < 2 * th * (th - 1) + 1 := by nlinarith
    rw [div_lt_one hd]
    linarith
  · set th := -γ 1 / γ 0
    have hd : 0 < 2 * th * (th - 1) - 1 := by nlinarith
    rw [one_le_div hd]
    linarith

/-! ## C55: the critical parent amplitude -/

/-- Specification: with the parent held at the constant amplitude `A`, the daughters grow (or decay) in
step as `e^{λt}` with a locked phase. -/
def DaughtersGrowAt (γ ω : Fin 3 → ℝ) (δ η A lam : ℝ) : Prop :=
  ∃ A2 A3 Υ : ℝ, 0 < A2 ∧ 0 < A3 ∧
    γ 1 * A2 - 2 * η * ω 1 * A * A3 * sin Υ = lam * A2 ∧
    γ 2 * A3 - 2 * η * ω 2 * A * A2 * sin Υ = lam * A3 ∧
    -δ - 2 * η * cos Υ * (ω 1 * A * A3 / A2 + ω 2 * A * A2 / A3) = 0

/-- Growth at rate `λ ≥ 0` is possible iff the parent amplitude satisfies the resonance condition. -/
theorem grow_iff (γ ω : Fin 3 → ℝ) (δ η A lam : ℝ) (h1 : γ 1 < 0) (h2 : γ 2 < 0) (w1 : 0 < ω 1)
    (w2 : 0 < ω 2) (hA : 0 < A) (hη : η ≠ 0) (hl : 0 ≤ lam) :
    DaughtersGrowAt γ ω δ η A lam ↔
      (2 * η * A) ^ 2 * (ω 1 * ω 2) =
        (lam - γ 1) * (lam - γ 2) * (1 + (δ / (2 * lam - γ 1 - γ 2)) ^ 2) := by
  have hu : 0 < lam - γ 1 := by linarith
  have hv : 0 < lam - γ 2 := by linarith
  have hw : 0 < 2 * lam - γ 1 - γ 2 := by linarith
  constructor
  · rintro ⟨A2, A3, Υ, p2, p3, e1, e2, e3⟩
    set K := 2 * η * A with hK
    have f1 : K * sin Υ * ω 1 * (A3 / A2) = -(lam - γ 1) := by
      field_simp; rw [hK]; linear_combination -e1
    have f2 : K * sin Υ * ω 2 * (A2 / A3) = -(lam - γ 2) := by
      field_simp; rw [hK]; linear_combination -e2
    have f3 : K * cos Υ * (ω 1 * (A3 / A2) + ω 2 * (A2 / A3)) = -δ := by
      rw [hK]; linear_combination -e3
    have prod : (A3 / A2) * (A2 / A3) = 1 := by field_simp
    have g1 : (K * sin Υ) ^ 2 * (ω 1 * ω 2) = (lam - γ 1) * (lam - γ 2) := by
      have : (K * sin Υ * ω 1 * (A3 / A2)) * (K * sin Υ * ω 2 * (A2 / A3)) =
        (K * sin Υ) ^ 2 * (ω 1 * ω 2) * ((A3 / A2) * (A2 / A3)) := by ring
      rw [prod, mul_one, f1, f2] at this
      linarith
    have g2 : K * cos Υ * (2 * lam - γ 1 - γ 2) = δ * (K * sin Υ) := by
      have : K * sin Υ * (ω 1 * (A3 / A2) + ω 2 * (A2 / A3)) = -(2 * lam - γ 1 - γ 2) := by
        linear_combination f1 + f2
      linear_combination K * cos Υ * this - K * sin Υ * f3
    have g3 : K * cos Υ = δ / (2 * lam - γ 1 - γ 2) * (K * sin Υ) := by
      field_simp; linear_combination g2
    have : K ^ 2 = (K * sin Υ) ^ 2 * (1 + (δ / (2 * lam - γ 1 - γ 2)) ^ 2) := by
      have t : K ^ 2 = (K * sin Υ) ^ 2 + (K * cos Υ) ^ 2 := by
        have := sin_sq_add_cos_sq Υ
        linear_combination -K ^ 2 * this
      rw [g3] at t
      linear_combination t
    rw [this, ← g1]; ring
  · intro h
    set d := δ / (2 * lam - γ 1 - γ 2) with hd
    obtain ⟨Υ, hs, hc⟩ := exists_phase (-d) η hη
    rw [neg_sq] at hs hc
    have hR : 0 < √(1 + d ^ 2) := Real.sqrt_pos.2 (by positivity)
    have hR2 : √(1 + d ^ 2) ^ 2 = 1 + d ^ 2 := Real.sq_sqrt (by positivity)
    set R := √(1 + d ^ 2)
    have hη' : 0 < |η| := abs_pos.2 hη
    -- K = 2|η|A/R, K² ω1 ω2 = (lam-γ1)(lam-γ2)
    have hη2 : |η| ^ 2 = η ^ 2 := sq_abs η
    have hKK : (2 * |η| * A / R) ^ 2 * (ω 1 * ω 2) = (lam - γ 1) * (lam - γ 2) := by
      rw [div_pow, hR2]
      have : (2 * |η| * A) ^ 2 = (2 * η * A) ^ 2 := by rw [mul_pow, mul_pow, hη2]; ring
      rw [this, div_mul_eq_mul_div, h]
      have : 1 + d ^ 2 ≠ 0 := by positivity
      field_simp
    set K := 2 * |η| * A / R with hKd
    have hKp : 0 < K := by positivity
    -- choose A2 = 1, A3 = r with K ω1 r = lam - γ1
    refine ⟨1, (lam - γ 1) / (K * ω 1), Υ, one_pos, by positivity, ?_, ?_, ?_⟩
    · have : 2 * η * ω 1 * A * ((lam - γ 1) / (K * ω 1)) * sin Υ =
        2 * ω 1 * A * ((lam - γ 1) / (K * ω 1)) * (η * sin Υ) := by ring
      rw [this, hs]
      have : 2 * ω 1 * A * ((lam - γ 1) / (K * ω 1)) * (-|η| / R) = -(lam - γ 1) := by
        rw [hKd]; field_simp
      rw [this]; ring
    · have : 2 * η * ω 2 * A * 1 * sin Υ = 2 * ω 2 * A * (η * sin Υ) := by ring
      rw [this, hs]
      have : 2 * ω 2 * A * (-|η| / R) = -(K * ω 2) := by rw [hKd]; ring
      rw [this]
      field_simp
      linear_combination hKK
    · have : 2 * η * cos Υ * (ω 1 * A * ((lam - γ 1) / (K * ω 1)) / 1 + ω 2 * A * 1 / ((lam - γ 1) / (K * ω 1))) =
        2 * (η * cos Υ) * A * (ω 1 * ((lam - γ 1) / (K * ω 1)) / 1 + ω 2 * 1 / ((lam - γ 1) / (K * ω 1))) := by ring
      rw [this, hc]
      have h3 : ω 1 * ((lam - γ 1) / (K * ω 1)) / 1 + ω 2 * 1 / ((lam - γ 1) / (K * ω 1)) =
          (2 * lam - γ 1 - γ 2) / K := by
        field_simp
        linear_combination hKK
      rw [h3]
      have h4 : 2 * (-d * |η| / R) * A * ((2 * lam - γ 1 - γ 2) / K) = -d * (2 * lam - γ 1 - γ 2) := by
        rw [hKd]; field_simp
      rw [h4, hd]
      field_simp
      ring

/-- The resonance function is strictly increasing in the growth rate. -/
theorem res_mono (u v δ lam : ℝ) (hu : 0 < u) (hv : 0 < v) (hl : 0 < lam) :
    u * v * (1 + (δ / (u + v)) ^ 2) < (lam + u) * (lam + v) * (1 + (δ / (2 * lam + u + v)) ^ 2) := by
  have h1 : u * v < (lam + u) * (lam + v) := by nlinarith [mul_pos hl hu, mul_pos hl hv]
  have h2 : u * v * (δ / (u + v)) ^ 2 ≤ (lam + u) * (lam + v) * (δ / (2 * lam + u + v)) ^ 2 := by
    rw [div_pow, div_pow, ← mul_div_assoc, ← mul_div_assoc, div_le_div_iff₀ (by positivity) (by positivity)]
    have : 0 ≤ δ ^ 2 * ((lam ^ 2 + (u + v) * lam) * (u - v) ^ 2) := by positivity
    nlinarith
  nlinarith

/-- The returned critical parent amplitude is exactly the threshold of parametric instability: daughters
can grow on a constant parent iff its amplitude exceeds the critical one. -/
theorem C55_critical_amplitude_threshold (s : StatIn) (el A : ℝ) (am : Amps) (hel : s.η = some el)
    (hne : el ≠ 0) (hp : isParametric s.γ) (hω : ∀ i, 0 < s.ω i) (hA : 0 < A) (ham : s.amps = some am) :
    (∃ lam, 0 < lam ∧ DaughtersGrowAt s.γ s.ω s.δ el A lam) ↔ am.acrit < A := by
  obtain ⟨h0, h1, h2⟩ := hp
  have w1 := hω 1
  have w2 := hω 2
  have he := amps_eq s el hel h0 h1 h2 (hω 0) w1 w2
  simp only at he
  rw [ham] at he
  obtain rfl : am = _ := Option.some.inj he
  have e : 0 < |el| := abs_pos.2 hne
  have hb2 : √(-s.γ 1 / s.ω 1) ^ 2 = -s.γ 1 / s.ω 1 := Real.sq_sqrt (div_pos (by linarith) w1).le
  have hc2 : √(-s.γ 2 / s.ω 2) ^ 2 = -s.γ 2 / s.ω 2 := Real.sq_sqrt (div_pos (by linarith) w2).le
  have hR2 : √(1 + s.qCrit ^ 2) ^ 2 = 1 + s.qCrit ^ 2 := Real.sq_sqrt (by positivity)
  have hel2 : |el| ^ 2 = el ^ 2 := sq_abs el
  have hq : s.qCrit ^ 2 = (s.δ / (-s.γ 1 + -s.γ 2)) ^ 2 := by
    rw [StatIn.qCrit, ← neg_add, div_neg, neg_sq]
  -- the threshold condition, squared
  have hthr : √(1 + s.qCrit ^ 2) * (√(-s.γ 1 / s.ω 1) * √(-s.γ 2 / s.ω 2)) / (2 * |el|) < A ↔
      (-s.γ 1) * (-s.γ 2) * (1 + (s.δ / (-s.γ 1 + -s.γ 2)) ^ 2) < (2 * el * A) ^ 2 * (s.ω 1 * s.ω 2) := by
    rw [div_lt_iff₀ (by positivity), ← pow_lt_pow_iff_left₀ (by positivity) (by positivity) two_ne_zero,
      mul_pow, mul_pow, hR2, hb2, hc2, hq]
    have : (A * (2 * |el|)) ^ 2 = (2 * el * A) ^ 2 := by rw [mul_pow, mul_pow, hel2]; ring
    rw [this]
    have h3 : (1 + (s.δ / (-s.γ 1 + -s.γ 2)) ^ 2) * (-s.γ 1 / s.ω 1 * (-s.γ 2 / s.ω 2)) =
      ((-s.γ 1) * (-s.γ 2) * (1 + (s.δ / (-s.γ 1 + -s.γ 2)) ^ 2)) / (s.ω 1 * s.ω 2) := by
      field_simp
    rw [h3, div_lt_iff₀ (by positivity)]
  rw [hthr]
  have hu : 0 < -s.γ 1 := by linarith
  have hv : 0 < -s.γ 2 := by linarith
  have hform : ∀ lam, (lam - s.γ 1) * (lam - s.γ 2) * (1 + (s.δ / (2 * lam - s.γ 1 - s.γ 2)) ^ 2) =
      (lam + -s.γ 1) * (lam + -s.γ 2) * (1 + (s.δ / (2 * lam + -s.γ 1 + -s.γ 2)) ^ 2) := by
    intro lam; simp only [sub_eq_add_neg]
  constructor
  · rintro ⟨lam, hl, hg⟩
    rw [grow_iff _ _ _ _ _ _ h1 h2 w1 w2 hA hne hl.le] at hg
    rw [hg, hform]
    exact res_mono _ _ _ _ hu hv hl
  · intro h
    set K := (2 * el * A) ^ 2 * (s.ω 1 * s.ω 2)
    have hK : 0 < K := by positivity
    let f : ℝ → ℝ := fun lam => (lam + -s.γ 1) * (lam + -s.γ 2) * (1 + (s.δ / (2 * lam + -s.γ 1 + -s.γ 2)) ^ 2)
    have hcont : ContinuousOn f (Set.Icc 0 (K + 1)) := by
      apply ContinuousOn.mul
      · fun_prop
      · apply ContinuousOn.add continuousOn_const
        apply ContinuousOn.pow
        apply ContinuousOn.div continuousOn_const (by fun_prop)
        intro x hx
        have := hx.1
        have : 0 < 2 * x + -s.γ 1 + -s.γ 2 := by linarith
        exact this.ne'
    have hf0 : f 0 < K := by
      have : f 0 = (-s.γ 1) * (-s.γ 2) * (1 + (s.δ / (-s.γ 1 + -s.γ 2)) ^ 2) := by
        simp only [f, zero_add, mul_zero]
      rw [this]; exact h
    have hf1 : K < f (K + 1) := by
      have a1 : K + 1 < K + 1 + -s.γ 1 := by linarith
      have a2 : 1 < K + 1 + -s.γ 2 := by linarith
      have a3 : 1 ≤ 1 + (s.δ / (2 * (K + 1) + -s.γ 1 + -s.γ 2)) ^ 2 := by
        have := sq_nonneg (s.δ / (2 * (K + 1) + -s.γ 1 + -s.γ 2)); linarith
      have a4 : K + 1 < (K + 1 + -s.γ 1) * (K + 1 + -s.γ 2) := by nlinarith
      have : (K + 1 + -s.γ 1) * (K + 1 + -s.γ 2) ≤ f (K + 1) := le_mul_of_one_le_right (by positivity) a3
      linarith
    obtain ⟨lam, hlm, hfl⟩ := intermediate_value_Icc (by linarith) hcont ⟨hf0.le, hf1.le⟩
    have hl : 0 < lam := by
      rcases eq_or_lt_of_le hlm.1 with h' | h'
      · rw [← h'] at hfl; linarith
      · exact h'
    refine ⟨lam, hl, ?_⟩
    rw [grow_iff _ _ _ _ _ _ h1 h2 w1 w2 hA hne hl.le, hform]
    exact hfl.symm

/-- Non-vacuity for C55: the hypotheses are met, and the critical amplitude is positive. -/
example : ∃ (s : StatIn) (am : Amps), s.η = some 2 ∧ isParametric s.γ ∧ (∀ i, 0 < s.ω i) ∧
    s.amps = some am ∧ 0 < am.acrit := by
  let s : StatIn := { γ := ![1, -3, -2], ω := ![5, 3, 2], δ := 8, η := some 2 }
  have hw : ∀ i, 0 < s.ω i := by intro i; fin_cases i <;> simp [s]
  have hp : isParametric s.γ := by simp [isParametric, s]
  refine ⟨s, _, rfl, hp, hw, amps_eq s 2 rfl hp.1 hp.2.1 hp.2.2 (hw 0) (hw 1) (hw 2), ?_⟩
  have a : 0 < √(1 + s.qCrit ^ 2) := Real.sqrt_pos.2 (by positivity)
  have b : 0 < √(-s.γ 1 / s.ω 1) := Real.sqrt_pos.2 (div_pos (by have := hp.2.1; linarith) (hw 1))
  have c : 0 < √(-s.γ 2 / s.ω 2) := Real.sqrt_pos.2 (div_pos (by have := hp.2.2; linarith) (hw 2))
  positivity

end Verif.Stab
