import Verif.Hough.Props
import Mathlib.Analysis.SpecialFunctions.Trigonometric.Inverse
/-!
# C46: profiles on the full range
-/
namespace Verif.Hough
noncomputable section
open Real Polynomial Verif.Cheby

theorem pow_natAbs_eq {a b : ℤ} (h : a % 2 = b % 2) : ((-1 : ℝ)) ^ a.natAbs = (-1) ^ b.natAbs := by
  by_cases ha : Even a
  · have hb : Even b := by rw [Int.even_iff] at *; omega
    rw [(Int.natAbs_even.2 ha).neg_one_pow, (Int.natAbs_even.2 hb).neg_one_pow]
  · rw [Int.not_even_iff_odd] at ha
    have hb : Odd b := by rw [Int.odd_iff] at *; omega
    rw [(Int.natAbs_odd.2 ha).neg_one_pow, (Int.natAbs_odd.2 hb).neg_one_pow]

theorem mulK_eq (c : Cfg) : mulK c = (-1) ^ (c.l - c.m).natAbs := by
  unfold mulK kGrav
  refine pow_natAbs_eq ?_
  rcases abs_choice c.m with h | h <;> rw [h] <;> omega

theorem mulK1_eq (c : Cfg) : mulK1 c = -mulK c := by
  unfold mulK1 mulK; rw [pow_succ]; ring

theorem radial_parity {c : Cfg} {f : ℝ → ℝ} {hr : Fin c.M → ℝ} (h : Radial c f hr) (x : ℝ) :
    f (-x) = mulK c * f x := by
  obtain ⟨p, h1, _, rfl, _⟩ := h
  simp only [h1, mulK_eq, neg_sq]
  ring

theorem deriv_parity {f : ℝ → ℝ} {k : ℝ} (h : ∀ x, f (-x) = k * f x) (x : ℝ) :
    deriv f (-x) = -k * deriv f x := by
  have e : (fun x => f (-x)) = fun x => k * f x := funext h
  have h1 := deriv_comp_neg f x
  rw [e, deriv_const_mul_field] at h1
  linarith

theorem thetaPrat_parity {c : Cfg} {f : ℝ → ℝ} {k : ℝ} (h : ∀ x, f (-x) = k * f x) (x : ℝ) :
    thetaPrat c.nu c.m f (-x) = -k * thetaPrat c.nu c.m f x := by
  simp only [thetaPrat, deriv_parity h, h, neg_sq]
  ring

theorem phiPrat_parity {c : Cfg} {f : ℝ → ℝ} {k : ℝ} (h : ∀ x, f (-x) = k * f x) (x : ℝ) :
    phiPrat c.nu c.m f (-x) = k * phiPrat c.nu c.m f x := by
  simp only [phiPrat, deriv_parity h, h, neg_sq]
  ring

theorem thetaFn_parity {c : Cfg} {f : ℝ → ℝ} {k : ℝ} (h : ∀ x, f (-x) = k * f x) (x : ℝ) :
    thetaFn c f (-x) = -k * thetaFn c f x := by
  simp only [thetaFn]
  cases c.defn <;> simp only [thetaPrat_parity h, neg_sq]
  ring

theorem phiFn_parity {c : Cfg} {f : ℝ → ℝ} {k : ℝ} (h : ∀ x, f (-x) = k * f x) (x : ℝ) :
    phiFn c f (-x) = k * phiFn c f x := by
  simp only [phiFn]
  cases c.defn <;> simp only [phiPrat_parity h, neg_sq] <;> ring

theorem catRev_samples (c : Cfg) (a b : Fin c.M → ℝ) (g : ℝ → ℝ) (hb : ∀ i, b i = g (c.mu i))
    (ha : ∀ i, a i = g (-c.mu i)) (j : Fin (c.M + c.M)) : catRev c a b j = g (muRange c j) := by
  unfold muRange catRev
  refine Fin.addCases (fun i => ?_) (fun i => ?_) j
  · simp only [Fin.append_left, ha]; congr 1; ring
  · simp only [Fin.append_right, Function.comp, hb]

/-- Every point of the full range is a collocation point or the opposite of one. -/
theorem muRange_cases (c : Cfg) (j : Fin (c.M + c.M)) : ∃ i, muRange c j = c.mu i ∨ muRange c j = -c.mu i := by
  unfold muRange catRev
  refine Fin.addCases (fun i => ⟨i, Or.inr (by simp only [Fin.append_left]; ring)⟩)
    (fun i => ⟨i.rev, Or.inl (by simp only [Fin.append_right, Function.comp])⟩) j

theorem abs_muRange (c : Cfg) (j : Fin (c.M + c.M)) : |muRange c j| < 1 := by
  obtain ⟨i, h | h⟩ := muRange_cases c j <;> rw [h]
  · exact abs_mu i
  · rw [abs_neg]; exact abs_mu i

theorem mu_anti (M : ℕ) : StrictAnti (mu M) := by
  intro i j hij
  unfold mu
  have hM : 0 < M := lt_of_le_of_lt (Nat.zero_le _) i.2
  refine cos_lt_cos_of_nonneg_of_le_pi_div_two (theta_pos i).le (theta_lt j).le ?_
  unfold theta
  have : (0 : ℝ) < π / (2 * M) := by positivity
  have hij' : ((i : ℕ) : ℝ) < ((j : ℕ) : ℝ) := by exact_mod_cast hij
  nlinarith

/-- **C46.** The points of the full range increase strictly from -1 to 1 and are symmetric. -/
theorem C46_grid (c : Cfg) : StrictMono (muRange c) ∧ (∀ j, -1 < muRange c j ∧ muRange c j < 1) ∧
    ∀ j, muRange c j.rev = -muRange c j := by
  refine ⟨?_, fun j => abs_lt.1 (abs_muRange c j), ?_⟩
  · intro a b
    unfold muRange catRev
    refine Fin.addCases (fun i => ?_) (fun i => ?_) a <;> refine Fin.addCases (fun k => ?_) (fun k => ?_) b
    · intro h
      have : i < k := by
        simp only [Fin.lt_def, Fin.val_castAdd] at h; exact h
      have := mu_anti c.M this
      simp only [Fin.append_left]
      linarith
    · intro _
      have h1 := mu_pos (M := c.M) i
      have h2 := mu_pos (M := c.M) k.rev
      simp only [Fin.append_left, Fin.append_right, Function.comp]
      linarith
    · intro h
      exfalso
      simp only [Fin.lt_def, Fin.val_natAdd, Fin.val_castAdd] at h
      have := k.2; omega
    · intro h
      have : i < k := by
        simp only [Fin.lt_def, Fin.val_natAdd] at h
        exact Fin.lt_def.2 (by omega)
      have := mu_anti c.M (Fin.rev_lt_rev.2 this)
      simp only [Fin.append_right, Function.comp]
      exact this
  · intro j
    unfold muRange catRev
    refine Fin.addCases (fun i => ?_) (fun i => ?_) j
    · have : (Fin.castAdd c.M i).rev = Fin.natAdd c.M i.rev := by
        ext; simp [Fin.val_rev]; have := i.2; omega
      rw [this]; simp only [Fin.append_right, Fin.append_left, Function.comp, Fin.rev_rev]; ring
    · have : (Fin.natAdd c.M i).rev = Fin.castAdd c.M i.rev := by
        ext; simp [Fin.val_rev]; have := i.2; omega
      rw [this]; simp only [Fin.append_right, Fin.append_left, Function.comp]; ring

/-- **C46.** The radial, latitudinal and azimuthal arrays on the full range are the samples of the
radial, latitudinal and azimuthal functions at the points of the full range. -/
theorem C46_profiles (c : Cfg) (f : ℝ → ℝ) (hr : Fin c.M → ℝ) (h : Radial c f hr) (j : Fin (c.M + c.M)) :
    hrRange c hr j = f (muRange c j) ∧ hrRangeM c hr j = -c.m * f (muRange c j) ∧
    htRange c hr j = thetaFn c f (muRange c j) ∧ hpRange c hr j = phiFn c f (muRange c j) := by
  have hp := radial_parity h
  have h0 : hrRange c hr j = f (muRange c j) := by
    obtain ⟨_, _, _, _, hh⟩ := id h
    refine catRev_samples c _ _ f (fun i => by rw [hh]) (fun i => ?_) j
    rw [hp, hh]
  refine ⟨h0, by rw [hrRangeM, h0]; ring, ?_, ?_⟩
  · refine catRev_samples c _ _ _ (fun i => (C45_profiles c f hr h i).1) (fun i => ?_) j
    rw [(C45_profiles c f hr h i).1, thetaFn_parity hp, mulK1_eq]
  · refine catRev_samples c _ _ _ (fun i => (C45_profiles c f hr h i).2) (fun i => ?_) j
    rw [(C45_profiles c f hr h i).2, phiFn_parity hp]

theorem theta_sample (g : ℝ → ℝ) (k : ℝ) (hg : ∀ x, g (-x) = k * g x) (c : Cfg)
    (hd : ∀ i, DifferentiableAt ℝ g (c.mu i)) (hd' : ∀ i, DifferentiableAt ℝ g (-c.mu i)) (b : Fin c.M → ℝ)
    (hb : ∀ i, b i = deriv g (c.mu i)) (K : ℝ) (hK : K = -k) (j : Fin (c.M + c.M)) :
    catRev c (fun i => K * (-c.s i * b i)) (fun i => -c.s i * b i) j =
      deriv (fun t => g (cos t)) (arccos (muRange c j)) := by
  have hx := abs_lt.1 (abs_muRange c j)
  have hcos : cos (arccos (muRange c j)) = muRange c j := cos_arccos hx.1.le hx.2.le
  have hdj : DifferentiableAt ℝ g (cos (arccos (muRange c j))) := by
    rw [hcos]
    obtain ⟨i, e | e⟩ := muRange_cases c j <;> rw [e]
    · exact hd i
    · exact hd' i
  rw [deriv_comp_cos _ _ hdj, hcos, sin_arccos]
  refine catRev_samples c _ _ (fun x => -√(1 - x ^ 2) * deriv g x) (fun i => by rw [hb, s_eq']) (fun i => ?_) j
  rw [hb, hK]
  simp only [deriv_parity hg, neg_sq, s_eq']
  ring

theorem smooth_neg {c : Cfg} {f : ℝ → ℝ} (h : Smooth f) (i : Fin c.M) : DifferentiableAt ℝ f (-c.mu i) :=
  (h.d1 _ (by rw [abs_neg]; exact abs_mu i)).differentiableAt

/-- **C46.** The arrays of the first derivatives of the radial function and of the latitudinal
function, with respect to `mu` and to `theta`, are the derivatives at the points of the full range. -/
theorem C46_derivatives (c : Cfg) (f : ℝ → ℝ) (hr : Fin c.M → ℝ) (h : Radial c f hr) (hc : Regular c)
    (j : Fin (c.M + c.M)) :
    hrpRange c hr j = deriv f (muRange c j) ∧
    hrpRangeTheta c hr j = deriv (fun t => f (cos t)) (arccos (muRange c j)) ∧
    htpRange c hr j = deriv (thetaFn c f) (muRange c j) ∧
    htpRangeTheta c hr j = deriv (fun t => thetaFn c f (cos t)) (arccos (muRange c j)) := by
  have hp := radial_parity h
  have hr1 : ∀ i, hrp c hr i = deriv f (c.mu i) := fun i => (C45_radial_derivatives c f hr h i).1
  have ht1 : ∀ i, htp c hr i = deriv (thetaFn c f) (c.mu i) := fun i => (C45_latitudinal_derivatives c f hr h hc i).1
  have htd : ∀ i, DifferentiableAt ℝ (thetaFn c f) (c.mu i) := fun i => (theta_hasDeriv h hc i).differentiableAt
  have hneg : ∀ i, DifferentiableAt ℝ (thetaFn c f) (-c.mu i) := by
    intro i
    have e : thetaFn c f = fun x => -mulK c * thetaFn c f (-x) := by
      funext x
      rw [thetaFn_parity hp]
      have : mulK c * mulK c = 1 := by unfold mulK; rw [← mul_pow]; norm_num
      calc thetaFn c f x = (mulK c * mulK c) * thetaFn c f x := by rw [this, one_mul]
        _ = _ := by ring
    rw [e]
    refine DifferentiableAt.const_mul ?_ _
    have h1 : DifferentiableAt ℝ (thetaFn c f) (-(-c.mu i)) := by rw [neg_neg]; exact htd i
    exact DifferentiableAt.comp (-c.mu i) h1 differentiableAt_id.neg
  refine ⟨?_, ?_, ?_, ?_⟩
  · refine catRev_samples c _ _ _ hr1 (fun i => ?_) j
    rw [hr1, deriv_parity hp, mulK1_eq]
  · exact theta_sample f (mulK c) hp c (fun i => (h.smooth.d1 _ (abs_mu i)).differentiableAt)
      (smooth_neg h.smooth) (hrp c hr) hr1 (mulK1 c) (mulK1_eq c) j
  · refine catRev_samples c _ _ _ ht1 (fun i => ?_) j
    rw [ht1, deriv_parity (thetaFn_parity hp)]; ring
  · exact theta_sample (thetaFn c f) (-mulK c) (thetaFn_parity hp) c htd hneg (htp c hr) ht1 (mulK c) (by ring) j

/-- **C46**, azimuthal derivatives for the definition `prat` (for the other two the half-range arrays
are already wrong, see C45). -/
theorem C46_azimuthal_derivatives_partial (c : Cfg) (f : ℝ → ℝ) (hr : Fin c.M → ℝ) (h : Radial c f hr) (hc : Regular c)
    (hd : c.defn = .prat) (j : Fin (c.M + c.M)) :
    hppRange c hr j = deriv (phiFn c f) (muRange c j) ∧
    hppRangeTheta c hr j = deriv (fun t => phiFn c f (cos t)) (arccos (muRange c j)) := by
  have hp := radial_parity h
  have h1 : ∀ i, hpp c hr i = deriv (phiFn c f) (c.mu i) := fun i => (C45_azimuthal_derivatives_partial c f hr h hc hd i).1
  have htd : ∀ i, DifferentiableAt ℝ (phiFn c f) (c.mu i) := by
    intro i
    have e : phiFn c f = phiPrat c.nu c.m f := by funext x; simp only [phiFn, hd]
    rw [e]; exact (hpp_prat_value h hc i).differentiableAt
  have hneg : ∀ i, DifferentiableAt ℝ (phiFn c f) (-c.mu i) := by
    intro i
    have e : phiFn c f = fun x => mulK c * phiFn c f (-x) := by
      funext x
      rw [phiFn_parity hp]
      have : mulK c * mulK c = 1 := by unfold mulK; rw [← mul_pow]; norm_num
      calc phiFn c f x = (mulK c * mulK c) * phiFn c f x := by rw [this, one_mul]
        _ = _ := by ring
    rw [e]
    refine DifferentiableAt.const_mul ?_ _
    have h1 : DifferentiableAt ℝ (phiFn c f) (-(-c.mu i)) := by rw [neg_neg]; exact htd i
    exact DifferentiableAt.comp (-c.mu i) h1 differentiableAt_id.neg
  refine ⟨?_, ?_⟩
  · refine catRev_samples c _ _ _ h1 (fun i => ?_) j
    rw [h1, deriv_parity (phiFn_parity hp), mulK1_eq]
  · exact theta_sample (phiFn c f) (mulK c) (phiFn_parity hp) c htd hneg (hpp c hr) h1 (mulK1 c) (mulK1_eq c) j

/-- **C46 refuted** for the second derivatives of the radial function: in the southern half the array
always has the sign opposite to the second derivative, with respect to `mu` and to `theta`. -/
theorem C46_second_derivative_wrong (c : Cfg) (f : ℝ → ℝ) (hr : Fin c.M → ℝ) (h : Radial c f hr)
    (j : Fin (c.M + c.M)) (hj : muRange c j < 0) :
    hrppRange c hr j = -deriv (deriv f) (muRange c j) := by
  have hp := radial_parity h
  have hr2 : ∀ i, hrpp c hr i = deriv (deriv f) (c.mu i) := fun i => (C45_radial_derivatives c f hr h i).2.1
  revert hj
  unfold muRange hrppRange catRev
  refine Fin.addCases (fun i => ?_) (fun i => ?_) j
  · intro _
    simp only [Fin.append_left, hr2, mulK1_eq]
    rw [show -1 * c.mu i = -c.mu i by ring, deriv_parity (deriv_parity hp)]
    ring
  · intro hlt
    exfalso
    simp only [Fin.append_right, Function.comp] at hlt
    exact absurd hlt (not_lt.2 (mu_pos _).le)

/-- A concrete wrong second derivative: two points, `l = 2, m = 0`, radial function `x²`. -/
theorem C46_second_derivative_wrong_case : ∃ (c : Cfg) (f : ℝ → ℝ) (hr : Fin c.M → ℝ) (j : Fin (c.M + c.M)),
    Radial c f hr ∧ Regular c ∧ hrppRange c hr j ≠ deriv (deriv f) (muRange c j) := by
  have hrad : Radial ⟨2, 0, 2, 0, .prat⟩ (fun x => x ^ 2) (fun i => (mu 2 i) ^ 2) := by
    refine ⟨X ^ 2, ?_, ?_, ?_, rfl⟩
    · intro x; simp
    · rw [degree_X_pow]; exact_mod_cast (by norm_num : 2 < 2 * 2)
    · funext x; simp
  refine ⟨_, _, _, ⟨0, by norm_num⟩, hrad, fun i => by simp, ?_⟩
  have hneg : muRange ⟨2, 0, 2, 0, .prat⟩ ⟨0, by norm_num⟩ < 0 := by
    have h0 := mu_pos (M := 2) 0
    have : muRange ⟨2, 0, 2, 0, .prat⟩ ⟨0, by norm_num⟩ = -1 * mu 2 0 := by
      exact Fin.append_left (fun i : Fin 2 => -1 * mu 2 i) (mu 2 ∘ Fin.rev) (0 : Fin 2)
    rw [this]; linarith
  rw [C46_second_derivative_wrong _ _ _ hrad _ hneg]
  have hdd : deriv (deriv fun x : ℝ => x ^ 2) = fun _ => 2 := by
    have : (deriv fun x : ℝ => x ^ 2) = fun x => 2 * x := by
      funext x; simpa using (hasDerivAt_pow 2 x).deriv
    rw [this]
    funext x
    simpa using ((hasDerivAt_id x).const_mul (2 : ℝ)).deriv
  rw [hdd]; norm_num

/-- **C46.** The combinations used in the coupling coefficients (Lee 2012, B16, with the sign of the
azimuthal order used here) are, at every point `x` of the full range,
`m Htheta - x Hphi` and `(x Htheta - m Hphi)/sqrt(1-x²)`. -/
theorem C46_combinations (c : Cfg) (f : ℝ → ℝ) (hr : Fin c.M → ℝ) (h : Radial c f hr) (j : Fin (c.M + c.M)) :
    thetaPhiTilde c hr j = c.m * thetaFn c f (muRange c j) - muRange c j * phiFn c f (muRange c j) ∧
    phiPhiTilde c hr j = (muRange c j * thetaFn c f (muRange c j) - c.m * phiFn c f (muRange c j))
      / √(1 - muRange c j ^ 2) := by
  have hp := radial_parity h
  have hv := fun i => C45_profiles c f hr h i
  constructor
  · refine catRev_samples c _ _ (fun x => c.m * thetaFn c f x - x * phiFn c f x) (fun i => by rw [(hv i).1, (hv i).2]) (fun i => ?_) j
    rw [(hv i).1, (hv i).2, thetaFn_parity hp, phiFn_parity hp, mulK1_eq]; ring
  · refine catRev_samples c _ _ (fun x => (x * thetaFn c f x - c.m * phiFn c f x) / √(1 - x ^ 2))
      (fun i => by rw [(hv i).1, (hv i).2, s_eq']) (fun i => ?_) j
    rw [(hv i).1, (hv i).2, thetaFn_parity hp, phiFn_parity hp, mulK1_eq, neg_sq, s_eq']; ring

/-- Non-vacuity: an odd radial function with the sine factor, `l = 2, m = 1`, two points. -/
example : Radial ⟨2, 1 / 2, 2, 1, .townsend⟩ (fun x => x * √(1 - x ^ 2)) (fun i => mu 2 i * √(1 - mu 2 i ^ 2)) := by
  refine ⟨X, ?_, ?_, ?_, rfl⟩
  · intro x; simp
  · rw [degree_X]; exact_mod_cast (by norm_num : 1 < 2 * 2)
  · funext x; simp

end
end Verif.Hough
