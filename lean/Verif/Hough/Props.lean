import Verif.Hough.Lemmas
import Mathlib.Analysis.SpecialFunctions.Trigonometric.Deriv
/-!
# C45, C62: Hough profiles, their derivatives, and the tidal equations
-/
namespace Verif.Hough
noncomputable section
open Real Polynomial Verif.Cheby

/-- No collocation point is a critical latitude: `nu² mu² ≠ 1` (otherwise the code divides by zero). -/
def Regular (c : Cfg) : Prop := ∀ i, c.nu ^ 2 * c.mu i ^ 2 ≠ 1

theorem Regular.denom {c : Cfg} (h : Regular c) (i : Fin c.M) : 1 - c.nu ^ 2 * c.mu i ^ 2 ≠ 0 :=
  sub_ne_zero.2 (h i).symm

theorem s_eq' (c : Cfg) (i : Fin c.M) : √(1 - c.mu i ^ 2) = c.s i := rfl
theorem s_ne (c : Cfg) (i : Fin c.M) : c.s i ≠ 0 := (Cheby.s_pos i).ne'
theorem s_sq' (c : Cfg) (i : Fin c.M) : 1 - c.mu i ^ 2 = c.s i ^ 2 := (Cheby.s_sq i).symm

theorem apply_radial {c : Cfg} {f : ℝ → ℝ} {hr : Fin c.M → ℝ} (h : Radial c f hr) (c0 c1 : Fin c.M → ℝ)
    (c2 : Option (Fin c.M → ℝ)) (i : Fin c.M) :
    Cheby.apply c.M hr c0 c1 c2 c.parity c.pf i = c0 i * f (c.mu i) + c1 i * deriv f (c.mu i) +
      (match c2 with | none => 0 | some a => a i * deriv (deriv f) (c.mu i)) := by
  obtain ⟨p, hp, hd, rfl, rfl⟩ := (radial_iff c f hr).1 h
  have := C44_operator c.parity c.pf p hp hd c0 c1 c2 i
  cases c2 <;> exact this

/-- **C45.** Every array of radial values at the collocation points samples exactly one radial
function of the class that the collocation can represent. -/
theorem C45_radial_function (c : Cfg) (hr : Fin c.M → ℝ) : ∃! f, Radial c f hr := by
  obtain ⟨p, ⟨h1, h2, h3⟩, hu⟩ := C44_every_vector c.parity c.pf hr
  refine ⟨fn c.pf p, (radial_iff c _ hr).2 ⟨p, h1, h2, rfl, h3⟩, ?_⟩
  intro g hg
  obtain ⟨q, a, b, rfl, e⟩ := (radial_iff c g hr).1 hg
  rw [hu q ⟨a, b, e⟩]

/-- **C45.** The latitudinal and azimuthal arrays are the samples of the latitudinal and azimuthal
Hough functions, for every definition. -/
theorem C45_profiles (c : Cfg) (f : ℝ → ℝ) (hr : Fin c.M → ℝ) (h : Radial c f hr) (i : Fin c.M) :
    ht c hr i = thetaFn c f (c.mu i) ∧ hp c hr i = phiFn c f (c.mu i) := by
  have hs := s_ne c i
  have hss := s_sq' c i
  have e1 : ∀ D s N : ℝ, N / D / s = N / (D * s) := fun D s N => by rw [div_div]
  have t : thetaPrat c.nu c.m f (c.mu i) = (-(c.m : ℝ) * c.nu * c.mu i / denom c i * f (c.mu i) +
      -(c.s i ^ 2) / denom c i * deriv f (c.mu i) + 0) / c.s i := by
    unfold thetaPrat
    rw [s_eq', hss, ← denom, ← div_div]
    ring
  have q : phiPrat c.nu c.m f (c.mu i) = ((c.m : ℝ) / denom c i * f (c.mu i) +
      c.nu * c.mu i * c.s i ^ 2 / denom c i * deriv f (c.mu i) + 0) / c.s i := by
    unfold phiPrat
    rw [s_eq', hss, ← denom, ← div_div]
    ring
  constructor
  · simp only [ht, thetaFn, apply_radial h]
    rw [← t]
    cases c.defn <;> simp [Defn.sinFactor, s_eq', mul_comm]
  · simp only [hp, phiFn, apply_radial h]
    rw [← q]
    cases c.defn <;> simp [Defn.sinFactor, Defn.adjustPhiSign, s_eq', mul_comm]

theorem deriv_comp_cos (g : ℝ → ℝ) (t : ℝ) (hg : DifferentiableAt ℝ g (cos t)) :
    deriv (fun y => g (cos y)) t = -sin t * deriv g (cos t) := by
  have := (hg.hasDerivAt.comp t (hasDerivAt_cos t)).deriv
  simp only [Function.comp_def] at this
  rw [this]; ring

theorem mu_eq (c : Cfg) (i : Fin c.M) : c.mu i = cos (theta c.M i) := rfl
theorem s_sin (c : Cfg) (i : Fin c.M) : c.s i = sin (theta c.M i) := Cheby.s_eq i

/-- **C45.** The first- and second-derivative arrays of the radial function are its derivatives with
respect to `mu` and to `theta` at the collocation points. -/
theorem C45_radial_derivatives (c : Cfg) (f : ℝ → ℝ) (hr : Fin c.M → ℝ) (h : Radial c f hr) (i : Fin c.M) :
    hrp c hr i = deriv f (c.mu i) ∧ hrpp c hr i = deriv (deriv f) (c.mu i) ∧
    hrpTheta c hr i = deriv (fun t => f (cos t)) (theta c.M i) ∧
    hrppTheta c hr i = deriv (deriv (fun t => f (cos t))) (theta c.M i) := by
  have hsm := h.smooth
  obtain ⟨p, hp, hd, hf, hh⟩ := (radial_iff c f hr).1 h
  have a : hrp c hr i = deriv f (c.mu i) := by
    rw [hf, hh]; exact C44_first_derivative c.parity c.pf p hp hd i
  have b : hrpp c hr i = deriv (deriv f) (c.mu i) := by
    rw [hf, hh]; exact C44_second_derivative c.parity c.pf p hp hd i
  have hmu : |cos (theta c.M i)| < 1 := abs_mu i
  refine ⟨a, b, ?_, ?_⟩
  · rw [deriv_comp_cos f _ (hsm.d1 _ hmu).differentiableAt, hrpTheta, a, s_sin, mu_eq]
  · have he : deriv (fun t => f (cos t)) =ᶠ[nhds (theta c.M i)] fun t => -sin t * deriv f (cos t) := by
      have : {y : ℝ | |cos y| < 1} ∈ nhds (theta c.M i) :=
        (isOpen_lt (continuous_abs.comp continuous_cos) continuous_const).mem_nhds hmu
      filter_upwards [this] with y hy
      exact deriv_comp_cos f _ (hsm.d1 _ hy).differentiableAt
    rw [he.deriv_eq]
    have h1 := (HasDerivAt.neg (hasDerivAt_sin (theta c.M i))).mul
      (HasDerivAt.comp (theta c.M i) (hsm.d2 _ hmu) (hasDerivAt_cos (theta c.M i)))
    have h2 := h1.deriv
    simp only [Function.comp_def] at h2
    erw [h2]
    rw [hrppTheta, a, b, s_sin]
    simp only [Pi.neg_apply]
    rw [mu_eq]
    ring

theorem hasDeriv_scaled (g : ℝ → ℝ) (g' x : ℝ) (hx : |x| < 1) (hg : HasDerivAt g g' x) :
    HasDerivAt (fun x => √(1 - x ^ 2) * g x) (√(1 - x ^ 2) * g' - x * g x / √(1 - x ^ 2)) x := by
  refine HasDerivAt.congr_deriv ((hasDeriv_sqrt x hx).mul hg) (by ring)

theorem htp_prat_value {c : Cfg} {f : ℝ → ℝ} {hr : Fin c.M → ℝ} (h : Radial c f hr) (hc : Regular c) (i : Fin c.M) :
    HasDerivAt (thetaPrat c.nu c.m f) (Cheby.apply c.M hr
      (fun i => (c.m : ℝ) * c.nu * (2 * c.mu i ^ 4 * c.nu ^ 2 - c.mu i ^ 2 * c.nu ^ 2 - 1) / denom c i ^ 2)
      (fun i => c.s i ^ 2 * (-(c.m : ℝ) * c.nu * c.mu i * denom c i + c.mu i + c.mu i ^ 3 * c.nu ^ 2
        - 2 * c.mu i * c.nu ^ 2) / denom c i ^ 2)
      (some fun i => -(c.s i ^ 4) / denom c i) c.parity c.pf i / c.s i ^ 3) (c.mu i) := by
  refine HasDerivAt.congr_deriv (hasDeriv_thetaPrat c.nu c.m f h.smooth (c.mu i) (abs_mu i) (hc.denom i)) ?_
  rw [apply_radial h, s_eq', s_sq', ← denom]
  ring

theorem hpp_prat_value {c : Cfg} {f : ℝ → ℝ} {hr : Fin c.M → ℝ} (h : Radial c f hr) (hc : Regular c) (i : Fin c.M) :
    HasDerivAt (phiPrat c.nu c.m f) (Cheby.apply c.M hr
      (fun i => (c.m : ℝ) * c.mu i * (1 - c.nu ^ 2 * c.mu i ^ 2 + 2 * c.nu ^ 2 - 2 * c.nu ^ 2 * c.mu i ^ 2)
        / denom c i ^ 2)
      (fun i => c.s i ^ 2 * ((c.m : ℝ) * denom c i + c.nu + c.nu ^ 3 * c.mu i ^ 2 - 2 * c.mu i ^ 2 * c.nu)
        / denom c i ^ 2)
      (some fun i => c.nu * c.mu i * c.s i ^ 4 / denom c i) c.parity c.pf i / c.s i ^ 3) (c.mu i) := by
  refine HasDerivAt.congr_deriv (hasDeriv_phiPrat c.nu c.m f h.smooth (c.mu i) (abs_mu i) (hc.denom i)) ?_
  rw [apply_radial h, s_eq', s_sq', ← denom]
  ring

theorem theta_hasDeriv {c : Cfg} {f : ℝ → ℝ} {hr : Fin c.M → ℝ} (h : Radial c f hr) (hc : Regular c) (i : Fin c.M) :
    HasDerivAt (thetaFn c f) (htp c hr i) (c.mu i) := by
  have key := htp_prat_value h hc i
  have hv := (C45_profiles c f hr h i).1
  have hs := s_ne c i
  have e : thetaFn c f = match c.defn with
      | .prat => thetaPrat c.nu c.m f
      | .leeSaioEquivalent => thetaPrat c.nu c.m f
      | .townsend => fun x => √(1 - x ^ 2) * thetaPrat c.nu c.m f x := by
    funext x; simp only [thetaFn]; cases c.defn <;> rfl
  unfold htp
  rw [e]
  cases hdf : c.defn with
  | prat => simpa [hdf, Defn.sinFactor] using key
  | leeSaioEquivalent => simpa [hdf, Defn.sinFactor] using key
  | townsend =>
    simp only [hdf, Defn.sinFactor, if_true]
    refine HasDerivAt.congr_deriv (hasDeriv_scaled _ _ _ (abs_mu i) key) ?_
    rw [hv]
    simp only [thetaFn, hdf, s_eq']
    field_simp

/-- **C45.** The derivative arrays of the latitudinal function are its derivatives with respect to
`mu` and to `theta` at the collocation points, for every definition. -/
theorem C45_latitudinal_derivatives (c : Cfg) (f : ℝ → ℝ) (hr : Fin c.M → ℝ) (h : Radial c f hr) (hc : Regular c)
    (i : Fin c.M) :
    htp c hr i = deriv (thetaFn c f) (c.mu i) ∧
    htpTheta c hr i = deriv (fun t => thetaFn c f (cos t)) (theta c.M i) := by
  have hd := theta_hasDeriv h hc i
  refine ⟨hd.deriv.symm, ?_⟩
  rw [deriv_comp_cos _ _ hd.differentiableAt, htpTheta, ← s_sin, ← mu_eq, hd.deriv]

/-- **C45**, the definition `prat`: the derivative arrays of the azimuthal function are its
derivatives.  Missing: the other two definitions, for which the claim is false
(`C45_azimuthal_lee_saio_wrong`, `C45_azimuthal_townsend_wrong`). -/
theorem C45_azimuthal_derivatives_partial (c : Cfg) (f : ℝ → ℝ) (hr : Fin c.M → ℝ) (h : Radial c f hr)
    (hc : Regular c) (hd : c.defn = .prat) (i : Fin c.M) :
    hpp c hr i = deriv (phiFn c f) (c.mu i) ∧
    hppTheta c hr i = deriv (fun t => phiFn c f (cos t)) (theta c.M i) := by
  have key := hpp_prat_value h hc i
  have e : phiFn c f = phiPrat c.nu c.m f := by funext x; simp only [phiFn, hd]
  have hv : hpp c hr i = deriv (phiFn c f) (c.mu i) := by
    rw [e, key.deriv]; simp [hpp, hd, Defn.sinFactor]
  refine ⟨hv, ?_⟩
  have hdiff : DifferentiableAt ℝ (phiFn c f) (cos (theta c.M i)) := by rw [e]; exact key.differentiableAt
  rw [deriv_comp_cos _ _ hdiff, hppTheta, ← s_sin, ← mu_eq, hv]

/-- For the definition `lee_saio_equivalent` the derivative array of the azimuthal function always
has the opposite sign. -/
theorem hpp_lee_saio (c : Cfg) (f : ℝ → ℝ) (hr : Fin c.M → ℝ) (h : Radial c f hr)
    (hc : Regular c) (hd : c.defn = .leeSaioEquivalent) (i : Fin c.M) :
    hpp c hr i = -deriv (phiFn c f) (c.mu i) := by
  have key := hpp_prat_value h hc i
  have e : phiFn c f = fun x => -phiPrat c.nu c.m f x := by funext x; simp only [phiFn, hd]
  rw [e, deriv.fun_neg, key.deriv]; simp [hpp, hd, Defn.sinFactor]

/-- For the definition `townsend` the derivative array of the azimuthal function is the opposite of
the derivative, minus `2 mu hp / (1 - mu²)`. -/
theorem hpp_townsend (c : Cfg) (f : ℝ → ℝ) (hr : Fin c.M → ℝ) (h : Radial c f hr)
    (hc : Regular c) (hd : c.defn = .townsend) (i : Fin c.M) :
    hpp c hr i = -deriv (phiFn c f) (c.mu i) - 2 * c.mu i * phiFn c f (c.mu i) / (1 - c.mu i ^ 2) := by
  have key := hpp_prat_value h hc i
  have hv := (C45_profiles c f hr h i).2
  have hs := s_ne c i
  have e : phiFn c f = fun x => -(√(1 - x ^ 2) * phiPrat c.nu c.m f x) := by funext x; simp only [phiFn, hd]
  have hder := (hasDeriv_scaled _ _ _ (abs_mu i) key).deriv
  rw [show hpp c hr i = c.s i * (Cheby.apply c.M hr
    (fun i => (c.m : ℝ) * c.mu i * (1 - c.nu ^ 2 * c.mu i ^ 2 + 2 * c.nu ^ 2 - 2 * c.nu ^ 2 * c.mu i ^ 2)
      / denom c i ^ 2)
    (fun i => c.s i ^ 2 * ((c.m : ℝ) * denom c i + c.nu + c.nu ^ 3 * c.mu i ^ 2 - 2 * c.mu i ^ 2 * c.nu)
      / denom c i ^ 2)
    (some fun i => c.nu * c.mu i * c.s i ^ 4 / denom c i) c.parity c.pf i / c.s i ^ 3)
      - c.mu i * hp c hr i / c.s i ^ 2 by simp [hpp, hd, Defn.sinFactor]]
  rw [hv, s_sq']
  generalize Cheby.apply c.M hr _ _ _ c.parity c.pf i / c.s i ^ 3 = v at *
  rw [e, deriv.fun_neg, hder]
  simp only [s_eq']
  field_simp
  ring

/-- The configuration of the counterexamples: one point, no rotation, `l = m = 2`. -/
def cex (d : Defn) : Cfg := ⟨1, 0, 2, 2, d⟩

theorem cex_regular (d : Defn) : Regular (cex d) := by intro i; simp [cex]

theorem cex_radial (d : Defn) : Radial (cex d) (fun _ => 1) (fun _ => 1) := by
  refine ⟨1, ?_, ?_, ?_, rfl⟩
  · intro x; simp [cex]
  · rw [degree_one]; exact_mod_cast (by norm_num [cex] : 0 < 2 * (cex d).M)
  · funext x
    have : ¬ Odd (cex d).m := by simp [cex]
    simp [this]

theorem cex_phi (x : ℝ) : phiPrat 0 2 (fun _ => 1) x = 2 / √(1 - x ^ 2) := by
  simp [phiPrat]

/-- **C45 refuted** for the definition `lee_saio_equivalent`: the derivative array of the azimuthal
function has the sign of the opposite definition; for the constant radial function at `l = m = 2`
without rotation it is not the derivative. -/
theorem C45_azimuthal_lee_saio_wrong : ∃ (c : Cfg) (f : ℝ → ℝ) (hr : Fin c.M → ℝ) (i : Fin c.M),
    c.defn = .leeSaioEquivalent ∧ Radial c f hr ∧ Regular c ∧ hpp c hr i ≠ deriv (phiFn c f) (c.mu i) := by
  refine ⟨cex .leeSaioEquivalent, fun _ => 1, fun _ => 1, ⟨0, by simp [cex]⟩, rfl, cex_radial _, cex_regular _, ?_⟩
  rw [hpp_lee_saio _ _ _ (cex_radial _) (cex_regular _) rfl]
  intro h
  set i : Fin (cex .leeSaioEquivalent).M := ⟨0, by simp [cex]⟩
  have h0 : deriv (phiFn (cex .leeSaioEquivalent) fun _ => 1) ((cex .leeSaioEquivalent).mu i) = 0 := by linarith
  have e : phiFn (cex .leeSaioEquivalent) (fun _ => 1) = fun x => -(2 / √(1 - x ^ 2)) := by
    funext x
    rw [← cex_phi]
    rfl
  have hm : |(cex .leeSaioEquivalent).mu i| < 1 := abs_mu i
  have hmp : 0 < (cex .leeSaioEquivalent).mu i := mu_pos i
  have hsne : √(1 - (cex .leeSaioEquivalent).mu i ^ 2) ≠ 0 := s_ne (cex .leeSaioEquivalent) i
  have hd := HasDerivAt.neg (HasDerivAt.div (hasDerivAt_const ((cex .leeSaioEquivalent).mu i) (2 : ℝ))
    (hasDeriv_sqrt _ hm) hsne)
  have hd' : deriv (fun x : ℝ => -(2 / √(1 - x ^ 2))) ((cex .leeSaioEquivalent).mu i) = _ := hd.deriv
  rw [e, hd'] at h0
  field_simp at h0
  simp at h0
  exact hmp.ne' h0

/-- **C45 refuted** for the definition `townsend`. -/
theorem C45_azimuthal_townsend_wrong : ∃ (c : Cfg) (f : ℝ → ℝ) (hr : Fin c.M → ℝ) (i : Fin c.M),
    c.defn = .townsend ∧ Radial c f hr ∧ Regular c ∧ hpp c hr i ≠ deriv (phiFn c f) (c.mu i) := by
  refine ⟨cex .townsend, fun _ => 1, fun _ => 1, ⟨0, by simp [cex]⟩, rfl, cex_radial _, cex_regular _, ?_⟩
  rw [hpp_townsend _ _ _ (cex_radial _) (cex_regular _) rfl]
  set i : Fin (cex .townsend).M := ⟨0, by simp [cex]⟩
  have hm : |(cex .townsend).mu i| < 1 := abs_mu i
  have hmp : 0 < (cex .townsend).mu i := mu_pos i
  have hpos : ∀ x : ℝ, |x| < 1 → 0 < 1 - x ^ 2 := fun x hx => by rw [abs_lt] at hx; nlinarith
  have e : ∀ x : ℝ, |x| < 1 → phiFn (cex .townsend) (fun _ => 1) x = -2 := by
    intro x hx
    have hs := (sqrt_pos.2 (hpos x hx)).ne'
    have : phiFn (cex .townsend) (fun _ => 1) x = -(√(1 - x ^ 2) * (2 / √(1 - x ^ 2))) := by
      rw [← cex_phi]; rfl
    rw [this]; field_simp
  have he : phiFn (cex .townsend) (fun _ => 1) =ᶠ[nhds ((cex .townsend).mu i)] fun _ => -2 := by
    have : {y : ℝ | |y| < 1} ∈ nhds ((cex .townsend).mu i) := (isOpen_lt continuous_abs continuous_const).mem_nhds hm
    filter_upwards [this] with y hy using e y hy
  rw [he.deriv_eq, e _ hm]
  have := hpos _ hm
  simp
  exact ⟨hmp.ne', this.ne'⟩

/-- **C45 refuted** for these two definitions in every case: for `lee_saio_equivalent` both derivative arrays of the azimuthal
function are the opposites of the derivatives, and for `townsend` the opposites with a term added; they are right exactly where the
derivative is zero, respectively where `(1 - μ²) Φ' = -μ Φ`. -/
theorem C45_azimuthal_everywhere_wrong (c : Cfg) (f : ℝ → ℝ) (hr : Fin c.M → ℝ) (h : Radial c f hr) (hc : Regular c) (i : Fin c.M) :
    (c.defn = .leeSaioEquivalent → hpp c hr i = -deriv (phiFn c f) (c.mu i) ∧
      (hpp c hr i = deriv (phiFn c f) (c.mu i) ↔ deriv (phiFn c f) (c.mu i) = 0)) ∧
    (c.defn = .townsend →
      hpp c hr i = -deriv (phiFn c f) (c.mu i) - 2 * c.mu i * phiFn c f (c.mu i) / (1 - c.mu i ^ 2) ∧
      (hpp c hr i = deriv (phiFn c f) (c.mu i) ↔ (1 - c.mu i ^ 2) * deriv (phiFn c f) (c.mu i) = -(c.mu i * phiFn c f (c.mu i)))) ∧
    hppTheta c hr i = -√(1 - c.mu i ^ 2) * hpp c hr i := by
  refine ⟨fun hd => ?_, fun hd => ?_, ?_⟩
  · have e := hpp_lee_saio c f hr h hc hd i
    refine ⟨e, ?_⟩
    rw [e]
    constructor <;> intro h <;> linarith
  · have e := hpp_townsend c f hr h hc hd i
    refine ⟨e, ?_⟩
    rw [e]
    have hpos : 0 < 1 - c.mu i ^ 2 := by
      have := abs_lt.1 (abs_mu i)
      nlinarith
    generalize deriv (phiFn c f) (c.mu i) = D
    generalize phiFn c f (c.mu i) = P
    constructor
    · intro h
      have h' : 2 * c.mu i * P / (1 - c.mu i ^ 2) = -2 * D := by linarith
      rw [div_eq_iff hpos.ne'] at h'
      linarith
    · intro h
      have h' : 2 * c.mu i * P / (1 - c.mu i ^ 2) = -2 * D := by
        rw [div_eq_iff hpos.ne']
        linarith
      linarith
  · rfl

/-! ### The tidal equations -/

/-- **C62.** The matrix whose eigenpairs are computed is Laplace's tidal operator: a radial array is
an eigenvector for the eigenvalue `lam` exactly when its function satisfies, at every collocation
point, `((1-x²)/(1-nu²x²) f')' + (nu m (1+nu²x²)/(1-nu²x²)² - m²/((1-x²)(1-nu²x²))) f = lam f`. -/
theorem C62_tidal_operator (c : Cfg) (f : ℝ → ℝ) (hr : Fin c.M → ℝ) (h : Radial c f hr) (hc : Regular c) (lam : ℝ) :
    (tideMatrix c).mulVec hr = lam • hr ↔ ∀ i,
      deriv (fun x => (1 - x ^ 2) / (1 - c.nu ^ 2 * x ^ 2) * deriv f x) (c.mu i) +
        (c.nu * c.m * (1 + c.nu ^ 2 * c.mu i ^ 2) / (1 - c.nu ^ 2 * c.mu i ^ 2) ^ 2
          - (c.m : ℝ) ^ 2 / ((1 - c.mu i ^ 2) * (1 - c.nu ^ 2 * c.mu i ^ 2))) * f (c.mu i) = lam * f (c.mu i) := by
  have hsm := h.smooth
  have hd : ∀ i, deriv (fun x => (1 - x ^ 2) / (1 - c.nu ^ 2 * x ^ 2) * deriv f x) (c.mu i) =
      tide2 c i * deriv (deriv f) (c.mu i) + tide1 c i * deriv f (c.mu i) := by
    intro i
    have hN2 : HasDerivAt (fun y : ℝ => 1 - y ^ 2) (-(2 * c.mu i)) (c.mu i) :=
      HasDerivAt.congr_deriv ((hasDerivAt_const (c.mu i) (1 : ℝ)).sub (hasDerivAt_pow 2 (c.mu i))) (by norm_num)
    have hD1 : HasDerivAt (fun y : ℝ => 1 - c.nu ^ 2 * y ^ 2) (-(c.nu ^ 2 * (2 * c.mu i))) (c.mu i) :=
      HasDerivAt.congr_deriv ((hasDerivAt_const (c.mu i) (1 : ℝ)).sub
        ((hasDerivAt_pow 2 (c.mu i)).const_mul (c.nu ^ 2))) (by norm_num)
    have hq := (HasDerivAt.div hN2 hD1 (hc.denom i)).mul (hsm.d2 _ (abs_mu i))
    have hq' : deriv (fun x => (1 - x ^ 2) / (1 - c.nu ^ 2 * x ^ 2) * deriv f x) (c.mu i) = _ := hq.deriv
    rw [hq']
    have hD := hc.denom i
    simp only [tide2, tide1, denom, ← s_sq', Pi.div_apply]
    field_simp
    ring
  obtain ⟨p, hp, hdg, hf, hh⟩ := (radial_iff c f hr).1 h
  have key := C44_eigenproblem c.parity c.pf p hp hdg (tide0 c) (tide1 c) (tide2 c) lam
  rw [← hf] at key
  rw [hh, ← hf]
  refine key.trans (forall_congr' fun i => ?_)
  rw [hd i, s_sq', ← denom]
  rfl

/-- **C62.** For an eigenpair of that matrix the radial, latitudinal and azimuthal profiles of the
definition `prat` satisfy the continuity equation at every collocation point: with `x = cos(theta)`,
`d(sqrt(1-x²) Htheta)/dx + m Hphi / sqrt(1-x²) = -lam Hr`. -/
theorem C62_continuity (c : Cfg) (f : ℝ → ℝ) (hr : Fin c.M → ℝ) (h : Radial c f hr) (hc : Regular c) (lam : ℝ)
    (heig : (tideMatrix c).mulVec hr = lam • hr) (hd : c.defn = .prat) (i : Fin c.M) :
    c.s i * htp c hr i - c.mu i * ht c hr i / c.s i + c.m * hp c hr i / c.s i = -lam * hr i := by
  obtain ⟨p, hpar, hdg, hf, hh⟩ := (radial_iff c f hr).1 h
  have key := (C44_eigenproblem c.parity c.pf p hpar hdg (tide0 c) (tide1 c) (tide2 c) lam).1
    (by rw [hh] at heig; exact heig) i
  rw [← hf] at key
  have hri : hr i = f (c.mu i) := by rw [hh, hf]
  have hD := hc.denom i
  have hs := s_ne c i
  have hss := s_sq' c i
  rw [hri]
  have e0 : -lam * f (c.mu i) = -(lam * f (c.mu i)) := by ring
  rw [e0, ← key]
  simp only [htp, ht, hp, hd, Defn.sinFactor, Defn.adjustPhiSign, apply_radial h, tide0, tide1, tide2]
  have hDd : denom c i ≠ 0 := hD
  have hx2 : c.mu i ^ 2 = 1 - c.s i ^ 2 := by linarith
  have hDe : denom c i = 1 - c.nu ^ 2 * c.mu i ^ 2 := rfl
  generalize f (c.mu i) = f0 at *
  generalize deriv f (c.mu i) = f1 at *
  generalize deriv (deriv f) (c.mu i) = f2 at *
  generalize c.s i = s at *
  generalize c.mu i = x at *
  generalize denom c i = D at *
  simp
  field_simp
  have hs2 : s ^ 2 = 1 - x ^ 2 := hss.symm
  have hs4 : s ^ 4 = (1 - x ^ 2) ^ 2 := by rw [← hs2]; ring
  rw [hs4, hs2, hDe]
  ring

/-- Non-vacuity: the hypotheses of the theorems above hold together, for every definition; with one
point every array is an eigenvector. -/
example (d : Defn) : Radial (cex d) (fun _ => 1) (fun _ => 1) ∧ Regular (cex d) ∧
    ∃ lam : ℝ, (tideMatrix (cex d)).mulVec (fun _ => 1) = lam • (fun _ => (1 : ℝ)) := by
  refine ⟨cex_radial d, cex_regular d, tideMatrix (cex d) ⟨0, by simp [cex]⟩ ⟨0, by simp [cex]⟩, ?_⟩
  funext i
  have h1 : ∀ k : Fin (cex d).M, k = ⟨0, by simp [cex]⟩ := fun k => Fin.ext (by have := k.2; simp [cex] at this; omega)
  rw [h1 i]
  simp only [Matrix.mulVec, dotProduct, mul_one, Pi.smul_apply, smul_eq_mul]
  exact Fintype.sum_eq_single _ fun k hk => absurd (h1 k) hk

end
end Verif.Hough
