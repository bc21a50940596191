import Verif.Hough.Range
import Mathlib.Analysis.SpecialFunctions.ExpDeriv
/-!
# C85: the arrays handed to the coupling coefficients belong to one azimuthal convention

The coupling computation reads, for every mode, the profiles and the three combinations with the azimuthal
order (hough_function_handler.py 35-100: `mhr`, `theta_phi`, `phi_phi`).
-/
namespace Verif.Hough
noncomputable section
open Real Polynomial Verif.Cheby

/-- Specification.  The displacement on a sphere at the colatitude `arccos x`,
`ξ_r = Hr e^{ikφ}`, `ξ_θ = Ht e^{ikφ}`, `ξ_φ = i Hp e^{ikφ}`, has the azimuthal derivatives
`∂_φ ξ_r = i mhr`, `∂_φ ξ_θ - cos θ ξ_φ = i tp` and `(∂_φ ξ_φ + cos θ ξ_θ)/sin θ = pp` at `φ = 0`. -/
def Consistent (k : ℤ) (x Hr Ht Hp mhr tp pp : ℝ) : Prop :=
  deriv (fun φ : ℝ => (Hr : ℂ) * Complex.exp (Complex.I * k * φ)) 0 = Complex.I * mhr ∧
  deriv (fun φ : ℝ => (Ht : ℂ) * Complex.exp (Complex.I * k * φ)) 0 - x * (Complex.I * Hp) = Complex.I * tp ∧
  (deriv (fun φ : ℝ => Complex.I * Hp * Complex.exp (Complex.I * k * φ)) 0 + x * Ht) / (√(1 - x ^ 2) : ℝ) = pp

theorem deriv_wave (a : ℂ) (k : ℤ) :
    deriv (fun φ : ℝ => a * Complex.exp (Complex.I * k * φ)) 0 = a * (Complex.I * k) := by
  have h1 : HasDerivAt (fun φ : ℝ => Complex.I * k * (φ : ℂ)) (Complex.I * k * 1) (0 : ℝ) :=
    (Complex.ofRealCLM.hasDerivAt (x := (0 : ℝ))).const_mul (Complex.I * k)
  have h2 := (h1.cexp).const_mul a
  have h3 := h2.deriv
  simpa using h3

theorem consistent_iff (k : ℤ) (x Hr Ht Hp mhr tp pp : ℝ) : Consistent k x Hr Ht Hp mhr tp pp ↔
    mhr = k * Hr ∧ tp = k * Ht - x * Hp ∧ pp = (x * Ht - k * Hp) / √(1 - x ^ 2) := by
  unfold Consistent
  simp only [deriv_wave]
  have hI := Complex.I_ne_zero
  refine and_congr ?_ (and_congr ?_ ?_)
  · rw [show (Hr : ℂ) * (Complex.I * k) = Complex.I * ((k * Hr : ℝ) : ℂ) by push_cast; ring, mul_right_inj' hI,
      Complex.ofReal_inj, eq_comm]
  · rw [show (Ht : ℂ) * (Complex.I * k) - x * (Complex.I * Hp) = Complex.I * ((k * Ht - x * Hp : ℝ) : ℂ) by
      push_cast; ring, mul_right_inj' hI, Complex.ofReal_inj, eq_comm]
  · rw [show (Complex.I * Hp * (Complex.I * k) + x * Ht : ℂ) / (√(1 - x ^ 2) : ℝ) =
      (((x * Ht - k * Hp) / √(1 - x ^ 2) : ℝ) : ℂ) by
        have := Complex.I_mul_I
        push_cast
        congr 1
        linear_combination (Hp * k : ℂ) * this, Complex.ofReal_inj, eq_comm]

/-- The arrays of the mode at the `j`-th latitude are consistent for the azimuthal order `k`. -/
def ConsistentAt (c : Cfg) (hr : Fin c.M → ℝ) (k : ℤ) (j : Fin (c.M + c.M)) : Prop :=
  Consistent k (muRange c j) (hrRange c hr j) (htRange c hr j) (hpRange c hr j) (hrRangeM c hr j)
    (thetaPhiTilde c hr j) (phiPhiTilde c hr j)

/-- The combinations are formed with the azimuthal order `m`, the product with the order `-m`. -/
theorem combos (c : Cfg) (hr : Fin c.M → ℝ) (j : Fin (c.M + c.M)) :
    hrRangeM c hr j = -c.m * hrRange c hr j ∧
    thetaPhiTilde c hr j = c.m * htRange c hr j - muRange c j * hpRange c hr j ∧
    phiPhiTilde c hr j = (muRange c j * htRange c hr j - c.m * hpRange c hr j) / √(1 - muRange c j ^ 2) := by
  obtain ⟨f, h, -⟩ := C45_radial_function c hr
  have h1 := C46_profiles c f hr h j
  have h2 := C46_combinations c f hr h j
  refine ⟨by rw [hrRangeM]; ring, ?_, ?_⟩
  · rw [h1.2.2.1, h1.2.2.2]; exact h2.1
  · rw [h1.2.2.1, h1.2.2.2]; exact h2.2

theorem s_range_ne (c : Cfg) (j : Fin (c.M + c.M)) : √(1 - muRange c j ^ 2) ≠ 0 := by
  have h := abs_lt.1 (abs_muRange c j)
  exact (sqrt_pos.2 (by nlinarith)).ne'

/-- **C85, refuted in general.**  Where the radial profile does not vanish, the arrays belong to a displacement
with some azimuthal order exactly when `m = 0` or the horizontal profiles vanish.  This holds for every
definition of the Hough functions: the product `mhr` is formed with the order `-m`, the combinations
`theta_phi` and `phi_phi` with the order `m`. -/
theorem C85_consistent_iff (c : Cfg) (hr : Fin c.M → ℝ) (j : Fin (c.M + c.M)) (h0 : hrRange c hr j ≠ 0) :
    (∃ k : ℤ, ConsistentAt c hr k j) ↔ c.m = 0 ∨ (htRange c hr j = 0 ∧ hpRange c hr j = 0) := by
  obtain ⟨e1, e2, e3⟩ := combos c hr j
  have hs := s_range_ne c j
  simp only [ConsistentAt, consistent_iff]
  constructor
  · rintro ⟨k, h1, h2, h3⟩
    rw [e1] at h1
    rw [e2] at h2
    rw [e3, div_left_inj' hs] at h3
    have hk : -(c.m : ℝ) = k := mul_right_cancel₀ h0 h1
    by_cases hm : c.m = 0
    · exact Or.inl hm
    · right
      have hm' : (c.m : ℝ) ≠ 0 := Int.cast_ne_zero.2 hm
      rw [← hk] at h2 h3
      constructor
      · have : (c.m : ℝ) * htRange c hr j = 0 := by linarith
        exact (mul_eq_zero.1 this).resolve_left hm'
      · have : (c.m : ℝ) * hpRange c hr j = 0 := by linarith
        exact (mul_eq_zero.1 this).resolve_left hm'
  · rintro (hm | ⟨ht, hp⟩)
    · refine ⟨0, ?_, ?_, ?_⟩
      · rw [e1, hm]; simp
      · rw [e2, hm]
      · rw [e3, hm]
    · refine ⟨-c.m, ?_, ?_, ?_⟩
      · rw [e1]; push_cast; ring
      · rw [e2, ht, hp]; ring
      · rw [e3, ht, hp]; ring_nf

/-- **C85 (proved part).**  The arrays of axisymmetric modes are consistent at every latitude, for every
definition. -/
theorem C85_axisymmetric_partial (c : Cfg) (hr : Fin c.M → ℝ) (hm : c.m = 0) (j : Fin (c.M + c.M)) :
    ConsistentAt c hr 0 j := by
  obtain ⟨e1, e2, e3⟩ := combos c hr j
  simp only [ConsistentAt, consistent_iff]
  refine ⟨?_, ?_, ?_⟩
  · rw [e1, hm]; simp
  · rw [e2, hm]
  · rw [e3, hm]

/-- **C85 refuted**: for `l = m = 2` without rotation, the definition used by the coupling coefficients, no
azimuthal order fits the arrays. -/
theorem C85_sectoral_wrong : ∃ (c : Cfg) (f : ℝ → ℝ) (hr : Fin c.M → ℝ), c.defn = .leeSaioEquivalent ∧
    Radial c f hr ∧ Regular c ∧ ∀ j k, ¬ ConsistentAt c hr k j := by
  refine ⟨cex .leeSaioEquivalent, fun _ => 1, fun _ => 1, rfl, cex_radial _, cex_regular _, fun j k hk => ?_⟩
  have h1 := C46_profiles _ _ _ (cex_radial .leeSaioEquivalent) j
  have := (C85_consistent_iff _ _ j (by rw [h1.1]; norm_num)).1 ⟨k, hk⟩
  rcases this with h | ⟨-, h⟩
  · exact absurd h (by simp [cex])
  · rw [h1.2.2.2] at h
    have hs := s_range_ne (cex .leeSaioEquivalent) j
    have : phiFn (cex .leeSaioEquivalent) (fun _ => 1) (muRange (cex .leeSaioEquivalent) j) =
        -(2 / √(1 - muRange (cex .leeSaioEquivalent) j ^ 2)) := by
      rw [← cex_phi]; rfl
    rw [this] at h
    simp at h
    exact hs h

/-- A pointwise identity between full-range arrays follows from the one between half-range arrays. -/
theorem prat_divergence_half (c : Cfg) (f : ℝ → ℝ) (hr : Fin c.M → ℝ) (h : Radial c f hr) (hc : Regular c) (lam : ℝ)
    (heig : (tideMatrix c).mulVec hr = lam • hr) (hd : c.defn ≠ .townsend) (i : Fin c.M) :
    htpTheta c hr i + (c.mu i * ht c hr i - c.m * hp c hr i) / c.s i =
      lam * hr i - (if c.defn = .leeSaioEquivalent then 2 * c.m * hp c hr i / c.s i else 0) := by
  obtain ⟨M, nu, l, m, d⟩ := c
  cases d
  · have key := C62_continuity ⟨M, nu, l, m, .prat⟩ f hr h hc lam heig rfl i
    simp only [htpTheta, reduceCtorEq, if_false]
    linear_combination (-1) * key
  · have key := C62_continuity ⟨M, nu, l, m, .prat⟩ f hr h hc lam heig rfl i
    have e1 : htp ⟨M, nu, l, m, .prat⟩ hr i = htp ⟨M, nu, l, m, .leeSaioEquivalent⟩ hr i := rfl
    have e2 : ht ⟨M, nu, l, m, .prat⟩ hr i = ht ⟨M, nu, l, m, .leeSaioEquivalent⟩ hr i := rfl
    have e3 : hp ⟨M, nu, l, m, .prat⟩ hr i = -hp ⟨M, nu, l, m, .leeSaioEquivalent⟩ hr i := by
      have : hp ⟨M, nu, l, m, .leeSaioEquivalent⟩ hr i = hp ⟨M, nu, l, m, .prat⟩ hr i * (-1) := rfl
      rw [this]; ring
    rw [e1, e2, e3] at key
    simp only [htpTheta, if_true]
    linear_combination (-1) * key
  · exact absurd rfl hd

/-- **C85 (consequence for the divergence).**  The horizontal divergence formed from the arrays,
`dHθ/dθ + phi_phi`, is `lam Hr` (the tidal equation) for the definition `prat`; for `lee_saio_equivalent`, the
one used by the coupling coefficients, it is off by `2 m Hφ / sin θ`. -/
theorem C85_divergence (c : Cfg) (f : ℝ → ℝ) (hr : Fin c.M → ℝ) (h : Radial c f hr) (hc : Regular c) (lam : ℝ)
    (heig : (tideMatrix c).mulVec hr = lam • hr) (hd : c.defn ≠ .townsend) (j : Fin (c.M + c.M)) :
    htpRangeTheta c hr j + phiPhiTilde c hr j = lam * hrRange c hr j -
      (if c.defn = .leeSaioEquivalent then 2 * c.m * hpRange c hr j / √(1 - muRange c j ^ 2) else 0) := by
  have key := prat_divergence_half c f hr h hc lam heig hd
  unfold htpRangeTheta phiPhiTilde hrRange hpRange muRange catRev
  refine Fin.addCases (fun i => ?_) (fun i => ?_) j
  · simp only [Fin.append_left]
    have k := key i
    have e : √(1 - (-1 * c.mu i) ^ 2) = c.s i := by rw [← s_eq']; congr 2; ring
    rw [e, mulK1_eq]
    split_ifs at k ⊢
    · linear_combination mulK c * k
    · linear_combination mulK c * k
  · simp only [Fin.append_right, Function.comp]
    have k := key i.rev
    rw [s_eq']
    split_ifs at k ⊢
    · linear_combination k
    · linear_combination k

/-- Non-vacuity of `C85_consistent_iff` and `C85_divergence`: the sectoral configuration has a non-vanishing
radial profile, and its single-point array is an eigenvector. -/
example (d : Defn) (j : Fin ((cex d).M + (cex d).M)) : hrRange (cex d) (fun _ => 1) j ≠ 0 ∧ Regular (cex d) := by
  refine ⟨?_, cex_regular d⟩
  rw [(C46_profiles _ _ _ (cex_radial d) j).1]; norm_num

end
end Verif.Hough
