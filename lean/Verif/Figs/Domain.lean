import Verif.Figs.Model
import Verif.Stab.Props
/-!
# C133, C134: stability domains
-/
namespace Verif.Figs
open Verif.Stab

/-- The corrected condition of the figure is that of the solver. -/
theorem corrected_iff (γ : Fin 3 → ℝ) (δ : ℝ) (h0 : 0 < γ 0) :
    corrected (-γ 1 / γ 0) (-γ 2 / γ 0) (δ / γ 0) ↔ gammaSumStability γ ∧ checkCorrected γ (δ / (γ 0 + γ 1 + γ 2)) := by
  have hs : -(-γ 1 / γ 0) - -γ 2 / γ 0 + 1 = (γ 0 + γ 1 + γ 2) / γ 0 := by
    field_simp
    ring
  have hq : δ / γ 0 / ((γ 0 + γ 1 + γ 2) / γ 0) = δ / (γ 0 + γ 1 + γ 2) := by
    by_cases hz : γ 0 + γ 1 + γ 2 = 0
    · rw [hz]; simp
    · field_simp
  have hr : 1 - -γ 1 / γ 0 - -γ 2 / γ 0 = (γ 0 + γ 1 + γ 2) / γ 0 := by
    field_simp
    ring
  unfold corrected gammaSumStability checkCorrected correctedPoly
  dsimp only
  rw [hs, hq, hr, div_lt_iff₀ h0, zero_mul]
  exact And.comm

/-- C133: a point of the corrected domain is black exactly if the amplitude equations of every triad with these ratios, with a driven
parent and damped daughters, have a linearly stable fixed point with all modes excited. -/
theorem C133_domain (γ ω : Fin 3 → ℝ) (δ η : ℝ) (hω : ∀ i, 0 < ω i) (hη : η ≠ 0) (h0 : 0 < γ 0) (h1 : γ 1 < 0) (h2 : γ 2 < 0) :
    corrected (-γ 1 / γ 0) (-γ 2 / γ 0) (δ / γ 0) ↔ ∃ x, IsFP γ ω δ η x ∧ LinStable (aeField γ ω δ η) x := by
  rw [corrected_iff γ δ h0, ← C24_check_iff_stable_fixed_point γ ω δ η hω hη]
  have hp : isParametric γ := ⟨h0, h1, h2⟩
  unfold checkLinearlyStableFp
  simp [hp]

/-- C133: every point of the quadrant is a triad, so the domain says nothing that depends on more than the three numbers. -/
theorem C133_every_point (t2 t3 d : ℝ) (h2 : 0 < t2) (h3 : 0 < t3) (ω : Fin 3 → ℝ) (η : ℝ) (hω : ∀ i, 0 < ω i) (hη : η ≠ 0) (g : ℝ) (hg : 0 < g) :
    corrected t2 t3 d ↔ ∃ x, IsFP ![g, -(t2 * g), -(t3 * g)] ω (d * g) η x ∧
      LinStable (aeField ![g, -(t2 * g), -(t3 * g)] ω (d * g) η) x := by
  have := C133_domain ![g, -(t2 * g), -(t3 * g)] ω (d * g) η hω hη hg (by simpa using mul_pos h2 hg) (by simpa using mul_pos h3 hg)
  rw [← this]
  have e1 : -(![g, -(t2 * g), -(t3 * g)] 1) / ![g, -(t2 * g), -(t3 * g)] 0 = t2 := by
    show - -(t2 * g) / g = t2
    rw [neg_neg, mul_div_assoc, div_self hg.ne', mul_one]
  have e2 : -(![g, -(t2 * g), -(t3 * g)] 2) / ![g, -(t2 * g), -(t3 * g)] 0 = t3 := by
    show - -(t3 * g) / g = t3
    rw [neg_neg, mul_div_assoc, div_self hg.ne', mul_one]
  have e3 : d * g / ![g, -(t2 * g), -(t3 * g)] 0 = d := by
    show d * g / g = d
    rw [mul_div_assoc, div_self hg.ne', mul_one]
  rw [e1, e2, e3]

/-- C133: the domain does not depend on the order of the daughters nor on the sign of the detuning. -/
theorem C133_symmetric (t2 t3 d : ℝ) : (corrected t2 t3 d ↔ corrected t3 t2 d) ∧ (corrected t2 t3 d ↔ corrected t2 t3 (-d)) := by
  constructor
  · unfold corrected
    dsimp only
    rw [show -t3 - t2 + 1 = -t2 - t3 + 1 by ring, show t3 * t2 = t2 * t3 by ring, show t3 - t2 = -(t2 - t3) by ring,
      show t3 + t2 = t2 + t3 by ring, neg_sq]
  · unfold corrected
    dsimp only
    rw [neg_div, neg_sq, Even.neg_pow (by decide)]

/-- Without detuning no point is black. -/
theorem C133_no_resonance (t2 t3 : ℝ) (h2 : 0 < t2) (h3 : 0 < t3) : ¬ corrected t2 t3 0 := by
  rintro ⟨h, hs⟩
  simp only [zero_div] at h hs
  have h23 : 0 < t2 * t3 := mul_pos h2 h3
  have : (-t2 - t3 + 1) ^ 3 < 0 := by
    have := hs
    exact Odd.pow_neg (by decide) hs
  norm_num at h
  linarith

example : corrected 2 2 100 ∧ ¬ corrected 2 2 0 ∧ ¬ corrected (1 / 4) (1 / 4) 100 := by
  refine ⟨?_, C133_no_resonance 2 2 (by norm_num) (by norm_num), ?_⟩
  · unfold corrected; norm_num
  · unfold corrected; norm_num

/-- C134, partial: the domain of the original condition contains that of the corrected one. -/
theorem C134_original_contains_partial (t2 t3 d : ℝ) (h : corrected t2 t3 d) : original t2 t3 d := by
  obtain ⟨hc, hs⟩ := h
  have hq : d / (-(t2 + t3 - 1)) = d / (-t2 - t3 + 1) := by
    congr 1
    ring
  refine ⟨?_, by linarith⟩
  rw [hq]
  set q := d / (-t2 - t3 + 1)
  have h1 : 0 < t2 + t3 - 1 := by linarith
  have : 0 ≤ 6 * (t2 + t3 - 1) * ((t2 + t3) ^ 2 - (t2 + t3)) * q ^ 4 := by
    have h2 : 0 ≤ (t2 + t3) ^ 2 - (t2 + t3) := by nlinarith
    have h3 : 0 ≤ q ^ 4 := by positivity
    exact mul_nonneg (mul_nonneg (by linarith) h2) h3
  nlinarith [this]

/-- C134 is refuted: the hatched domain is not a stability domain. At `θ₂ = θ₃ = 1` and detuning `2 γ₁` the original condition is true
and no triad with these ratios has a stable fixed point. -/
theorem C134_original_wrong : original 1 1 2 ∧ ∀ (γ ω : Fin 3 → ℝ) (δ η : ℝ), (∀ i, 0 < ω i) → η ≠ 0 → 0 < γ 0 → -γ 1 / γ 0 = 1 → -γ 2 / γ 0 = 1 →
    δ / γ 0 = 2 → ¬ ∃ x, IsFP γ ω δ η x ∧ LinStable (aeField γ ω δ η) x := by
  constructor
  · unfold original; norm_num
  · intro γ ω δ η hω hη h0 h1 h2 hd hx
    have g1 : γ 1 < 0 := by rw [div_eq_one_iff_eq h0.ne'] at h1; linarith
    have g2 : γ 2 < 0 := by rw [div_eq_one_iff_eq h0.ne'] at h2; linarith
    have := (C133_domain γ ω δ η hω hη h0 g1 g2).2 hx
    rw [h1, h2, hd] at this
    unfold corrected at this
    norm_num at this

/-- The part of the corrected condition that depends on the detuning, as a polynomial in `q²` (independent of `original`). -/
def Spec.quartic (t2 t3 x : ℝ) : ℝ :=
  -((t2 + t3 - 1) ^ 3) - 2 * t2 * t3 + (2 * (t2 + t3 - 1) * (t2 ^ 2 + t3 ^ 2 + 1) - 12 * t2 * t3) * x
    + (3 * (t2 + t3 - 1) * ((t2 - t3) ^ 2 + 2 * (t2 + t3) + 1) - 18 * t2 * t3) * x ^ 2

theorem corrected_quartic (t2 t3 d : ℝ) :
    corrected t2 t3 d ↔ 1 < t2 + t3 ∧ 0 < Spec.quartic t2 t3 ((d / (t2 + t3 - 1)) ^ 2) := by
  have hq : d / (-t2 - t3 + 1) = -(d / (t2 + t3 - 1)) := by
    rw [show -t2 - t3 + 1 = -(t2 + t3 - 1) by ring, div_neg]
  unfold corrected Spec.quartic
  dsimp only
  rw [hq]
  set q := d / (t2 + t3 - 1)
  constructor
  · rintro ⟨h, hs⟩
    exact ⟨by linarith, by nlinarith [h]⟩
  · rintro ⟨hs, h⟩
    exact ⟨by nlinarith [h], by linarith⟩

/-- C134, partial: what the original condition says. It is the corrected one with the sum of the ratios replaced by its square in
one term, which makes the left side greater by `6 (θ₂ + θ₃) (θ₂ + θ₃ - 1)² q⁴`. -/
theorem C134_original_exact_partial (t2 t3 d : ℝ) :
    original t2 t3 d ↔ 1 < t2 + t3 ∧ -(6 * (t2 + t3) * (t2 + t3 - 1) ^ 2 * (d / (t2 + t3 - 1)) ^ 4)
      < Spec.quartic t2 t3 ((d / (t2 + t3 - 1)) ^ 2) := by
  have hq : d / (-(t2 + t3 - 1)) = -(d / (t2 + t3 - 1)) := by rw [div_neg]
  unfold original Spec.quartic
  dsimp only
  rw [hq]
  set q := d / (t2 + t3 - 1)
  constructor
  · rintro ⟨h, hs⟩
    exact ⟨by linarith, by nlinarith [h]⟩
  · rintro ⟨hs, h⟩
    exact ⟨by nlinarith [h], by linarith⟩

/-- C134 is refuted at every pair of ratios: wherever the original condition is true for some detuning, there is a detuning for which
it is true and no triad with these ratios has a stable fixed point. -/
theorem C134_original_everywhere_wrong (t2 t3 : ℝ) (h2 : 0 < t2) (h3 : 0 < t3) (h : ∃ d, original t2 t3 d) :
    ∃ d, original t2 t3 d ∧ ∀ (γ ω : Fin 3 → ℝ) (δ η : ℝ), (∀ i, 0 < ω i) → η ≠ 0 → 0 < γ 0 → -γ 1 / γ 0 = t2 → -γ 2 / γ 0 = t3 →
      δ / γ 0 = d → ¬ ∃ x, IsFP γ ω δ η x ∧ LinStable (aeField γ ω δ η) x := by
  suffices hh : ∃ d, original t2 t3 d ∧ ¬ corrected t2 t3 d by
    obtain ⟨d, ho, hc⟩ := hh
    refine ⟨d, ho, ?_⟩
    intro γ ω δ η hω hη h0 h1 h2' hd hx
    have g1 : γ 1 < 0 := by
      rw [div_eq_iff h0.ne'] at h1
      nlinarith [mul_pos h2 h0]
    have g2 : γ 2 < 0 := by
      rw [div_eq_iff h0.ne'] at h2'
      nlinarith [mul_pos h3 h0]
    have := (C133_domain γ ω δ η hω hη h0 g1 g2).2 hx
    rw [h1, h2', hd] at this
    exact hc this
  obtain ⟨d, ho⟩ := h
  by_cases hc : corrected t2 t3 d
  swap
  · exact ⟨d, ho, hc⟩
  obtain ⟨hs, hp⟩ := (corrected_quartic t2 t3 d).1 hc
  have hs1 : 0 < t2 + t3 - 1 := by linarith
  set x := (d / (t2 + t3 - 1)) ^ 2
  have hx : 0 ≤ x := sq_nonneg _
  have h0 : Spec.quartic t2 t3 0 < 0 := by
    unfold Spec.quartic
    have := pow_pos hs1 3
    nlinarith [mul_pos h2 h3]
  have hcont : Continuous (Spec.quartic t2 t3) := by unfold Spec.quartic; fun_prop
  obtain ⟨y, ⟨hy0, -⟩, hy⟩ := intermediate_value_Icc hx hcont.continuousOn ⟨h0.le, hp.le⟩
  have hyne : y ≠ 0 := by rintro rfl; linarith
  have hypos : 0 < y := lt_of_le_of_ne hy0 (Ne.symm hyne)
  have hd : (Real.sqrt y * (t2 + t3 - 1)) / (t2 + t3 - 1) = Real.sqrt y := mul_div_cancel_right₀ _ hs1.ne'
  refine ⟨Real.sqrt y * (t2 + t3 - 1), (C134_original_exact_partial _ _ _).2 ⟨hs, ?_⟩, fun hh => ?_⟩
  · rw [hd, Real.sq_sqrt hy0, hy, neg_lt_zero]
    have : 0 < Real.sqrt y := Real.sqrt_pos.2 hypos
    have : 0 < t2 + t3 := by linarith
    positivity
  · have := ((corrected_quartic _ _ _).1 hh).2
    rw [hd, Real.sq_sqrt hy0, hy] at this
    exact lt_irrefl _ this

example : ∃ d, original 2 2 d := ⟨100, by unfold original; norm_num⟩

/-- C134, partial: the cell of the image for a grid point is drawn within one step of the point. -/
theorem C134_position_partial (lo hi step : ℝ) (hs : 0 < step) (h : lo < hi) (i : ℕ) (hi' : i < arangeLen lo hi step) :
    |cellCentre lo hi (arangeLen lo hi step) i - arangeAt lo step i| < step := by
  set n := arangeLen lo hi step with hn
  have hn0 : 0 < n := by omega
  have hnR : (0 : ℝ) < n := by exact_mod_cast hn0
  have h1 : (hi - lo) / step ≤ n := Nat.le_ceil _
  have h2 : (n : ℝ) < (hi - lo) / step + 1 := Nat.ceil_lt_add_one (div_nonneg (by linarith) hs.le)
  rw [div_le_iff₀ hs] at h1
  have h2' : (n : ℝ) * step < hi - lo + step := by
    have := mul_lt_mul_of_pos_right h2 hs
    rwa [add_mul, one_mul, div_mul_cancel₀ _ hs.ne'] at this
  have hw : (hi - lo) / n ≤ step := by
    rw [div_le_iff₀ hnR]
    linarith
  have hw0 : 0 < (hi - lo) / n := div_pos (by linarith) hnR
  have hwn : (hi - lo) / n * n = hi - lo := div_mul_cancel₀ _ hnR.ne'
  set w := (hi - lo) / n
  have hiR : (i : ℝ) + 1 ≤ n := by exact_mod_cast hi'
  have hi0 : (0 : ℝ) ≤ i := Nat.cast_nonneg i
  have key : (i : ℝ) * (step - w) < step := by
    have a : (i : ℝ) * (step - w) ≤ n * (step - w) := mul_le_mul_of_nonneg_right (by linarith) (by linarith)
    have b : (n : ℝ) * (step - w) < step := by nlinarith
    linarith
  have key0 : 0 ≤ (i : ℝ) * (step - w) := mul_nonneg hi0 (by linarith)
  unfold cellCentre arangeAt
  rw [abs_lt]
  constructor
  · have : lo + ((i : ℝ) + 1 / 2) * w - (lo + i * step) = w / 2 - i * (step - w) := by ring
    rw [this]
    linarith
  · have : lo + ((i : ℝ) + 1 / 2) * w - (lo + i * step) = w / 2 - i * (step - w) := by ring
    rw [this]
    linarith

/-- C134 is refuted: the image is not drawn where the values were computed: if the step divides the range, every cell is drawn half a
step to the right of its point (and above it), while the lines of the original domain are drawn at the points. -/
theorem C134_position_wrong (lo step : ℝ) (hs : 0 < step) (n : ℕ) (hn : 0 < n) (i : ℕ) :
    arangeLen lo (lo + n * step) step = n ∧ cellCentre lo (lo + n * step) n i = arangeAt lo step i + step / 2 := by
  have hnR : (n : ℝ) ≠ 0 := by exact_mod_cast hn.ne'
  constructor
  · unfold arangeLen
    rw [add_sub_cancel_left, mul_div_assoc, div_self hs.ne', mul_one, Nat.ceil_natCast]
  · unfold cellCentre arangeAt
    field_simp
    ring

end Verif.Figs
