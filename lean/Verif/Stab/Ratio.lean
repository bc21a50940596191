import Verif.Stab.Model
import Mathlib.Topology.Algebra.Order.Field
import Mathlib.Order.Filter.AtTopBot.Basic
import Mathlib.Tactic.FieldSimp
import Mathlib.Tactic.Linarith
import Mathlib.Tactic.Positivity
import Mathlib.Tactic.NormNum
import Mathlib.Tactic.Ring
/-! # Property C170: the ratio of the coefficients of the two stability polynomials -/
namespace Verif.Stab
open Filter Topology

/-- `ratio_coefficients_q4_dziembowski`, stab_checker_quadratic_three_sum.py:178-211.  Division by zero
(first rate or original coefficient zero: infinity or NaN in numpy) is not modelled. -/
noncomputable def ratioQ4 (γ : Fin 3 → ℝ) : ℝ :=
  let rho2 := -γ 1 / γ 0
  let rho3 := -γ 2 / γ 0
  let rho23 := rho2 * rho3
  let rhos := rho2 + rho3 - 1
  let rhosCorr := -rhos
  let coeffOriginal := 3 * (-6 * rho23 + rhos * ((rho2 - rho3) ^ 2 + 2 * (rho2 + rho3) ^ 2 + 1))
  let coeffCorrected := -18 * rho23 - (3 * rhosCorr) * (rhosCorr ^ 2 + 4 * (rho2 + rho3 - rho23))
  coeffCorrected / coeffOriginal

/-- The leading coefficient of a function that grows with the fourth power. -/
def Spec.Leading (f : ℝ → ℝ) (c : ℝ) : Prop := Tendsto (fun q => f q / q ^ 4) atTop (𝓝 c)
open Spec

theorem leading_quartic (c0 c2 c4 : ℝ) : Leading (fun q => c0 + c2 * q ^ 2 + c4 * q ^ 4) c4 := by
  have h2 : Tendsto (fun q : ℝ => (q ^ 2)⁻¹) atTop (𝓝 0) :=
    tendsto_inv_atTop_zero.comp (tendsto_pow_atTop (by norm_num))
  have h4 : Tendsto (fun q : ℝ => (q ^ 4)⁻¹) atTop (𝓝 0) :=
    tendsto_inv_atTop_zero.comp (tendsto_pow_atTop (by norm_num))
  have h : Tendsto (fun q : ℝ => c0 * (q ^ 4)⁻¹ + c2 * (q ^ 2)⁻¹ + c4) atTop (𝓝 (c0 * 0 + c2 * 0 + c4)) :=
    ((h4.const_mul c0).add (h2.const_mul c2)).add tendsto_const_nhds
  simp only [mul_zero, zero_add] at h
  refine h.congr' ?_
  filter_upwards [eventually_gt_atTop 0] with q hq
  field_simp

theorem Spec.Leading.unique {f : ℝ → ℝ} {c d : ℝ} (h : Leading f c) (h' : Leading f d) : c = d := tendsto_nhds_unique h h'

theorem Spec.Leading.pos {f : ℝ → ℝ} {c : ℝ} (h : Leading f c) (hc : 0 < c) : ∃ Q, ∀ q ≥ Q, f q > 0 := by
  have := (h.eventually (lt_mem_nhds hc)).and (eventually_gt_atTop 0)
  obtain ⟨Q, hQ⟩ := eventually_atTop.1 this
  refine ⟨Q, fun q hq => ?_⟩
  obtain ⟨h1, h2⟩ := hQ q hq
  exact (div_pos_iff_of_pos_right (by positivity)).1 h1

theorem Spec.Leading.neg {f : ℝ → ℝ} {c : ℝ} (h : Leading f c) (hc : c < 0) : ∃ Q, ∀ q ≥ Q, f q < 0 := by
  have := (h.eventually (gt_mem_nhds hc)).and (eventually_gt_atTop 0)
  obtain ⟨Q, hQ⟩ := eventually_atTop.1 this
  refine ⟨Q, fun q hq => ?_⟩
  obtain ⟨h1, h2⟩ := hQ q hq
  by_contra hn
  exact absurd h1 (not_lt.2 (div_nonneg (not_lt.1 hn) (by positivity)))

/-- **C170.** The ratio is that of the leading coefficients of the two conditions: for large values of the detuning
parameter `q` the left sides of the corrected and of the original condition are in that ratio. -/
theorem C170_ratio (γ : Fin 3 → ℝ) (c : ℝ) (hc : c ≠ 0) (h : Leading (originalPoly γ) c) :
    Tendsto (fun q => correctedPoly γ q / originalPoly γ q) atTop (𝓝 (ratioQ4 γ)) ∧
    Leading (correctedPoly γ) (ratioQ4 γ * c) := by
  have ho : Leading (originalPoly γ) _ := leading_quartic _ _ _
  have hk : Leading (correctedPoly γ) _ := leading_quartic _ _ _
  have e := h.unique ho
  have hr : ratioQ4 γ = (-18 * (-γ 1 / γ 0 * (-γ 2 / γ 0)) - (3 * (1 - -γ 1 / γ 0 - -γ 2 / γ 0)) *
      ((1 - -γ 1 / γ 0 - -γ 2 / γ 0) ^ 2 + 4 * (-γ 1 / γ 0 + -γ 2 / γ 0 - -γ 1 / γ 0 * (-γ 2 / γ 0)))) / c := by
    rw [e]
    unfold ratioQ4
    dsimp only
    congr 1
    ring
  refine ⟨?_, ?_⟩
  · rw [hr]
    refine (hk.div h hc).congr' ?_
    filter_upwards [eventually_gt_atTop 0] with q hq
    simp only [Pi.div_apply]
    rw [div_div_div_cancel_right₀ (by positivity)]
  · rw [hr, div_mul_cancel₀ _ hc]
    exact hk

theorem leading_gap (γ : Fin 3 → ℝ) (hp : isParametric γ) (hS : gammaSumStability γ) {c d : ℝ}
    (h : Leading (originalPoly γ) c) (h' : Leading (correctedPoly γ) d) : d < c := by
  have e := h.unique (leading_quartic _ _ _)
  have e' := h'.unique (leading_quartic _ _ _)
  obtain ⟨h0, h1, h2⟩ := hp
  have a2 : 0 < -γ 1 / γ 0 := div_pos (by linarith) h0
  have a3 : 0 < -γ 2 / γ 0 := div_pos (by linarith) h0
  have hs : 0 < -γ 1 / γ 0 + -γ 2 / γ 0 - 1 := by
    rw [← add_div, sub_pos, lt_div_iff₀ h0]
    have : γ 0 + γ 1 + γ 2 < 0 := hS
    linarith
  rw [e, e']
  generalize -γ 1 / γ 0 = x at *
  generalize -γ 2 / γ 0 = y at *
  have : 0 < 6 * (x + y) * (x + y - 1) ^ 2 := by positivity
  nlinarith [this]

/-- **C170.** For a parametric triad with a negative sum of rates the ratio is not one.  It is negative when, for all large
detunings, the original condition holds and the corrected one fails; when it is positive the two conditions agree
for all large detunings: both hold (ratio below one) or both fail (above one). -/
theorem C170_meaning (γ : Fin 3 → ℝ) (hp : isParametric γ) (hS : gammaSumStability γ) (c : ℝ) (hc : c ≠ 0)
    (h : Leading (originalPoly γ) c) :
    ratioQ4 γ ≠ 1 ∧
    (ratioQ4 γ < 0 → ∃ Q, ∀ q ≥ Q, checkOriginal γ q ∧ ¬ checkCorrected γ q) ∧
    (0 < ratioQ4 γ → ratioQ4 γ < 1 → ∃ Q, ∀ q ≥ Q, checkOriginal γ q ∧ checkCorrected γ q) ∧
    (1 < ratioQ4 γ → ∃ Q, ∀ q ≥ Q, ¬ checkOriginal γ q ∧ ¬ checkCorrected γ q) := by
  obtain ⟨-, hk⟩ := C170_ratio γ c hc h
  have hg := leading_gap γ hp hS h hk
  have both : ∀ {P R : ℝ → Prop}, (∃ Q, ∀ q ≥ Q, P q) → (∃ Q, ∀ q ≥ Q, R q) → ∃ Q, ∀ q ≥ Q, P q ∧ R q := by
    rintro P R ⟨a, ha⟩ ⟨b, hb⟩
    exact ⟨max a b, fun q hq => ⟨ha q (le_trans (le_max_left a b) hq), hb q (le_trans (le_max_right a b) hq)⟩⟩
  have no : ∀ {f : ℝ → ℝ}, (∃ Q, ∀ q ≥ Q, f q < 0) → ∃ Q, ∀ q ≥ Q, ¬ f q > 0 := by
    rintro f ⟨a, ha⟩
    exact ⟨a, fun q hq => not_lt.2 (ha q hq).le⟩
  refine ⟨?_, fun hr => ?_, fun h0 h1 => ?_, fun h1 => ?_⟩
  · intro e; rw [e, one_mul] at hg; exact lt_irrefl _ hg
  · have : 0 < c := by
      by_contra hn
      have : 0 ≤ ratioQ4 γ * c := mul_nonneg_of_nonpos_of_nonpos hr.le (not_lt.1 hn)
      exact absurd (lt_of_le_of_lt this hg) hn
    exact both (h.pos this) (no (hk.neg (mul_neg_of_neg_of_pos hr this)))
  · have : 0 < c := by
      by_contra hn
      nlinarith [lt_of_le_of_ne (not_lt.1 hn) hc]
    exact both (h.pos this) (hk.pos (mul_pos h0 this))
  · have : c < 0 := by
      by_contra hn
      nlinarith [not_lt.1 hn]
    exact both (no (h.neg this)) (no (hk.neg (mul_neg_of_pos_of_neg (by linarith) this)))

/-- Non-vacuity: equal damping (ratio −1/3), strong damping (ratio 11/311) and weak, very unequal damping (above one). -/
example : (isParametric ![1, -1, -1] ∧ gammaSumStability ![1, -1, -1] ∧ Leading (originalPoly ![1, -1, -1]) 9 ∧
      ratioQ4 ![1, -1, -1] = -1 / 3) ∧
    (isParametric ![1, -3, -3] ∧ gammaSumStability ![1, -3, -3] ∧ Leading (originalPoly ![1, -3, -3]) 933 ∧
      ratioQ4 ![1, -3, -3] = 11 / 311) ∧
    (isParametric ![10, -6, -6] ∧ gammaSumStability ![10, -6, -6] ∧ Leading (originalPoly ![10, -6, -6]) (-519 / 125) ∧
      1 < ratioQ4 ![10, -6, -6]) := by
  have three : (∀ a b c : ℝ, ![a, b, c] 0 = a) ∧ (∀ a b c : ℝ, ![a, b, c] 1 = b) ∧ (∀ a b c : ℝ, ![a, b, c] 2 = c) :=
    ⟨fun _ _ _ => rfl, fun _ _ _ => rfl, fun _ _ _ => rfl⟩
  have lead : ∀ (γ : Fin 3 → ℝ) (c : ℝ), 3 * (-6 * (-γ 1 / γ 0 * (-γ 2 / γ 0)) + (-γ 1 / γ 0 + -γ 2 / γ 0 - 1) *
      ((-γ 1 / γ 0 - -γ 2 / γ 0) ^ 2 + 2 * (-γ 1 / γ 0 + -γ 2 / γ 0) ^ 2 + 1)) = c → Leading (originalPoly γ) c := by
    rintro γ c rfl
    exact leading_quartic _ _ _
  refine ⟨⟨?_, ?_, lead _ _ ?_, ?_⟩, ⟨?_, ?_, lead _ _ ?_, ?_⟩, ⟨?_, ?_, lead _ _ ?_, ?_⟩⟩ <;>
    simp only [isParametric, gammaSumStability, ratioQ4, three] <;> norm_num

end Verif.Stab
