import Verif.Tar.Model
import Verif.Stab.Stat
/-!
# C102: amplitudes and fluxes printed for the adjusted coupling coefficient

Model of `profile_print_functions/coupling_coefficient_print_functions.py` (PP) applied to the result of
`stationary_solving/three_mode/three_mode_stationary.py` (TM).
-/
namespace Verif.Tar
open Verif.Stab Real

/-- The entries of the dictionary returned by `ThreeModeStationary.__call__`, TM:156-172, that PP reads. -/
structure StatSol where
  amps : Fin 3 → ℝ
  flux : Fin 3 → ℝ
  acrit : ℝ

/-- TM:138-172 with `_compute_luminosity_fluctuations` (233-242): `disc` holds `|_disc_multi_factors|` and `hough`
the factors `_houghs_observer` (1 when no inclination is given). -/
noncomputable def statSol (s : StatIn) (disc hough : Fin 3 → ℝ) : Option StatSol :=
  s.amps.map fun a =>
    let amps : Fin 3 → ℝ := ![a.a1, a.a2, a.a3]
    { amps := amps, flux := fun k => amps k * |disc k| * hough k, acrit := a.acrit }

/-- The numbers printed by PP:36-44 and PP:55-66, in parts per million. -/
structure Printed where
  amps : Fin 3 → ℝ
  ampsAdj : Fin 3 → ℝ
  thr : ℝ
  thrAdj : ℝ
  flux : Fin 3 → ℝ
  fluxAdj : Fin 3 → ℝ
  thrFlux : ℝ
  thrFluxAdj : ℝ

/-- `print_theoretical_amplitudes` and `print_surface_luminosities`, PP:30-66. -/
noncomputable def printed (s : StatSol) (ratio : ℝ) : Printed :=
  let statAmps := fun k => s.amps k * 1.0e6
  let thr := s.acrit * 1.0e6
  let fluxes := fun k => s.flux k * 1.0e6
  let ampToFlux := fun k => fluxes k / statAmps k
  let thrFlux := s.acrit * ampToFlux 0 * 1.0e6
  { amps := statAmps, ampsAdj := fun k => statAmps k / ratio
    thr := thr, thrAdj := thr / ratio
    flux := fluxes, fluxAdj := fun k => fluxes k / ratio
    thrFlux := thrFlux, thrFluxAdj := thrFlux / ratio }

/-- `eta_lee_coupling_coefficient`, quadratic_coupling_coefficient_rotating.py:524-537: twice the normed
coefficient. -/
def withCC (s : StatIn) (cc : ℝ) : StatIn := { s with η := some (2 * cc) }

/-- The amplitudes scale as one over the absolute value of the coupling coefficient. -/
theorem amps_scale (s : StatIn) (cc adj : ℝ) (hc : cc ≠ 0) (ha : adj ≠ 0) :
    ∃ a b, (withCC s cc).amps = some a ∧ (withCC s adj).amps = some b ∧
      a.a1 = b.a1 * |adj / cc| ∧ a.a2 = b.a2 * |adj / cc| ∧ a.a3 = b.a3 * |adj / cc| ∧
      a.acrit = b.acrit * |adj / cc| := by
  refine ⟨_, _, rfl, rfl, ?_⟩
  have key : ∀ (t Q : ℝ), √(t * (1 / (|2 * cc| ^ 2 * Q))) = √(t * (1 / (|2 * adj| ^ 2 * Q))) * |adj / cc| := by
    intro t Q
    rw [← Real.sqrt_sq_eq_abs (adj / cc), ← Real.sqrt_mul' _ (sq_nonneg _)]
    congr 1
    rw [sq_abs, sq_abs]
    by_cases hQ : Q = 0
    · subst hQ; simp
    · field_simp
  have key' : ∀ (t Q : ℝ), √(-(t * (1 / (|2 * cc| ^ 2 * Q)))) = √(-(t * (1 / (|2 * adj| ^ 2 * Q)))) * |adj / cc| := by
    intro t Q
    have := key (-t) Q
    rwa [neg_mul, neg_mul] at this
  refine ⟨?_, ?_, ?_, ?_⟩
  · show √(_ * _) / 2 = √(_ * _) / 2 * _
    rw [key]; simp only [withCC, StatIn.q, StatIn.qfProducts]; ring
  · show √(-(_ * _)) / 2 = √(-(_ * _)) / 2 * _
    rw [key']; simp only [withCC, StatIn.q, StatIn.qfProducts]; ring
  · show √(-(_ * _)) / 2 = √(-(_ * _)) / 2 * _
    rw [key']; simp only [withCC, StatIn.q, StatIn.qfProducts]; ring
  · show √(_ * _) / 2 = √(_ * _) / 2 * _
    rw [key]; simp only [withCC, StatIn.qCrit, StatIn.qfProducts]; ring

/-- The printed adjusted numbers in terms of the solution for the adjusted coefficient. -/
theorem printed_scale (s : StatIn) (disc hough : Fin 3 → ℝ) (cc adj : ℝ) (hc : cc ≠ 0) (ha : adj ≠ 0) :
    ∃ o n, statSol (withCC s cc) disc hough = some o ∧ statSol (withCC s adj) disc hough = some n ∧
      (∀ k, (printed o (adjustRatio cc adj)).ampsAdj k = SignType.sign (adj / cc) * (n.amps k * 1000000)) ∧
      (∀ k, (printed o (adjustRatio cc adj)).fluxAdj k = SignType.sign (adj / cc) * (n.flux k * 1000000)) ∧
      (printed o (adjustRatio cc adj)).thrAdj = SignType.sign (adj / cc) * (n.acrit * 1000000) ∧
      (n.amps 0 ≠ 0 → (printed o (adjustRatio cc adj)).thrFluxAdj
        = SignType.sign (adj / cc) * (n.acrit * |disc 0| * hough 0 * 1000000)) := by
  obtain ⟨a, b, h1, h2, e1, e2, e3, e4⟩ := amps_scale s cc adj hc ha
  have hr : adj / cc ≠ 0 := div_ne_zero ha hc
  have hs : ∀ x : ℝ, x * |adj / cc| * 1000000 / (adj / cc) = SignType.sign (adj / cc) * (x * 1000000) := by
    intro x
    have h := sign_mul_abs (adj / cc)
    rcases lt_or_gt_of_ne hr with hneg | hpos
    · rw [sign_neg hneg, abs_of_neg hneg]
      simp only [SignType.coe_neg_one]
      rw [div_eq_iff hr]; ring
    · rw [sign_pos hpos, abs_of_pos hpos]
      simp only [SignType.coe_one]
      rw [div_eq_iff hr]; ring
  have hm : (1.0e6 : ℝ) = 1000000 := by norm_num
  refine ⟨_, _, by rw [statSol, h1]; rfl, by rw [statSol, h2]; rfl, ?_, ?_, ?_, ?_⟩
  · intro k
    simp only [printed, adjustRatio, hm]
    fin_cases k
    · show a.a1 * _ / _ = _ * (b.a1 * _)
      rw [e1, hs]
    · show a.a2 * _ / _ = _ * (b.a2 * _)
      rw [e2, hs]
    · show a.a3 * _ / _ = _ * (b.a3 * _)
      rw [e3, hs]
  · intro k
    simp only [printed, adjustRatio, hm]
    fin_cases k
    · show a.a1 * |disc 0| * hough 0 * _ / _ = _ * (b.a1 * |disc 0| * hough 0 * _)
      rw [e1, ← hs]; ring
    · show a.a2 * |disc 1| * hough 1 * _ / _ = _ * (b.a2 * |disc 1| * hough 1 * _)
      rw [e2, ← hs]; ring
    · show a.a3 * |disc 2| * hough 2 * _ / _ = _ * (b.a3 * |disc 2| * hough 2 * _)
      rw [e3, ← hs]; ring
  · simp only [printed, adjustRatio, hm]
    rw [e4, hs]
  · intro hne
    have hb : b.a1 ≠ 0 := hne
    have habs : |adj / cc| ≠ 0 := abs_ne_zero.2 hr
    simp only [printed, adjustRatio, hm]
    show a.acrit * (a.a1 * |disc 0| * hough 0 * 1000000 / (a.a1 * 1000000)) * 1000000 / (adj / cc) = _
    have ha1 : a.a1 ≠ 0 := by rw [e1]; exact mul_ne_zero hb habs
    have : a.a1 * |disc 0| * hough 0 * 1000000 / (a.a1 * 1000000) = |disc 0| * hough 0 := by
      field_simp
    rw [this, e4]
    have := hs (b.acrit * (|disc 0| * hough 0))
    rw [← show b.acrit * (|disc 0| * hough 0) * 1000000 = b.acrit * |disc 0| * hough 0 * 1000000 by ring, ← this]
    ring

/-- **C102.**  Full statement: the adjusted amplitudes, threshold and fluxes that are printed are those the solver
computes for the adjusted coupling coefficient (times one million).  Proved when the adjusted and the original
coefficient have the same sign.  Missing because false: opposite signs (`C102_sign_wrong`). -/
theorem C102_printed_partial (s : StatIn) (disc hough : Fin 3 → ℝ) (cc adj : ℝ) (h : 0 < cc * adj) :
    ∃ o n, statSol (withCC s cc) disc hough = some o ∧ statSol (withCC s adj) disc hough = some n ∧
      (∀ k, (printed o (adjustRatio cc adj)).ampsAdj k = n.amps k * 1000000) ∧
      (∀ k, (printed o (adjustRatio cc adj)).fluxAdj k = n.flux k * 1000000) ∧
      (printed o (adjustRatio cc adj)).thrAdj = n.acrit * 1000000 ∧
      (n.amps 0 ≠ 0 → (printed o (adjustRatio cc adj)).thrFluxAdj = n.acrit * |disc 0| * hough 0 * 1000000) := by
  have hc : cc ≠ 0 := by rintro rfl; simp at h
  have ha : adj ≠ 0 := by rintro rfl; simp at h
  have hp : 0 < adj / cc := by
    rcases lt_or_gt_of_ne hc with h' | h'
    · exact div_pos_of_neg_of_neg (by nlinarith) h'
    · exact div_pos (by nlinarith) h'
  obtain ⟨o, n, h1, h2, h3, h4, h5, h6⟩ := printed_scale s disc hough cc adj hc ha
  simp only [sign_pos hp, SignType.coe_one, one_mul] at h3 h4 h5 h6
  exact ⟨o, n, h1, h2, h3, h4, h5, h6⟩

/-- **C102 is false** when the adjustment changes the sign of the coefficient: the printed amplitudes, threshold and
fluxes are the negatives of those for the adjusted coefficient; no printed amplitude is positive. -/
theorem C102_sign_wrong (s : StatIn) (disc hough : Fin 3 → ℝ) (cc adj : ℝ) (h : cc * adj < 0) :
    ∃ o n, statSol (withCC s cc) disc hough = some o ∧ statSol (withCC s adj) disc hough = some n ∧
      (∀ k, (printed o (adjustRatio cc adj)).ampsAdj k = -(n.amps k * 1000000)) ∧
      (∀ k, (printed o (adjustRatio cc adj)).fluxAdj k = -(n.flux k * 1000000)) ∧
      (printed o (adjustRatio cc adj)).thrAdj = -(n.acrit * 1000000) ∧
      (∀ k, (printed o (adjustRatio cc adj)).ampsAdj k ≤ 0) := by
  have hc : cc ≠ 0 := by rintro rfl; simp at h
  have ha : adj ≠ 0 := by rintro rfl; simp at h
  have hp : adj / cc < 0 := by
    rcases lt_or_gt_of_ne hc with h' | h'
    · exact div_neg_of_pos_of_neg (by nlinarith) h'
    · exact div_neg_of_neg_of_pos (by nlinarith) h'
  obtain ⟨o, n, h1, h2, h3, h4, h5, _⟩ := printed_scale s disc hough cc adj hc ha
  simp only [sign_neg hp, SignType.coe_neg_one, neg_mul, one_mul] at h3 h4 h5
  refine ⟨o, n, h1, h2, h3, h4, h5, ?_⟩
  intro k
  rw [h3]
  have hn : 0 ≤ n.amps k := by
    simp only [statSol, withCC, StatIn.amps, Option.map_some, Option.some.injEq] at h2
    rw [← h2]
    fin_cases k
    · show 0 ≤ √_ / 2
      positivity
    · show 0 ≤ √_ / 2
      positivity
    · show 0 ≤ √_ / 2
      positivity
  linarith

/-- A parametric triad with positive amplitudes, so that the wrong sign is visible. -/
example : ∃ (s : StatIn) (n : StatSol), statSol (withCC s (-1)) (fun _ => 1) (fun _ => 1) = some n ∧ 0 < n.amps 0 := by
  refine ⟨⟨![1, -1, -1], ![1, 1, 1], 1, none⟩, _, rfl, ?_⟩
  show 0 < √(_ * _) / 2
  simp only [withCC, StatIn.q, StatIn.qfProducts]
  norm_num [Matrix.cons_val_two, Matrix.vecHead, Matrix.vecTail, Matrix.cons_val]

end Verif.Tar
