import Mathlib.Tactic.FieldSimp
import Mathlib.Tactic.Ring
import Mathlib.Tactic.Linarith
import Mathlib.Tactic.NormNum
import Mathlib.Tactic.Positivity
import Mathlib.Analysis.Real.Pi.Bounds
import Verif.Post.Model
/-! # Properties C106-C110: quantities derived from saved triads -/
namespace Verif.Post
noncomputable section

/-! ### C106: nonlinear frequencies -/

/-- A triad of modes with azimuthal orders `m` in a star rotating with angular frequency `Ω`: the frequencies in the
inertial frame are those in the corotating frame plus `m Ω`, and the orders obey the selection rule. -/
structure Spec.Rotating (t : Triad) (m : Fin 3 → ℤ) (Ω : ℝ) : Prop where
  inert : ∀ i, t.inert i = t.corot i + m i * Ω
  rule : m 0 = m 1 + m 2

/-- **C106.** The nonlinear frequencies of the three modes are exactly resonant: that of the parent is the sum of those of the
daughters.  Each differs from the linear one by the share of the linear detuning that the growth rate of the mode has in the sum
of the growth rates. -/
theorem C106_locked (t : Triad) (m : Fin 3 → ℤ) (Ω : ℝ) (h : Spec.Rotating t m Ω)
    (hΓ : t.rates 0 + t.rates 1 + t.rates 2 ≠ 0) :
    ∃ a b c, nonlinearOmega t 0 = some a ∧ nonlinearOmega t 1 = some b ∧ nonlinearOmega t 2 = some c ∧ a = b + c ∧
      a - 86400 * t.inert 0 = -(86400 * (t.inert 0 - t.inert 1 - t.inert 2)) * (t.rates 0 / (t.rates 0 + t.rates 1 + t.rates 2)) ∧
      b - 86400 * t.inert 1 = 86400 * (t.inert 0 - t.inert 1 - t.inert 2) * (t.rates 1 / (t.rates 0 + t.rates 1 + t.rates 2)) ∧
      c - 86400 * t.inert 2 = 86400 * (t.inert 0 - t.inert 1 - t.inert 2) * (t.rates 2 / (t.rates 0 + t.rates 1 + t.rates 2)) := by
  have hd : linearDiff t = t.inert 0 - t.inert 1 - t.inert 2 := by
    rw [h.inert 0, h.inert 1, h.inert 2, h.rule]; unfold linearDiff; push_cast; ring
  have e0 : nonlinearOmega t 0 = some (hzToCpd (t.inert 0) + hzToCpd (linearDiff t * (-t.rates 0 / (t.rates 0 + t.rates 1 + t.rates 2)))) := by
    simp only [nonlinearOmega, shiftCpd, shift, if_true, ndiv, nadd, nmul, Option.bind_some, Option.map_some, if_neg hΓ]
  have e1 : nonlinearOmega t 1 = some (hzToCpd (t.inert 1) + hzToCpd (linearDiff t * (t.rates 1 / (t.rates 0 + t.rates 1 + t.rates 2)))) := by
    simp only [nonlinearOmega, shiftCpd, shift, ndiv, nadd, nmul, Option.bind_some, Option.map_some, if_neg hΓ, Fin.isValue,
      one_ne_zero, if_false]
  have e2 : nonlinearOmega t 2 = some (hzToCpd (t.inert 2) + hzToCpd (linearDiff t * (t.rates 2 / (t.rates 0 + t.rates 1 + t.rates 2)))) := by
    simp only [nonlinearOmega, shiftCpd, shift, ndiv, nadd, nmul, Option.bind_some, Option.map_some, if_neg hΓ, Fin.isValue,
      show (2 : Fin 3) ≠ 0 by decide, if_false]
  refine ⟨_, _, _, e0, e1, e2, ?_⟩
  simp only [hzToCpd, hd]
  refine ⟨?_, ?_, ?_, ?_⟩ <;> field_simp <;> ring

/-- **C106.** The smallest nonlinear frequency of the overview plot is the smallest of the nonlinear frequencies of the
analysis, in cycles per day. -/
theorem C106_smallest (t : Triad) (hΓ : t.rates 0 + t.rates 1 + t.rates 2 ≠ 0) (hf : ∀ i, t.inertF i = t.inert i / (2 * Real.pi)) :
    ∃ v, minInertial t = some v ∧ (∃ i w, nonlinearOmega t i = some w ∧ v = w / (2 * Real.pi)) ∧
      ∀ i w, nonlinearOmega t i = some w → v ≤ w / (2 * Real.pi) := by
  have h2 : (2 * Real.pi : ℝ) ≠ 0 := by positivity
  have hi : ∀ i, ∃ w, nonlinearOmega t i = some w ∧
      nadd (some (t.inertF i * 86400)) (ndiv (shiftCpd t i) (some (2 * Real.pi))) = some (w / (2 * Real.pi)) := by
    intro i
    have hs : ∃ s, shiftCpd t i = some s := by
      unfold shiftCpd shift
      split <;> simp [nmul, ndiv, hΓ]
    obtain ⟨s, hs⟩ := hs
    refine ⟨hzToCpd (t.inert i) + s, by simp [nonlinearOmega, nadd, hs], ?_⟩
    simp only [nadd, ndiv, hs, Option.bind_some, Option.map_some, if_neg h2, Option.some.injEq, hf, hzToCpd]
    field_simp
  obtain ⟨a, ha, ha'⟩ := hi 0
  obtain ⟨b, hb, hb'⟩ := hi 1
  obtain ⟨c, hc, hc'⟩ := hi 2
  have hp : (0 : ℝ) < 2 * Real.pi := by positivity
  refine ⟨min (min (a / (2 * Real.pi)) (b / (2 * Real.pi))) (c / (2 * Real.pi)), ?_, ?_, ?_⟩
  · simp only [minInertial, ha', hb', hc', nmin, Option.bind_some, Option.map_some]
  · rcases min_choice (min (a / (2 * Real.pi)) (b / (2 * Real.pi))) (c / (2 * Real.pi)) with h | h
    · rcases min_choice (a / (2 * Real.pi)) (b / (2 * Real.pi)) with h' | h'
      · exact ⟨0, a, ha, by rw [h, h']⟩
      · exact ⟨1, b, hb, by rw [h, h']⟩
    · exact ⟨2, c, hc, h⟩
  · intro i w hw
    fin_cases i
    · rw [show (⟨0, by omega⟩ : Fin 3) = 0 from rfl, ha] at hw; cases hw
      exact (min_le_left _ _).trans (min_le_left _ _)
    · rw [show (⟨1, by omega⟩ : Fin 3) = 1 from rfl, hb] at hw; cases hw
      exact (min_le_left _ _).trans (min_le_right _ _)
    · rw [show (⟨2, by omega⟩ : Fin 3) = 2 from rfl, hc] at hw; cases hw
      exact min_le_right _ _

/-- **C106.** The listed relative shift of a mode is the shift of its frequency in units of its linear frequency, whatever
the unit: the nonlinear frequency is the linear one times one plus the relative shift. -/
theorem C106_relative_shift (t : Triad) (hΓ : t.rates 0 + t.rates 1 + t.rates 2 ≠ 0) (i : Fin 3) (hi : t.inert i ≠ 0) :
    ∃ r w, relShift t i = some r ∧ nonlinearOmega t i = some w ∧ w = 86400 * t.inert i * (1 + r) := by
  obtain ⟨s, hs⟩ : ∃ s, shift t i = some s := by
    unfold shift
    split <;> simp [nmul, ndiv, hΓ]
  have hz : hzToMuhz (t.inert i) ≠ 0 := mul_ne_zero hi (by norm_num)
  refine ⟨hzToMuhz s / hzToMuhz (t.inert i), hzToCpd (t.inert i) + hzToCpd s, ?_, ?_, ?_⟩
  · simp only [relShift, ndiv, hs, Option.map_some, Option.bind_some, if_neg hz]
  · simp only [nonlinearOmega, shiftCpd, nadd, hs, Option.map_some, Option.bind_some]
  · simp only [hzToMuhz, hzToCpd]
    field_simp

/-! ### C107: spin parameters -/

/-- **C107 (partial).** If the azimuthal order of the first daughter is one, the rotation frequency and the spin parameters are
those of the star. -/
theorem C107_spin_partial (t : Triad) (m : Fin 3 → ℤ) (Ω : ℝ) (h : Spec.Rotating t m Ω) (hm : m 1 = 1) :
    rotation t = Ω ∧ ∀ i, t.corot i ≠ 0 → spin t i = some (2 * Ω / t.corot i) := by
  have hr : rotation t = Ω := by rw [rotation, h.inert 1, hm]; push_cast; ring
  exact ⟨hr, fun i hi => by simp [spin, ndiv, hr, hi]⟩

/-- **C107 (refutation).** For every other azimuthal order of the first daughter, in every rotating star, the rotation frequency
and all spin parameters are wrong. -/
theorem C107_other_order_wrong (t : Triad) (m : Fin 3 → ℤ) (Ω : ℝ) (h : Spec.Rotating t m Ω) (hm : m 1 ≠ 1) (hΩ : Ω ≠ 0) :
    rotation t ≠ Ω ∧ ∀ i, t.corot i ≠ 0 → spin t i ≠ some (2 * Ω / t.corot i) := by
  have hm' : (m 1 : ℝ) ≠ 1 := by exact_mod_cast hm
  have hr : rotation t = m 1 * Ω := by rw [rotation, h.inert 1]; ring
  have hne : rotation t ≠ Ω := by
    rw [hr]; intro h'; exact hm' (mul_right_cancel₀ hΩ (by rw [h', one_mul]))
  refine ⟨hne, fun i hi hs => hne ?_⟩
  simp only [spin, ndiv, Option.bind_some, if_neg hi, Option.some.injEq] at hs
  field_simp at hs
  linarith

/-! ### C108: luminosity at threshold -/

/-- **C108.** If the luminosity variation of the parent is its amplitude times some factor, the threshold luminosity of a
parametric triad is that factor times the threshold amplitude, in parts per million. -/
theorem C108_threshold (t : Triad) (A c T : ℝ) (hA : t.amps 0 = some A) (hA0 : A ≠ 0) (hL : t.surfs 0 = some (c * A))
    (hT : t.thresh = some T) (hp : t.checks 0 = true) : threshPpm t = some (c * T * 1000000) := by
  simp only [threshPpm, hA, hL, hT, hp, isnan, isZero, divideWhere, ndiv, nmul, hA0, Option.isNone_some, decide_false, Bool.or_false,
    Bool.not_false, Bool.and_true, if_true, if_false, Option.bind_some, Option.map_some, Option.some.injEq]
  field_simp

/-- **C108.** Every other triad has none: it is missing exactly for triads that are not parametric, or without a stationary
amplitude, luminosity or threshold. -/
theorem C108_missing (t : Triad) : threshPpm t = none ↔
    t.checks 0 = false ∨ t.amps 0 = none ∨ t.amps 0 = some 0 ∨ t.surfs 0 = none ∨ t.thresh = none := by
  unfold threshPpm
  cases h0 : t.checks 0 <;> cases hA : t.amps 0 <;> cases hL : t.surfs 0 <;> cases hT : t.thresh <;>
    simp [isnan, isZero, divideWhere, ndiv, nmul]
  all_goals
    rename_i a b
    by_cases h : a = 0 <;> simp [h]

/-- **C108.** The parent of a triad saturates above its threshold in luminosity if and only if it does so in amplitude. -/
theorem C108_compare (t : Triad) (A c T : ℝ) (hA : t.amps 0 = some A) (hA0 : A ≠ 0) (hc : 0 < c) (hL : t.surfs 0 = some (c * A))
    (hT : t.thresh = some T) (hp : t.checks 0 = true) :
    ∃ v L, threshPpm t = some v ∧ t.surfs 0 = some L ∧ (v < L * 1000000 ↔ T < A) := by
  refine ⟨_, _, C108_threshold t A c T hA hA0 hL hT hp, hL, ?_⟩
  constructor
  · intro h; nlinarith
  · intro h; nlinarith

/-! ### C109: luminosity ratios -/

/-- **C109.** For a parametric triad the ratios are daughter over parent. -/
theorem C109_parametric (t : Triad) (x y z : ℝ) (h : ∀ i, t.surfs i = some (![x, y, z] i)) (hx : x ≠ 0) (hp : t.checks 0 = true)
    (hd : t.checks 1 = false) :
    (ampRatios t).1 = some (y / x) ∧ (ampRatios t).2.1 = some (z / x) ∧
      (y * z ≠ 0 → (ampRatios t).2.2 = some (x / (y * z))) := by
  have h0 := h 0; have h1 := h 1; have h2 := h 2
  simp only [Matrix.cons_val] at h0 h1 h2
  refine ⟨?_, ?_, fun hyz => ?_⟩ <;>
    simp only [ampRatios, singleRatio, divideWhere, h0, h1, h2, hp, hd, isZero, isnan, ndiv, nmul, Option.isNone_some,
      Option.bind_some, Option.map_some, hx, decide_false, Bool.or_false, Bool.not_false, Bool.and_true, Bool.and_false,
      if_true, if_false, Bool.false_eq_true]
  simp [hyz]

/-- **C109.** For a direct triad the first mode is over the others. -/
theorem C109_direct (t : Triad) (x y z : ℝ) (h : ∀ i, t.surfs i = some (![x, y, z] i)) (hy : y ≠ 0) (hz : z ≠ 0)
    (hd : t.checks 1 = true) :
    ampRatios t = (some (x / y), some (x / z), some (x / (y * z))) := by
  have h0 := h 0; have h1 := h 1; have h2 := h 2
  simp only [Matrix.cons_val] at h0 h1 h2
  simp [ampRatios, singleRatio, divideWhere, h0, h1, h2, hd, isZero, isnan, ndiv, nmul, hy, hz]

/-- **C109.** Other triads have no ratios. -/
theorem C109_neither (t : Triad) (hp : t.checks 0 = false) (hd : t.checks 1 = false) : ampRatios t = (none, none, none) := by
  simp [ampRatios, singleRatio, divideWhere, hp, hd]

/-! ### C110: mirrored frequencies -/

/-- `g` is the alias of `f` for the Nyquist frequency `N`: it lies in the observable interval and differs from `f` or its
opposite by a multiple of the sampling frequency `2 N`. -/
def Spec.Alias (N f g : ℝ) : Prop := 0 ≤ g ∧ g ≤ N ∧ ∃ k : ℤ, g = f + k * (2 * N) ∨ g = -f + k * (2 * N)

theorem nyquist_pos : 0 < nyquist := by unfold nyquist; norm_num

theorem mirror_neg (f : ℝ) (h : f < 0) : mirror f = (
    if -f < nyquist then -f else if -f < 2 * nyquist then 2 * nyquist + f else if -f < 3 * nyquist then -3 * nyquist - f
    else if -f < 4 * nyquist then 4 * nyquist + f else f, true) := by
  have hN := nyquist_pos
  unfold mirror
  simp only [abs_of_neg h, h, decide_true, Bool.and_true, Bool.and_eq_true, decide_eq_true_eq, Prod.mk.injEq, and_true]
  split_ifs <;> first | rfl | (exfalso; linarith) | (exfalso; grind) | grind

/-- **C110 (partial).** A negative frequency is replaced by its alias if it is less than two, or between three and four, Nyquist
frequencies away from zero; others are kept and the flag tells which. -/
theorem C110_alias_partial (f : ℝ) : ((mirror f).2 = true ↔ f < 0) ∧ (0 ≤ f → (mirror f).1 = f) ∧
    (f < 0 → -f < 2 * nyquist ∨ 3 * nyquist ≤ -f ∧ -f < 4 * nyquist → Spec.Alias nyquist f (mirror f).1) := by
  have hN := nyquist_pos
  refine ⟨by simp [mirror], fun h => ?_, fun h hr => ?_⟩
  · simp [mirror, not_lt.2 h]
  · rw [mirror_neg f h]
    dsimp only
    split_ifs with h1 h2 h3 h4
    · exact ⟨by linarith, by linarith, 0, Or.inr (by push_cast; ring)⟩
    · exact ⟨by linarith, by linarith, 1, Or.inl (by push_cast; ring)⟩
    · exfalso; rcases hr with h | h <;> linarith
    · exact ⟨by linarith, by linarith, 2, Or.inl (by push_cast; ring)⟩
    · exfalso; rcases hr with h | h <;> linarith

/-- **C110 (refutation).** Every frequency between two and three Nyquist frequencies below zero stays negative after the
mirroring, and so does every frequency of four or more. -/
theorem C110_stays_negative_wrong (f : ℝ) (h : 2 * nyquist ≤ -f ∧ -f < 3 * nyquist ∨ 4 * nyquist ≤ -f) :
    (mirror f).1 < 0 ∧ ¬ Spec.Alias nyquist f (mirror f).1 := by
  have hN := nyquist_pos
  have hf : f < 0 := by rcases h with h | h <;> linarith
  have : (mirror f).1 < 0 := by
    rw [mirror_neg f hf]
    dsimp only
    split_ifs with h1 h2 h3 h4
    · rcases h with h | h <;> linarith
    · rcases h with h | h <;> linarith
    · linarith
    · rcases h with h | h <;> linarith
    · exact hf
  exact ⟨this, fun ha => absurd ha.1 (not_le.2 this)⟩

/-- What the alias between two and three Nyquist frequencies would be. -/
theorem C110_right_alias (f : ℝ) (h : 2 * nyquist ≤ -f) (h' : -f < 3 * nyquist) : Spec.Alias nyquist f (-2 * nyquist - f) :=
  ⟨by linarith, by linarith, -1, Or.inr (by push_cast; ring)⟩

/-- Non-vacuity: a rotating star with a resonant triad of stable and driven modes. -/
def sampleTriad (m1 : ℤ) (Ω : ℝ) : Triad :=
  { surfs := ![some 2, some 1, some 1], checks := ![true, false, true, true, true, true], rates := ![1, -2, -3],
    amps := ![some 4, some 2, some 2], thresh := some 1, radOrd := ![1, 2, 3], corot := ![10, 4, 5],
    inert := ![10 + (m1 + 1 : ℤ) * Ω, 4 + m1 * Ω, 5 + Ω], inertF := ![1, 1, 1], kappaNorm := some 1, phase := some 0 }

example : Spec.Rotating (sampleTriad 2 3) ![3, 2, 1] 3 ∧
    (sampleTriad 2 3).rates 0 + (sampleTriad 2 3).rates 1 + (sampleTriad 2 3).rates 2 ≠ 0 := by
  refine ⟨⟨fun i => ?_, by decide⟩, ?_⟩
  · fin_cases i <;> norm_num [sampleTriad]
  · show (1 : ℝ) + -2 + -3 ≠ 0
    norm_num

example : (sampleTriad 2 3).inert 1 ≠ 0 := by norm_num [sampleTriad]

end
end Verif.Post
