import Verif.Post.Sets
/-! # Properties C112-C115: classes, counts, sharpness data, harmonics -/
namespace Verif.Post
noncomputable section
open Mask (band bnot PartOK isolationMask)

/-! ### C112: classes in terms of the stored data -/

/-- The three stability conditions of the stored checks. -/
def Spec.Stable (t : Triad) : Prop := t.checks 3 = true ∧ t.checks 4 = true ∧ t.checks 5 = true
/-- The linear detuning is at most a tenth of every mode frequency, none of which vanishes. -/
def Spec.Valid (t : Triad) : Prop := ∀ i, t.corot i ≠ 0 ∧ |t.corot 0 - t.corot 1 - t.corot 2| ≤ |t.corot i| / 10

theorem stable_row (t : Triad) : Mask.Stable (maskRow t) ↔ Spec.Stable t := by
  have : (List.ofFn t.checks).drop ((List.ofFn t.checks).length - 3) = [t.checks 3, t.checks 4, t.checks 5] := by
    simp [List.ofFn_succ]
  simp only [Mask.Stable, maskRow]
  rw [this]
  simp [Spec.Stable]

theorem valid_row (t : Triad) : Mask.DetuningAtMost (1 / 10) (maskRow t) ↔ Spec.Valid t := by
  simp only [Mask.DetuningAtMost, maskRow, diffToMin, ndiv, Option.bind_some]
  have hm : ∀ i, minCorot t ≤ |t.corot i| := by
    intro i
    fin_cases i
    · exact (min_le_left _ _).trans (min_le_left _ _)
    · exact (min_le_left _ _).trans (min_le_right _ _)
    · exact min_le_right _ _
  have h0 : 0 ≤ minCorot t := by simp [minCorot]
  have hex : ∃ i, minCorot t = |t.corot i| := by
    unfold minCorot
    rcases min_choice (min |t.corot 0| |t.corot 1|) |t.corot 2| with h | h
    · rcases min_choice |t.corot 0| |t.corot 1| with h' | h'
      · exact ⟨0, by rw [h, h']⟩
      · exact ⟨1, by rw [h, h']⟩
    · exact ⟨2, h⟩
  constructor
  · rintro ⟨v, hv, hl⟩ i
    split at hv
    · cases hv
    · rename_i hne
      have hpos := lt_of_le_of_ne h0 (Ne.symm hne)
      cases hv
      rw [abs_div, abs_of_pos hpos, div_le_iff₀ hpos] at hl
      refine ⟨fun h => ?_, ?_⟩
      · have := hm i; rw [h, abs_zero] at this; linarith
      · have := hm i
        change |linearDiff t| ≤ _
        linarith
  · intro h
    obtain ⟨i, hi⟩ := hex
    have hpos : 0 < minCorot t := by rw [hi]; exact abs_pos.2 (h i).1
    refine ⟨_, if_neg hpos.ne', ?_⟩
    rw [abs_div, abs_of_pos hpos, div_le_iff₀ hpos, hi]
    have := (h i).2
    change |linearDiff t| ≤ _ at this
    linarith

/-- **C112.** The masks of the analysis say, triad by triad: stable; valid; isolated; valid and isolated; stable, valid and
isolated; in terms of the saved checks and frequencies. -/
theorem C112_classes (part : List ℝ → ℕ × ℕ) (hp : PartOK part) (rows : List Triad) (d : Dict) (h : store part rows = some d)
    (i : ℕ) (t : Triad) (ht : rows[i]? = some t) :
    isolationMask part (rows.map maskRow) = some d.iso ∧ (d.stab[i]? = some true ↔ Spec.Stable t) ∧
      (d.ae[i]? = some true ↔ Spec.Valid t) ∧ (d.val[i]? = some true ↔ Spec.Valid t ∧ d.iso[i]? = some true) ∧
      (d.stabVal[i]? = some true ↔ Spec.Stable t ∧ Spec.Valid t ∧ d.iso[i]? = some true) := by
  unfold store at h
  simp only [Option.bind_eq_bind, Option.bind_eq_some_iff, Option.pure_def] at h
  obtain ⟨⟨a, b, c, e, f⟩, hm, hd⟩ := h
  cases hd
  obtain ⟨iso, hi, h1, h2, rfl, h3, h4⟩ := Mask.C36_triad_count_masks part hp _ a b c e f hm i (maskRow t) (by simp [ht])
  rw [stable_row] at h1 h4
  rw [valid_row] at h2 h3 h4
  exact ⟨hi, h1, h2, h3, h4⟩

/-- **C112.** An isolated triad is parametric, with a stationary amplitude, luminosity and threshold. -/
theorem C112_isolated_parametric (part : List ℝ → ℕ × ℕ) (hp : PartOK part) (rows : List Triad) (mask : List Bool)
    (h : isolationMask part (rows.map maskRow) = some mask) (i : ℕ) (t : Triad) (ht : rows[i]? = some t)
    (hi : mask[i]? = some true) :
    t.checks 0 = true ∧ (∃ A, t.amps 0 = some A ∧ A ≠ 0) ∧ (∃ L, t.surfs 0 = some L) ∧ ∃ T, t.thresh = some T := by
  obtain ⟨iso, rfl, hr⟩ := Mask.isolation_rows part hp _ mask h
  simp only [List.getElem?_map, ht, Option.map_some, Option.some.injEq] at hi
  obtain ⟨hv, _⟩ := (hr (maskRow t) (List.mem_map.2 ⟨t, List.mem_of_getElem? ht, rfl⟩)).1 hi
  have hv' : threshPpm t ≠ none := by
    intro h0
    have : (maskRow t).thr = none := h0
    simp [this] at hv
  rw [Ne, C108_missing] at hv'
  push Not at hv'
  obtain ⟨h0, h1, h2, h3, h4⟩ := hv'
  refine ⟨by simpa using h0, ?_, Option.ne_none_iff_exists'.1 h3, Option.ne_none_iff_exists'.1 h4⟩
  obtain ⟨A, hA⟩ := Option.ne_none_iff_exists'.1 h1
  exact ⟨A, hA, fun h => h2 (by rw [hA, h])⟩

/-! ### C113: counts -/

/-- Both luminosity ratios are above one. -/
def Spec.Larger (t : Triad) : Prop := ∃ a b, (ampRatios t).1 = some a ∧ (ampRatios t).2.1 = some b ∧ 1 < a ∧ 1 < b
/-- The ratio of detuning and summed growth rates is above the quality factor of the parent. -/
def Spec.QAbove (t : Triad) : Prop := t.rates 0 ≠ 0 ∧ t.rates 0 + t.rates 1 + t.rates 2 ≠ 0 ∧
  t.corot 0 / t.rates 0 < (t.corot 0 - t.corot 1 - t.corot 2) / (t.rates 0 + t.rates 1 + t.rates 2)

theorem larger_iff (t : Triad) : bothLarger t = true ↔ Spec.Larger t := by
  unfold bothLarger Spec.Larger ngt
  cases (ampRatios t).1 <;> cases (ampRatios t).2.1 <;> simp

theorem qGreater_iff (t : Triad) : qGreater t = true ↔ Spec.QAbove t := by
  have hg : gammaSum t = 86400 * (t.rates 0 + t.rates 1 + t.rates 2) := by unfold gammaSum hzToCpd; ring
  unfold qGreater Spec.QAbove ngt qFactor quality ndiv
  simp only [Option.bind_some, hg, mul_eq_zero, OfNat.ofNat_ne_zero, false_or]
  by_cases h1 : t.rates 0 + t.rates 1 + t.rates 2 = 0
  · simp [h1]
  · by_cases h2 : t.rates 0 = 0
    · simp [h1, h2]
    · have : hzToCpd (linearDiff t) / (86400 * (t.rates 0 + t.rates 1 + t.rates 2)) =
          (t.corot 0 - t.corot 1 - t.corot 2) / (t.rates 0 + t.rates 1 + t.rates 2) := by
        unfold hzToCpd linearDiff; field_simp
      simp [h1, h2, this]

theorem band_map' {α : Type} (l : List α) (f g : α → Bool) : band (l.map f) (l.map g) = l.map fun t => f t && g t := by
  induction l with
  | nil => rfl
  | cons r t ih => simp only [band] at ih; simp [band, ih]
theorem bnot_map' {α : Type} (l : List α) (f : α → Bool) : bnot (l.map f) = l.map fun t => !f t := by simp [bnot]
theorem count_map' {α : Type} (l : List α) (f : α → Bool) : (l.map f).count true = l.countP f := by
  rw [List.count, List.countP_map]; congr 1; funext x; simp

/-- The masks of a data dictionary as functions of the triad. -/
theorem store_eq (part : List ℝ → ℕ × ℕ) (hp : PartOK part) (rows : List Triad) (d : Dict) (h : store part rows = some d) :
    d.rows = rows ∧ ∃ s v i : Triad → Bool, d.stab = rows.map s ∧ d.ae = rows.map v ∧ d.iso = rows.map i ∧
      d.val = rows.map (fun t => v t && i t) ∧ d.stabVal = rows.map (fun t => s t && v t && i t) ∧
      isolationMask part (rows.map maskRow) = some (rows.map i) ∧
      (∀ t, s t = true ↔ Spec.Stable t) ∧ ∀ t, v t = true ↔ Spec.Valid t := by
  unfold store Mask.triadCountMasks at h
  cases hi : isolationMask part (rows.map maskRow) with
  | none => simp [hi] at h
  | some iso =>
    obtain ⟨f, rfl, _⟩ := Mask.isolation_rows part hp _ iso hi
    simp only [hi, Option.bind_eq_bind, Option.bind_some, Option.pure_def, Option.some.injEq] at h
    subst h
    refine ⟨rfl, fun t => ((maskRow t).checks.drop ((maskRow t).checks.length - 3)).all id,
      fun t => Mask.absLe (maskRow t).omegaDiff (1 / 10), fun t => f (maskRow t), ?_, ?_, ?_, ?_, ?_, ?_, ?_, ?_⟩
    · simp [Mask.stabilityMask, Function.comp_def]
    · simp [Mask.validityMask, Function.comp_def]
    · simp [Function.comp_def]
    · simp only [Mask.validityMask, Mask.band_map]; simp [Function.comp_def]
    · simp only [Mask.stabilityMask, Mask.validityMask, Mask.band_map]; simp [Function.comp_def]
    · simp [Function.comp_def]
    · intro t; rw [Mask.stable_iff, stable_row]
    · intro t; rw [Mask.absLe_iff, valid_row]

theorem countP_split {α : Type} (l : List α) (p q : α → Bool) :
    (l.countP fun t => p t && q t) + (l.countP fun t => !p t && q t) = l.countP q := by
  induction l with
  | nil => rfl
  | cons a l ih =>
    simp only [List.countP_cons]
    cases p a <;> cases q a <;> simp <;> omega

theorem zip_map_self {α β : Type} (l : List α) (i : α → β) : l.zip (l.map i) = l.map fun t => (t, i t) := by
  induction l with
  | nil => rfl
  | cons a l ih => simp [ih]

theorem select_map {α β : Type} (l : List α) (g : α → β) (f : α → Bool) :
    select (l.map g) (l.map f) = (l.filter f).map g := by
  unfold select
  induction l with
  | nil => rfl
  | cons a l ih => cases hf : f a <;> simp [hf, ih]

theorem select_length {α β : Type} (l : List α) (g : α → β) (f : α → Bool) :
    (select (l.map g) (l.map f)).length = l.countP f := by
  rw [select_map, List.length_map, List.countP_eq_length_filter]

open Classical in
/-- **C113.** The counts of one model: triads above the quality factor, with large ratios, with both; and for each class the
numbers in and outside the class add up to those with both. -/
theorem C113_model (part : List ℝ → ℕ × ℕ) (hp : PartOK part) (rows : List Triad) (d : Dict) (h : store part rows = some d) :
    let c := countModel d
    c.n = rows.length ∧ c.q = rows.countP (fun t => decide (Spec.QAbove t)) ∧
      c.ratios = rows.countP (fun t => decide (Spec.Larger t)) ∧
      c.both = rows.countP (fun t => decide (Spec.QAbove t ∧ Spec.Larger t)) ∧
      c.notQ = rows.countP (fun t => decide (¬ Spec.QAbove t ∧ Spec.Larger t)) ∧
      c.stab.1 = rows.countP (fun t => decide (Spec.Stable t ∧ Spec.QAbove t ∧ Spec.Larger t)) ∧
      c.ae.1 = rows.countP (fun t => decide (Spec.Valid t ∧ Spec.QAbove t ∧ Spec.Larger t)) ∧
      c.aeRatios.1 = rows.countP (fun t => decide (Spec.Valid t ∧ Spec.Larger t)) ∧
      c.iso.1 = (rows.zip d.iso).countP (fun p => decide (p.2 = true ∧ Spec.QAbove p.1 ∧ Spec.Larger p.1)) ∧
      c.val.1 = (rows.zip d.iso).countP (fun p => decide (Spec.Valid p.1 ∧ p.2 = true ∧ Spec.QAbove p.1 ∧ Spec.Larger p.1)) ∧
      c.stabVal.1 = (rows.zip d.iso).countP
        (fun p => decide (Spec.Stable p.1 ∧ Spec.Valid p.1 ∧ p.2 = true ∧ Spec.QAbove p.1 ∧ Spec.Larger p.1)) ∧
      (∀ p ∈ [c.stab, c.ae, c.iso, c.val, c.stabVal], p.1 + p.2 = c.both) ∧ c.aeRatios.1 + c.aeRatios.2 = c.ratios ∧
      c.both + c.notQ = c.ratios ∧ c.infoBoth.length = c.both := by
  obtain ⟨hr, s, v, i, h1, h2, h3, h4, h5, _, hs, hv⟩ := store_eq part hp rows d h
  have hs' : ∀ t, s t = decide (Spec.Stable t) := fun t => by rw [Bool.eq_iff_iff, hs, decide_eq_true_iff]
  have hv' : ∀ t, v t = decide (Spec.Valid t) := fun t => by rw [Bool.eq_iff_iff, hv, decide_eq_true_iff]
  have hq' : qGreater = fun t => decide (Spec.QAbove t) := funext fun t => by rw [Bool.eq_iff_iff, qGreater_iff, decide_eq_true_iff]
  have hl' : bothLarger = fun t => decide (Spec.Larger t) := funext fun t => by rw [Bool.eq_iff_iff, larger_iff, decide_eq_true_iff]
  dsimp only
  unfold countModel
  simp only [hr, h1, h2, h3, h4, h5, band_map', bnot_map', count_map', select_length, zip_map_self, List.countP_map]
  simp only [hs', hv', hq', hl', Bool.decide_and, decide_not, List.length_map, Bool.decide_eq_true, Bool.and_assoc,
    Function.comp_def, true_and, and_true, List.mem_cons, List.not_mem_nil, or_false]
  refine ⟨?_, ?_, ?_⟩
  · rintro p (rfl | rfl | rfl | rfl | rfl)
    · exact countP_split _ _ _
    · exact countP_split _ _ _
    · exact countP_split _ _ _
    · have := countP_split rows (fun t => decide (Spec.Valid t) && i t) (fun t => decide (Spec.QAbove t) && decide (Spec.Larger t))
      simpa only [Bool.and_assoc] using this
    · have := countP_split rows (fun t => decide (Spec.Stable t) && (decide (Spec.Valid t) && i t))
        (fun t => decide (Spec.QAbove t) && decide (Spec.Larger t))
      simpa only [Bool.and_assoc] using this
  · exact countP_split _ _ _
  · exact countP_split _ _ _

/-- **C113.** With as many names as models (at least) the printed totals are the sums over all models. -/
theorem C113_totals_partial (names : List String) (dds : List Dict) (h : dds.length ≤ names.length) :
    let T := totals (countLists names dds)
    let S (f : Counts → ℕ) : ℕ := (dds.map fun d => f (countModel d)).sum
    T.q = S (·.q) ∧ T.ratios = S (·.ratios) ∧ T.both = S (·.both) ∧ T.notQ = S (·.notQ) ∧
      T.stab = (S (·.stab.1), S (·.stab.2)) ∧ T.ae = (S (·.ae.1), S (·.ae.2)) ∧ T.iso = (S (·.iso.1), S (·.iso.2)) ∧
      T.val = (S (·.val.1), S (·.val.2)) ∧ T.stabVal = (S (·.stabVal.1), S (·.stabVal.2)) ∧
      T.aeRatios = (S (·.aeRatios.1), S (·.aeRatios.2)) := by
  have hz : ∀ f : Counts → ℕ, ((countLists names dds).map fun p => f p.2) = dds.map fun d => f (countModel d) := by
    intro f
    unfold countLists
    rw [List.map_map, show ((fun p : String × Counts => f p.2) ∘ fun p : String × Dict => (p.1, countModel p.2)) =
      (fun d => f (countModel d)) ∘ Prod.snd from rfl, ← List.map_map, List.map_snd_zip h]
  have hs : ∀ f : Counts → ℕ, ((countLists names dds).map fun p => f p.2).sum = (dds.map fun d => f (countModel d)).sum :=
    fun f => by rw [hz]
  exact ⟨hs (·.q), hs (·.ratios), hs (·.both), hs (·.notQ), Prod.ext (hs (·.stab.1)) (hs (·.stab.2)),
    Prod.ext (hs (·.ae.1)) (hs (·.ae.2)), Prod.ext (hs (·.iso.1)) (hs (·.iso.2)), Prod.ext (hs (·.val.1)) (hs (·.val.2)),
    Prod.ext (hs (·.stabVal.1)) (hs (·.stabVal.2)), Prod.ext (hs (·.aeRatios.1)) (hs (·.aeRatios.2))⟩

/-- A triad without a parametric solution whose quality ratio is above the quality factor of the parent. -/
def sampleQ : Triad :=
  { surfs := fun _ => none, checks := fun _ => false, rates := fun _ => -1, amps := fun _ => none, thresh := none,
    radOrd := ![-30, -50, -60], corot := fun _ => 1, inert := fun _ => 1, inertF := fun _ => 1, kappaNorm := none, phase := none }

/-- The dictionary of a model with that triad only. -/
def sampleDict : Dict := ⟨[sampleQ], [false], [false], [false], [false], [false]⟩

theorem sampleQ_above : qGreater sampleQ = true := by
  rw [qGreater_iff]
  simp only [Spec.QAbove, sampleQ]
  norm_num

theorem sample_dict (part : List ℝ → ℕ × ℕ) : store part [sampleQ] = some sampleDict := by
  have h1 : threshPpm sampleQ = none := by simp [threshPpm, sampleQ, divideWhere, isnan, nmul]
  have hm : maskRow sampleQ = ⟨-30, -50, -60, none, none, [false, false, false, false, false, false], diffToMin sampleQ, false⟩ := by
    simp [maskRow, h1, List.ofFn_succ]
    simp [sampleQ]
  have h2 : diffToMin sampleQ = some (-1) := by
    simp [diffToMin, linearDiff, minCorot, ndiv, sampleQ]
  simp only [store, List.map_cons, List.map_nil, hm, h2, Mask.triadCountMasks, Mask.stabilityMask, Mask.validityMask]
  have hi : isolationMask part [⟨-30, -50, -60, none, none, [false, false, false, false, false, false], some (-1), false⟩] =
      some [false] := by
    rfl
  rw [hi]
  have : (|(-1 : ℝ)| ≤ 1 / 10) = False := by rw [eq_iff_iff]; norm_num
  simp [Mask.absLe, band, sampleDict]
  norm_num

/-- **C113.** (What fails.) With the default names the models after the seventh are left out of the totals: eight equal
models of one triad each are counted as seven. -/
theorem C113_dropped_wrong (part : List ℝ → ℕ × ℕ) :
    ∃ dds, (List.replicate 8 [sampleQ]).mapM (store part) = some dds ∧ (totals (countLists defaultNames dds)).q = 7 ∧
      (dds.map fun d => (countModel d).q).sum = 8 := by
  refine ⟨List.replicate 8 sampleDict, ?_, ?_, ?_⟩
  · simp [List.replicate, sample_dict]
  all_goals
    have : (countModel sampleDict).q = 1 := by simp [countModel, sampleDict, sampleQ_above]
    simp [List.replicate, totals, countLists, defaultNames, this]

/-- **C113.** (What fails, in general.) The totals are those of the first models, as many as there are names. -/
theorem C113_first_models_wrong (names : List String) (dds : List Dict) :
    totals (countLists names dds) = totals (countLists names (dds.take names.length)) := by
  have : countLists names dds = countLists names (dds.take names.length) := by
    unfold countLists
    congr 1
    induction names generalizing dds with
    | nil => simp
    | cons a l ih => cases dds with
      | nil => rfl
      | cons b k => simp [← ih]
  rw [this]

/-! ### C114: sharpness data -/

/-- Detuning over the summed rates of the daughters, if that sum does not vanish. -/
def Spec.sharp (t : Triad) : Num :=
  if t.rates 1 + t.rates 2 = 0 then none else some ((t.corot 0 - t.corot 1 - t.corot 2) / (t.rates 1 + t.rates 2))

open Classical in
/-- The sharpness values of the triads of one model that are stable, valid and, according to the isolation mask `iso`,
isolated (`b = true`) or not (`b = false`). -/
def Spec.sharpOf (b : Bool) (rows : List Triad) (iso : List Bool) : List Num :=
  ((rows.zip iso).filter fun p => decide (Spec.Stable p.1 ∧ Spec.Valid p.1 ∧ p.2 = b)).map fun p => Spec.sharp p.1

theorem sharp_one (part : List ℝ → ℕ × ℕ) (hp : PartOK part) (rows : List Triad) (a b : List Bool)
    (h : Mask.isolatedMasks part (rows.map maskRow) none none = some (a, b)) :
    ∃ iso, isolationMask part (rows.map maskRow) = some iso ∧ select (rows.map sharpness) a = Spec.sharpOf true rows iso ∧
      select (rows.map sharpness) b = Spec.sharpOf false rows iso ∧ a.count true = (Spec.sharpOf true rows iso).length ∧
      b.count true = (Spec.sharpOf false rows iso).length := by
  classical
  cases hi : isolationMask part (rows.map maskRow) with
  | none => simp [Mask.isolatedMasks, hi] at h
  | some iso =>
    obtain ⟨f, rfl, _⟩ := Mask.isolation_rows part hp _ iso hi
    simp only [Mask.isolatedMasks, hi, Option.bind_eq_bind, Option.bind_some, Option.pure_def, Option.some.injEq, Prod.mk.injEq,
      Mask.stabilityMask, Mask.validityMask, List.map_map, bnot_map', band_map', Function.comp_def] at h
    obtain ⟨rfl, rfl⟩ := h
    have hs : ∀ t, ((maskRow t).checks.drop ((maskRow t).checks.length - 3)).all id = decide (Spec.Stable t) := fun t => by
      rw [Bool.eq_iff_iff, Mask.stable_iff, stable_row, decide_eq_true_iff]
    have hv : ∀ t, Mask.absLe (maskRow t).omegaDiff (1 / 10) = decide (Spec.Valid t) := fun t => by
      rw [Bool.eq_iff_iff, Mask.absLe_iff, valid_row, decide_eq_true_iff]
    have hfil : ∀ b, (Spec.sharpOf b rows ((rows.map maskRow).map f)) =
        (rows.filter fun t => decide (Spec.Stable t) && decide (Spec.Valid t) && (f (maskRow t) == b)).map sharpness := by
      intro b
      unfold Spec.sharpOf
      rw [List.map_map, zip_map_self, List.filter_map, List.map_map]
      change List.map sharpness _ = _
      congr 1
      apply List.filter_congr
      intro t _
      simp [Bool.and_assoc, beq_eq_decide]
    refine ⟨_, rfl, ?_, ?_, ?_, ?_⟩
    · rw [hfil, select_map]
      congr 1; apply List.filter_congr; intro t _; simp only [hs, hv]; simp
    · rw [hfil, select_map]
      congr 1; apply List.filter_congr; intro t _; simp only [hs, hv]; simp
    · rw [hfil, List.length_map, ← List.countP_eq_length_filter, count_map']
      congr 1; funext t; simp only [hs, hv]; simp
    · rw [hfil, List.length_map, ← List.countP_eq_length_filter, count_map']
      congr 1; funext t; simp only [hs, hv]; simp

theorem sharp_list (part : List ℝ → ℕ × ℕ) (hp : PartOK part) (models : List (List Triad)) (masks : List (List Bool × List Bool))
    (h : models.mapM (fun rows => Mask.isolatedMasks part (rows.map maskRow) none none) = some masks) :
    ∃ isos, models.mapM (fun rows => isolationMask part (rows.map maskRow)) = some isos ∧
      ((masks.zip models).map fun p => select (p.2.map sharpness) p.1.1) =
        (models.zip isos).map (fun p => Spec.sharpOf true p.1 p.2) ∧
      ((masks.zip models).map fun p => select (p.2.map sharpness) p.1.2) =
        (models.zip isos).map (fun p => Spec.sharpOf false p.1 p.2) ∧
      (masks.map fun p => p.1.count true) = (models.zip isos).map (fun p => (Spec.sharpOf true p.1 p.2).length) ∧
      (masks.map fun p => p.2.count true) = (models.zip isos).map (fun p => (Spec.sharpOf false p.1 p.2).length) := by
  induction models generalizing masks with
  | nil => simp at h; subst h; exact ⟨[], rfl, rfl, rfl, rfl, rfl⟩
  | cons rows models ih =>
    simp only [List.mapM_cons, Option.bind_eq_bind, Option.bind_eq_some_iff, Option.pure_def, Option.some.injEq] at h
    obtain ⟨⟨a, b⟩, h1, ms, h2, rfl⟩ := h
    obtain ⟨isos, h3, e1, e2, e3, e4⟩ := ih ms h2
    obtain ⟨iso, h4, f1, f2, f3, f4⟩ := sharp_one part hp rows a b h1
    refine ⟨iso :: isos, by simp [h3, h4], ?_, ?_, ?_, ?_⟩
    · simp [e1, f1]
    · simp [e2, f2]
    · simp [e3, f3]
    · simp [e4, f4]

/-- **C114.** The figure data: the sharpness values of the isolated (and of the other) stable and valid triads, model after
model; the full data set is the first followed by the second, so none is lost or counted twice; the counts shown per model are
the numbers of those values. -/
theorem C114_sharpness_data (part : List ℝ → ℕ × ℕ) (hp : PartOK part) (models : List (List Triad)) (D : SharpnessData)
    (h : sharpnessData part models = some D) :
    ∃ isos, models.mapM (fun rows => isolationMask part (rows.map maskRow)) = some isos ∧ models ≠ [] ∧
      D.isolated = ((models.zip isos).map fun p => Spec.sharpOf true p.1 p.2).flatten ∧
      D.notIsolated = ((models.zip isos).map fun p => Spec.sharpOf false p.1 p.2).flatten ∧
      D.all = D.isolated ++ D.notIsolated ∧
      D.countIsolated = (models.zip isos).map (fun p => (Spec.sharpOf true p.1 p.2).length) ∧
      D.countNot = (models.zip isos).map (fun p => (Spec.sharpOf false p.1 p.2).length) ∧
      D.all.length = D.countIsolated.sum + D.countNot.sum := by
  unfold sharpnessData at h
  simp only [Option.bind_eq_bind, Option.bind_eq_some_iff, Option.pure_def, Option.some.injEq] at h
  obtain ⟨masks, hm, iso, h1, no, h2, all, h3, rfl⟩ := h
  obtain ⟨isos, hi, e1, e2, e3, e4⟩ := sharp_list part hp models masks hm
  rw [e1] at h1
  rw [e2] at h2
  unfold concatenate at h1 h2 h3
  split at h1
  · cases h1
  rename_i hne
  split at h2
  · cases h2
  cases h1
  cases h2
  simp only [List.isEmpty_cons, Bool.false_eq_true, if_false, Option.some.injEq] at h3
  subst h3
  refine ⟨isos, hi, ?_, rfl, rfl, by simp, e3, e4, ?_⟩
  · rintro rfl; simp at hne
  · simp only [e3, e4, List.flatten_cons, List.flatten_nil, List.append_nil, List.length_append, List.length_flatten,
      List.map_map, Function.comp_def]

/-- The hypotheses of C112-C114 hold for a model of one triad, with some admissible partition. -/
example : ∃ part : List ℝ → ℕ × ℕ, PartOK part ∧ store part [sampleQ] = some sampleDict ∧
    ∃ D, sharpnessData part [[sampleQ]] = some D := by
  obtain ⟨part, hp⟩ := Mask.partOK_exists (K := ℝ)
  refine ⟨part, hp, sample_dict part, ?_⟩
  have h : isolationMask part ([sampleQ].map maskRow) = some sampleDict.iso := by
    have := sample_dict part
    obtain ⟨_, s, v, i, _, _, h3, _, _, h4, _⟩ := store_eq part hp _ _ this
    rw [h4, h3]
  simp only [List.map_cons, List.map_nil] at h
  simp [sharpnessData, Mask.isolatedMasks, h, concatenate]

/-! ### C115: removal of harmonics -/

/-- The daughters are one and the same mode: same radial order, degree (through `k`) and azimuthal order. -/
def Spec.Harmonic (k m : Fin 3 → ℤ) (t : Triad) : Prop := t.radOrd 1 = t.radOrd 2 ∧ k 1 = k 2 ∧ m 1 = m 2

/-- **C115.** If the daughters have the same `k` and `m` the overview masks together hold exactly the stable triads that are
not harmonics. -/
theorem C115_harmonics_partial (part : List ℝ → ℕ × ℕ) (hp : PartOK part) (rows : List Triad) (a b c : List Bool)
    (h : Mask.overviewMasks part (rows.map maskRow) = some (a, b, c)) (k m : Fin 3 → ℤ) (hk : k 1 = k 2) (hm : m 1 = m 2)
    (i : ℕ) (t : Triad) (ht : rows[i]? = some t) :
    (a[i]? = some true ∨ b[i]? = some true ∨ c[i]? = some true) ↔ Spec.Stable t ∧ ¬ Spec.Harmonic k m t := by
  obtain ⟨x, y, z, h1, h2, h3, _, _, _, hx, _⟩ := Mask.C36_overview_masks_partition part hp _ a b c h i (maskRow t) (by simp [ht])
  rw [h1, h2, h3]
  simp only [Option.some.injEq]
  rw [hx, stable_row]
  simp [Spec.Harmonic, hk, hm, maskRow]

/-- **C115.** (What fails.) Two different daughter modes (other `k` or `m`) with equal radial orders: whatever the data, the
triad is in none of the masks although it is no harmonic. -/
theorem C115_distinct_removed_wrong (part : List ℝ → ℕ × ℕ) (hp : PartOK part) (rows : List Triad) (a b c : List Bool)
    (h : Mask.overviewMasks part (rows.map maskRow) = some (a, b, c)) (k m : Fin 3 → ℤ) (hkm : k 1 ≠ k 2 ∨ m 1 ≠ m 2)
    (i : ℕ) (t : Triad) (ht : rows[i]? = some t) (hr : t.radOrd 1 = t.radOrd 2) :
    ¬ Spec.Harmonic k m t ∧ a[i]? = some false ∧ b[i]? = some false ∧ c[i]? = some false := by
  obtain ⟨x, y, z, h1, h2, h3, _, _, _, hx, _⟩ := Mask.C36_overview_masks_partition part hp _ a b c h i (maskRow t) (by simp [ht])
  have : ¬ (x = true ∨ y = true ∨ z = true) := by rw [hx]; simp [maskRow, hr]
  rw [h1, h2, h3]
  refine ⟨fun hh => by obtain ⟨_, h1, h2⟩ := hh; tauto, ?_⟩
  simpa [not_or] using this

/-- A stable triad of two different daughters, with equal radial orders. -/
def sampleSame : Triad := { sampleQ with radOrd := ![-30, -50, -50], checks := fun _ => true }

/-- **C115.** (What fails.) A table with such a triad. -/
theorem C115_example_wrong (part : List ℝ → ℕ × ℕ) :
    Mask.overviewMasks part ([sampleSame].map maskRow) = some ([false], [false], [false]) ∧ Spec.Stable sampleSame ∧
      ¬ Spec.Harmonic ![0, 0, 0] ![2, 1, 1] sampleQ ∧ ¬ Spec.Harmonic ![0, 0, 1] ![2, 1, 1] sampleSame := by
  have h1 : threshPpm sampleSame = none := by simp [threshPpm, sampleSame, sampleQ, divideWhere, isnan, nmul]
  refine ⟨?_, by simp [Spec.Stable, sampleSame], by simp [Spec.Harmonic, sampleQ], by simp [Spec.Harmonic]⟩
  have hm : maskRow sampleSame = ⟨-30, -50, -50, none, none, [true, true, true, true, true, true], diffToMin sampleSame, true⟩ := by
    simp [maskRow, h1, List.ofFn_succ]
    simp [sampleQ, sampleSame]
  rw [List.map_cons, List.map_nil, hm]
  have hi : isolationMask part [⟨-30, -50, -50, none, none, [true, true, true, true, true, true], diffToMin sampleSame, true⟩] =
      some [false] := rfl
  simp [Mask.overviewMasks, hi, Mask.stabilityMask, Mask.validityMask, band, bnot]

end
end Verif.Post
