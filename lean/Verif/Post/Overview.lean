import Verif.Post.Counts
/-!
# C162: the overview figure

Model of `aesolver/aeplotter/overview_plot/figure_class.py` (F below), `overview_plot/plot.py` (O) and
`data_files/overview_plot_data.py` (D), on the data of `Post/Model.lean`.  Axes, labels and tick marks are not modelled.
-/
namespace Verif.Post
noncomputable section
open Mask (PartOK isolationMask)

/-- The options of a category (D:15-19, 41-54). -/
structure Category where
  colour : String
  alpha : ℝ
  label : String
  zorder : ℕ

/-- The categories in the order of `get_plot_categories` (D:41-57): the attributes in the order of their assignment. -/
def categories : List Category :=
  [⟨"orange", 1 / 2, "Stab.", 0⟩, ⟨"#91bfdb", 4 / 5, "Stab. + AE", 5⟩, ⟨"k", 1, "Stab. + Val.", 10⟩]

/-- One call of `scatter` (O:89-103, options 51-58). -/
structure Cloud where
  colour : String
  label : String
  zorder : ℕ
  alpha : ℝ
  pts : List (Num × Num)

/-- The frequency of a row after `_perform_frequency_mirroring` and its entry of `neg_mask` (quadratic_plotter.py 718-776); both
columns of the stack are the same.  NaN is not less than zero. -/
def shownFreq (t : Triad) : Num × Bool := match minInertial t with
  | none => (none, false)
  | some f => (some (mirror f).1, (mirror f).2)

/-- The two elements of a row in the arrays of frequencies, ratios and signs (F:85-99). -/
def rowElems (t : Triad) : List ((Num × Num) × Bool) :=
  [(((shownFreq t).1, (ampRatios t).1), (shownFreq t).2), (((shownFreq t).1, (ampRatios t).2.1), (shownFreq t).2)]

/-- The loop body O:82-103: rows selected by the mask of the category, then elements by the sign. -/
def clouds (rows : List Triad) (c : Category) (mask : List Bool) : List Cloud :=
  let elems := (select rows mask).flatMap rowElems
  let cloud (factor : ℝ) (neg : Bool) : Cloud :=
    ⟨c.colour, c.label, c.zorder, factor * c.alpha, (elems.filter fun e => e.2 == neg).map (·.1)⟩
  [cloud 1 false, cloud (5 / 1000) true]

/-- `OverviewFigure` and `plot_predicted_data_on_target_figure` (F:34-99, O:62-103), after
`_get_overview_plotting_masks` (quadratic_plotter.py 779-795). -/
def overviewFigure (part : List ℝ → ℕ × ℕ) (models : List (List Triad)) : Option (List Cloud) := do
  let masks ← models.mapM fun rows => Mask.overviewMasks part (rows.map maskRow)
  let stable ← concatenate (masks.map (·.1))
  let aeStable ← concatenate (masks.map (·.2.1))
  let stableValid ← concatenate (masks.map (·.2.2))
  let rows ← concatenate models
  pure ((categories.zip [stable, aeStable, stableValid]).flatMap fun p => clouds rows p.1 p.2)

/-- `_create_legend_for_figure` (O:128-140): positions and labels of the entries. -/
def legendEntries (labels : List String) : List (ℕ × String) :=
  ((List.range labels.length).zip labels).filter fun p => p.2 ∉ labels.take p.1

/-! ### Specification -/

/-- The category of a triad, given whether it is isolated: stable but not valid, stable and valid but not isolated, all three. -/
def Spec.InCategory (j : Fin 3) (t : Triad) (iso : Bool) : Prop :=
  Spec.Stable t ∧ t.radOrd 1 ≠ t.radOrd 2 ∧
    (match j with
    | 0 => ¬ Spec.Valid t
    | 1 => Spec.Valid t ∧ iso = false
    | 2 => Spec.Valid t ∧ iso = true)

/-- Name, colour and opacity of the categories. -/
def Spec.look (j : Fin 3) : String × String × ℝ := match j with
  | 0 => ("Stab.", "orange", 0.5)
  | 1 => ("Stab. + AE", "#91bfdb", 0.8)
  | 2 => ("Stab. + Val.", "k", 1)

open Classical in
/-- The points of a triad in a category, `neg` telling whether the smallest frequency is negative: two points at the shown
frequency, one for each luminosity ratio. -/
def Spec.pointsOf (j : Fin 3) (neg : Bool) (t : Triad) (iso : Bool) : List (Num × Num) :=
  if Spec.InCategory j t iso ∧ (neg = true ↔ ∃ f, minInertial t = some f ∧ f < 0) then
    [((shownFreq t).1, (ampRatios t).1), ((shownFreq t).1, (ampRatios t).2.1)] else []

/-- The points of the triads of a model. -/
def Spec.points (j : Fin 3) (neg : Bool) (rows : List Triad) (iso : List Bool) : List (Num × Num) :=
  (rows.zip iso).flatMap fun p => Spec.pointsOf j neg p.1 p.2

/-! ### Proofs -/

theorem neg_iff (t : Triad) : (shownFreq t).2 = true ↔ ∃ f, minInertial t = some f ∧ f < 0 := by
  unfold shownFreq
  cases h : minInertial t with
  | none => simp
  | some f =>
    show (mirror f).2 = true ↔ _
    rw [(C110_alias_partial f).1]
    simp

theorem select_append {α : Type} (l l' : List α) (m m' : List Bool) (h : l.length = m.length) :
    select (l ++ l') (m ++ m') = select l m ++ select l' m' := by
  unfold select
  rw [List.zip_append h, List.filter_append, List.map_append]

theorem elems_points (j : Fin 3) (neg : Bool) (rows : List Triad) (iso mask : List Bool) (hl : mask.length = rows.length)
    (hl' : iso.length = rows.length)
    (h : ∀ (i : ℕ) (t : Triad) (b : Bool), rows[i]? = some t → iso[i]? = some b → (mask[i]? = some true ↔ Spec.InCategory j t b)) :
    (((select rows mask).flatMap rowElems).filter fun e => e.2 == neg).map (·.1) = Spec.points j neg rows iso := by
  classical
  induction rows generalizing iso mask with
  | nil => simp [select, Spec.points]
  | cons t rows ih =>
    cases mask with
    | nil => simp at hl
    | cons m mask =>
      cases iso with
      | nil => simp at hl'
      | cons b iso =>
        have h0 := h 0 t b rfl rfl
        have hrest := ih iso mask (by simpa using hl) (by simpa using hl') (fun i t b h1 h2 => h (i + 1) t b h1 h2)
        have hsel : select (t :: rows) (m :: mask) = (if m then [t] else []) ++ select rows mask := by
          unfold select
          cases m <;> simp
        have hpts : Spec.points j neg (t :: rows) (b :: iso) = Spec.pointsOf j neg t b ++ Spec.points j neg rows iso := by
          unfold Spec.points
          rw [List.zip_cons_cons, List.flatMap_cons]
        rw [hsel, hpts, List.flatMap_append, List.filter_append, List.map_append, hrest]
        congr 1
        simp only [List.getElem?_cons_zero, Option.some.injEq] at h0
        unfold Spec.pointsOf
        simp only [← neg_iff t, ← h0]
        cases m
        · simp
        · cases hn : (shownFreq t).2 <;> cases neg <;> simp [rowElems, hn]

theorem category_logic (x y z v : Bool) (S V R : Prop) (hxy : ¬ (x = true ∧ y = true)) (hxz : ¬ (x = true ∧ z = true))
    (hyz : ¬ (y = true ∧ z = true)) (hx : x = true ∨ y = true ∨ z = true ↔ S ∧ R) (hyz' : y = true ∨ z = true ↔ S ∧ V ∧ R)
    (hz : z = true ↔ S ∧ V ∧ R ∧ v = true) :
    (x = true ↔ S ∧ R ∧ ¬ V) ∧ (y = true ↔ S ∧ R ∧ V ∧ v = false) ∧ (z = true ↔ S ∧ R ∧ V ∧ v = true) := by
  revert hxy hxz hyz hx hyz' hz
  by_cases hS : S <;> by_cases hV : V <;> by_cases hR : R <;> cases x <;> cases y <;> cases z <;> cases v <;>
    simp [hS, hV, hR]

theorem overview_one (part : List ℝ → ℕ × ℕ) (hp : PartOK part) (rows : List Triad) (a b c : List Bool)
    (h : Mask.overviewMasks part (rows.map maskRow) = some (a, b, c)) :
    ∃ iso, isolationMask part (rows.map maskRow) = some iso ∧ iso.length = rows.length ∧
      ∀ j : Fin 3, (![a, b, c] j).length = rows.length ∧
        ∀ (i : ℕ) (t : Triad) (v : Bool), rows[i]? = some t → iso[i]? = some v → ((![a, b, c] j)[i]? = some true ↔ Spec.InCategory j t v) := by
  cases hi : isolationMask part (rows.map maskRow) with
  | none => simp [Mask.overviewMasks, hi] at h
  | some iso =>
    obtain ⟨f, rfl, _⟩ := Mask.isolation_rows part hp _ iso hi
    have hcopy := h
    simp only [Mask.overviewMasks, hi, Option.bind_eq_bind, Option.bind_some, Option.pure_def, Option.some.injEq, Prod.mk.injEq,
      Mask.stabilityMask, Mask.validityMask, List.map_map, bnot_map', band_map', Function.comp_def] at hcopy
    obtain ⟨ha, hb, hc⟩ := hcopy
    refine ⟨_, rfl, by simp, fun j => ⟨?_, fun i t v ht hv => ?_⟩⟩
    · fin_cases j
      · simp [← ha]
      · simp [← hb]
      · simp [← hc]
    · obtain ⟨x, y, z, h1, h2, h3, hxy, hxz, hyz, hx, hyz', iso', hi', hz⟩ :=
        Mask.C36_overview_masks_partition part hp _ a b c h i (maskRow t) (by simp [ht])
      rw [hi] at hi'
      cases hi'
      rw [stable_row] at hx hyz' hz
      rw [valid_row] at hyz' hz
      have hh : (maskRow t).harmonic = false ↔ t.radOrd 1 ≠ t.radOrd 2 := by simp [maskRow]
      rw [hh] at hx hyz' hz
      have hv' : (List.map f (List.map maskRow rows))[i]? = some true ↔ v = true := by
        rw [hv]; simp
      rw [hv'] at hz
      have k0 : Spec.InCategory 0 t v ↔ Spec.Stable t ∧ t.radOrd 1 ≠ t.radOrd 2 ∧ ¬ Spec.Valid t := Iff.rfl
      have k1 : Spec.InCategory 1 t v ↔ Spec.Stable t ∧ t.radOrd 1 ≠ t.radOrd 2 ∧ Spec.Valid t ∧ v = false := Iff.rfl
      have k2 : Spec.InCategory 2 t v ↔ Spec.Stable t ∧ t.radOrd 1 ≠ t.radOrd 2 ∧ Spec.Valid t ∧ v = true := Iff.rfl
      obtain ⟨g0, g1, g2⟩ := category_logic x y z v _ _ _ hxy hxz hyz hx hyz' hz
      fin_cases j
      · show a[i]? = some true ↔ _
        rw [h1, Option.some.injEq]; exact g0.trans k0.symm
      · show b[i]? = some true ↔ _
        rw [h2, Option.some.injEq]; exact g1.trans k1.symm
      · show c[i]? = some true ↔ _
        rw [h3, Option.some.injEq]; exact g2.trans k2.symm

theorem overview_list (part : List ℝ → ℕ × ℕ) (hp : PartOK part) (models : List (List Triad))
    (masks : List (List Bool × List Bool × List Bool))
    (h : models.mapM (fun rows => Mask.overviewMasks part (rows.map maskRow)) = some masks) :
    ∃ isos, models.mapM (fun rows => isolationMask part (rows.map maskRow)) = some isos ∧
      isos.flatten.length = models.flatten.length ∧
      (∀ (j : Fin 3) neg, ((models.zip isos).flatMap fun p => Spec.points j neg p.1 p.2) =
        ((((select models.flatten (![(masks.map (·.1)).flatten, (masks.map (·.2.1)).flatten, (masks.map (·.2.2)).flatten] j)).flatMap
          rowElems).filter fun e => e.2 == neg).map (·.1))) := by
  induction models generalizing masks with
  | nil => simp at h; subst h; exact ⟨[], rfl, rfl, fun j neg => by simp [select]⟩
  | cons rows models ih =>
    simp only [List.mapM_cons, Option.bind_eq_bind, Option.bind_eq_some_iff, Option.pure_def, Option.some.injEq] at h
    obtain ⟨⟨a, b, c⟩, h1, ms, h2, rfl⟩ := h
    obtain ⟨isos, h3, e1, e2⟩ := ih ms h2
    obtain ⟨iso, h4, f1, f2⟩ := overview_one part hp rows a b c h1
    refine ⟨iso :: isos, by simp [h3, h4], by rw [List.flatten_cons, List.flatten_cons, List.length_append, List.length_append, e1, f1], fun j neg => ?_⟩
    rw [List.zip_cons_cons, List.flatMap_cons, e2 j neg, ← elems_points j neg rows iso (![a, b, c] j) (f2 j).1 f1 (f2 j).2,
      ← List.map_append, ← List.filter_append, ← List.flatMap_append, ← select_append _ _ _ _ (f2 j).1.symm]
    congr 4
    fin_cases j <;> simp

/-- **C162.** The figure has six clouds of points, two for each category: the triads of the category, model after model, whose
smallest frequency is not negative with the opacity of the category, the others with 0.005 times that. -/
theorem C162_clouds (part : List ℝ → ℕ × ℕ) (hp : PartOK part) (models : List (List Triad)) (cs : List Cloud)
    (h : overviewFigure part models = some cs) :
    ∃ isos, models.mapM (fun rows => isolationMask part (rows.map maskRow)) = some isos ∧ cs.length = 6 ∧
      ∀ (j : Fin 3) (neg : Bool), ∃ c, cs[2 * (j : ℕ) + (if neg then 1 else 0)]? = some c ∧
        (c.label, c.colour) = ((Spec.look j).1, (Spec.look j).2.1) ∧
        c.alpha = (if neg then 0.005 else 1) * (Spec.look j).2.2 ∧
        c.pts = (models.zip isos).flatMap fun p => Spec.points j neg p.1 p.2 := by
  unfold overviewFigure at h
  simp only [Option.bind_eq_bind, Option.bind_eq_some_iff, Option.pure_def, Option.some.injEq] at h
  obtain ⟨masks, hm, s, h1, ae, h2, sv, h3, rows, h4, rfl⟩ := h
  obtain ⟨isos, hi, -, hpts⟩ := overview_list part hp models masks hm
  unfold concatenate at h1 h2 h3 h4
  split at h1
  · cases h1
  split at h2
  · cases h2
  split at h3
  · cases h3
  split at h4
  · cases h4
  cases h1; cases h2; cases h3; cases h4
  refine ⟨isos, hi, rfl, fun j neg => ?_⟩
  fin_cases j <;> cases neg
  · exact ⟨_, rfl, rfl, by norm_num [Spec.look], (hpts 0 false).symm⟩
  · exact ⟨_, rfl, rfl, by norm_num [Spec.look], (hpts 0 true).symm⟩
  · exact ⟨_, rfl, rfl, by norm_num [Spec.look], (hpts 1 false).symm⟩
  · exact ⟨_, rfl, rfl, by norm_num [Spec.look], (hpts 1 true).symm⟩
  · exact ⟨_, rfl, rfl, by norm_num [Spec.look], (hpts 2 false).symm⟩
  · exact ⟨_, rfl, rfl, by norm_num [Spec.look], (hpts 2 true).symm⟩

open Classical in
/-- **C162.** No triad is lost or drawn twice: the numbers of points of the six clouds add up to twice the number of stable
triads with daughters of different radial order. -/
theorem C162_none_lost (part : List ℝ → ℕ × ℕ) (hp : PartOK part) (models : List (List Triad)) (cs : List Cloud)
    (h : overviewFigure part models = some cs) :
    (cs.map fun c => c.pts.length).sum =
      2 * (models.flatten.filter fun t => decide (Spec.Stable t ∧ t.radOrd 1 ≠ t.radOrd 2)).length := by
  obtain ⟨isos, hi, hl, hc⟩ := C162_clouds part hp models cs h
  have hsum : (cs.map fun c => c.pts.length).sum =
      (List.ofFn fun j : Fin 3 => ((models.zip isos).flatMap fun p => Spec.points j false p.1 p.2).length +
        ((models.zip isos).flatMap fun p => Spec.points j true p.1 p.2).length).sum := by
    obtain ⟨c0, a0, -, -, e0⟩ := hc 0 false
    obtain ⟨c1, a1, -, -, e1⟩ := hc 0 true
    obtain ⟨c2, a2, -, -, e2⟩ := hc 1 false
    obtain ⟨c3, a3, -, -, e3⟩ := hc 1 true
    obtain ⟨c4, a4, -, -, e4⟩ := hc 2 false
    obtain ⟨c5, a5, -, -, e5⟩ := hc 2 true
    have : cs = [c0, c1, c2, c3, c4, c5] := by
      refine List.ext_getElem? fun i => ?_
      match i with
      | 0 => exact a0
      | 1 => exact a1
      | 2 => exact a2
      | 3 => exact a3
      | 4 => exact a4
      | 5 => exact a5
      | i + 6 => rw [List.getElem?_eq_none (by omega)]; rfl
    rw [this]
    simp only [List.map_cons, List.map_nil, List.sum_cons, List.sum_nil, List.ofFn_succ, List.ofFn_zero, e0, e1, e2, e3, e4, e5]
    show _ = _ + (_ + (_ + 0))
    simp only [Fin.succ_zero_eq_one, show (Fin.succ (1 : Fin 2) : Fin 3) = 2 from rfl]
    omega
  rw [hsum]
  have hlen : ∀ rows iso, isolationMask part (List.map maskRow rows) = some iso → iso.length = rows.length := by
    intro rows iso hi
    obtain ⟨f, rfl, _⟩ := Mask.isolation_rows part hp _ iso hi
    simp
  clear hsum hc hl h
  have one : ∀ (t : Triad) (b : Bool), (List.ofFn fun j : Fin 3 => (Spec.pointsOf j false t b).length +
      (Spec.pointsOf j true t b).length).sum = if Spec.Stable t ∧ t.radOrd 1 ≠ t.radOrd 2 then 2 else 0 := by
    intro t b
    have k0 : Spec.InCategory 0 t b ↔ Spec.Stable t ∧ t.radOrd 1 ≠ t.radOrd 2 ∧ ¬ Spec.Valid t := Iff.rfl
    have k1 : Spec.InCategory 1 t b ↔ Spec.Stable t ∧ t.radOrd 1 ≠ t.radOrd 2 ∧ Spec.Valid t ∧ b = false := Iff.rfl
    have k2 : Spec.InCategory 2 t b ↔ Spec.Stable t ∧ t.radOrd 1 ≠ t.radOrd 2 ∧ Spec.Valid t ∧ b = true := Iff.rfl
    simp only [List.ofFn_succ, List.ofFn_zero, List.sum_cons, List.sum_nil, Fin.succ_zero_eq_one,
      show (Fin.succ (1 : Fin 2) : Fin 3) = 2 from rfl, Spec.pointsOf, k0, k1, k2]
    by_cases hs : Spec.Stable t <;> by_cases hr : t.radOrd 1 = t.radOrd 2 <;> by_cases hv : Spec.Valid t <;>
      by_cases hn : (∃ f, minInertial t = some f ∧ f < 0) <;> cases b <;> simp [hs, hr, hv, hn]
  have rowsum : ∀ (rows : List Triad) (iso : List Bool), iso.length = rows.length →
      (List.ofFn fun j : Fin 3 => (Spec.points j false rows iso).length + (Spec.points j true rows iso).length).sum =
        2 * (rows.filter fun t => decide (Spec.Stable t ∧ t.radOrd 1 ≠ t.radOrd 2)).length := by
    intro rows
    induction rows with
    | nil => intro iso _; simp [Spec.points]
    | cons t rows ih =>
      intro iso hl
      cases iso with
      | nil => simp at hl
      | cons b iso =>
        have h1 := ih iso (by simpa using hl)
        have h2 := one t b
        simp only [List.ofFn_succ, List.ofFn_zero, List.sum_cons, List.sum_nil] at h1 h2 ⊢
        simp only [Spec.points, List.zip_cons_cons, List.flatMap_cons, List.length_append] at h1 h2 ⊢
        rw [List.filter_cons]
        split
        · rename_i hc
          rw [if_pos (of_decide_eq_true hc)] at h2
          rw [List.length_cons]
          omega
        · rename_i hc
          rw [if_neg (by simpa using hc)] at h2
          omega
  induction models generalizing isos with
  | nil => simp
  | cons rows models ih =>
    simp only [List.mapM_cons, Option.bind_eq_bind, Option.bind_eq_some_iff, Option.pure_def, Option.some.injEq] at hi
    obtain ⟨iso, h1, is, h2, rfl⟩ := hi
    have e1 := ih is h2
    have e2 := rowsum rows iso (hlen rows iso h1)
    simp only [List.ofFn_succ, List.ofFn_zero, List.sum_cons, List.sum_nil] at e1 e2 ⊢
    simp only [List.zip_cons_cons, List.flatMap_cons, List.length_append, List.flatten_cons, List.filter_append] at e1 e2 ⊢
    omega

/-- **C162.** The shown frequency is the smallest of the three shifted frequencies when that is not negative; a negative one is
shown at an alias between 0 and the Nyquist frequency when it is above minus twice that frequency, and a triad without frequency
is not shown. -/
theorem C162_shown_frequency (t : Triad) :
    (minInertial t = none → shownFreq t = (none, false)) ∧
      (∀ f, minInertial t = some f → 0 ≤ f → shownFreq t = (some f, false)) ∧
      ∀ f, minInertial t = some f → f < 0 → -f < 2 * nyquist →
        ∃ g, shownFreq t = (some g, true) ∧ Spec.Alias nyquist f g := by
  refine ⟨fun h => by simp [shownFreq, h], fun f h hf => ?_, fun f h hf hN => ?_⟩
  · obtain ⟨h1, h2, -⟩ := C110_alias_partial f
    have : (mirror f).2 = false := by
      cases hm : (mirror f).2 with
      | false => rfl
      | true => exact absurd (h1.1 hm) (not_lt.2 hf)
    simp [shownFreq, h, h2 hf, this]
  · obtain ⟨h1, -, h3⟩ := C110_alias_partial f
    exact ⟨(mirror f).1, by simp [shownFreq, h, h1.2 hf], h3 hf (Or.inl hN)⟩

/-- **C162.** The legend of any figure lists every label once, for the first cloud that has it. -/
theorem C162_legend (labels : List String) :
    ((legendEntries labels).map (·.2)).Nodup ∧ (∀ l, l ∈ labels → l ∈ (legendEntries labels).map (·.2)) ∧
      ∀ i l, (i, l) ∈ legendEntries labels ↔ labels[i]? = some l ∧ ∀ k < i, labels[k]? ≠ some l := by
  have hmem : ∀ i l, (i, l) ∈ legendEntries labels ↔ labels[i]? = some l ∧ ∀ k < i, labels[k]? ≠ some l := by
    intro i l
    unfold legendEntries
    rw [List.mem_filter]
    have hz : (i, l) ∈ (List.range labels.length).zip labels ↔ labels[i]? = some l := by
      rw [List.mem_iff_getElem?]
      constructor
      · rintro ⟨k, hk⟩
        rw [List.getElem?_zip_eq_some] at hk
        obtain ⟨h1, h2⟩ := hk
        have := (List.getElem?_eq_some_iff.1 h1)
        obtain ⟨hlt, e⟩ := this
        rw [List.getElem_range] at e
        subst e
        exact h2
      · intro h
        refine ⟨i, ?_⟩
        rw [List.getElem?_zip_eq_some]
        exact ⟨by rw [List.getElem?_range (List.getElem?_eq_some_iff.1 h).1], h⟩
    rw [hz]
    refine and_congr_right fun _ => ?_
    rw [decide_eq_true_iff, List.mem_take_iff_getElem]
    constructor
    · intro hn k hk he
      obtain ⟨hlt, e⟩ := List.getElem?_eq_some_iff.1 he
      exact hn ⟨k, by omega, e⟩
    · rintro hn ⟨k, hk, e⟩
      exact hn k (by omega) (List.getElem?_eq_some_iff.2 ⟨by omega, e⟩)
  refine ⟨?_, ?_, hmem⟩
  · rw [List.Nodup, List.pairwise_map]
    have hp : (legendEntries labels).Pairwise fun p q => p.1 < q.1 := by
      unfold legendEntries
      refine List.Pairwise.filter _ ?_
      rw [List.pairwise_iff_getElem]
      intro i j hi hj hij
      simpa using hij
    rw [List.pairwise_iff_getElem] at hp ⊢
    intro i j hi hj hij e
    have h1 := (hmem _ _).1 (List.getElem_mem hi : ((legendEntries labels)[i].1, (legendEntries labels)[i].2) ∈ _)
    have h2 := (hmem _ _).1 (List.getElem_mem hj : ((legendEntries labels)[j].1, (legendEntries labels)[j].2) ∈ _)
    exact h2.2 _ (hp i j hi hj hij) (e ▸ h1.1)
  · intro l hl
    obtain ⟨k, hk⟩ := List.mem_iff_getElem?.1 hl
    classical
    have hex : ∃ k, labels[k]? = some l := ⟨k, hk⟩
    exact List.mem_map.2 ⟨(Nat.find hex, l), (hmem _ _).2 ⟨Nat.find_spec hex, fun k hk => Nat.find_min hex hk⟩, rfl⟩

/-- **C162.** In the figure the three labels are shown with the opaque markers. -/
theorem C162_figure_legend (part : List ℝ → ℕ × ℕ) (hp : PartOK part) (models : List (List Triad)) (cs : List Cloud)
    (h : overviewFigure part models = some cs) :
    legendEntries (cs.map (·.label)) = [(0, "Stab."), (2, "Stab. + AE"), (4, "Stab. + Val.")] := by
  obtain ⟨isos, -, hl, hc⟩ := C162_clouds part hp models cs h
  have : cs.map (·.label) = ["Stab.", "Stab.", "Stab. + AE", "Stab. + AE", "Stab. + Val.", "Stab. + Val."] := by
    have get : ∀ (j : Fin 3) (neg : Bool), (cs.map (·.label))[2 * (j : ℕ) + (if neg then 1 else 0)]? = some (Spec.look j).1 := by
      intro j neg
      obtain ⟨c, hc, he, -, -⟩ := hc j neg
      rw [List.getElem?_map, hc, Option.map_some, (Prod.mk.inj he).1]
    refine List.ext_getElem? fun i => ?_
    match i with
    | 0 => exact get 0 false
    | 1 => exact get 0 true
    | 2 => exact get 1 false
    | 3 => exact get 1 true
    | 4 => exact get 2 false
    | 5 => exact get 2 true
    | i + 6 => rw [List.getElem?_eq_none (by rw [List.length_map]; omega)]; rfl
  rw [this]
  decide +kernel

/-- A figure of one model with a stable triad of two different daughters. -/
example : ∃ part : List ℝ → ℕ × ℕ, PartOK part ∧ ∃ cs, overviewFigure part [[{ sampleSame with radOrd := ![-30, -50, -51] }]] = some cs := by
  obtain ⟨part, hp⟩ := Mask.partOK_exists (K := ℝ)
  refine ⟨part, hp, ?_⟩
  have h1 : threshPpm { sampleSame with radOrd := ![-30, -50, -51] } = none := by
    simp [threshPpm, sampleSame, sampleQ, divideWhere, isnan, nmul]
  have hi : ∀ r : Mask.Row ℝ, r.thr = none → isolationMask part [r] = some [false] := by
    rintro ⟨p, d1, d2, thr, surf, checks, od, hm⟩ h
    cases h
    rfl
  have := hi (maskRow { sampleSame with radOrd := ![-30, -50, -51] }) h1
  simp [overviewFigure, Mask.overviewMasks, this, concatenate]

end
end Verif.Post
