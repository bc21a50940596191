import Verif.Jacky.SharpModel
import Verif.Jacky.LogOdd
/-!
# C150: resonance sharpness histograms
-/
namespace Verif.Jacky
open Verif.Hist Verif.Hist.Spec X Spec
open Classical

variable {iso non : List (Option ℝ)} {mn mx : ℝ} {n : Nat} {ss : Search}

/-! ### Specification -/

/-- The absolute sharpness values that are numbers. -/
noncomputable def Spec.sharpness (l : List (Option ℝ)) : List ℝ := (numbers l).map abs

/-- The share (in percent) of the triads of a class whose absolute sharpness lies in bin `i`. -/
noncomputable def Spec.share (cls : List (Option ℝ)) (mn mx : ℝ) (n i : Nat) : ℝ :=
  100 * (cls.countP fun v => decide (∃ x, v = some x ∧ InBin (logEdges mn mx n) i |x|) : Nat) / cls.length

/-! ### Proofs -/

theorem numbers_abs (l : List (Option ℝ)) : numbers (absAll l) = Spec.sharpness l := by
  induction l with
  | nil => rfl
  | cons v t ih =>
    cases v with
    | none => simpa [numbers, absAll, Spec.sharpness] using ih
    | some x =>
      simp only [numbers, absAll, Spec.sharpness, List.map_cons, Option.map_some, List.filterMap_cons, id] at ih ⊢
      rw [ih]

theorem absAll_append (a b : List (Option ℝ)) : absAll (a ++ b) = absAll a ++ absAll b := by simp [absAll]

theorem setup_grid {N : Nat} (hN : 2 ≤ N) : Grid setupAlphas (setupBins (some 100) N) := by
  refine ⟨?_, ⟨10, by simp [setupAlphas], by norm_num⟩, ?_, ?_⟩
  · intro α hα
    simp only [setupAlphas, List.mem_cons, List.not_mem_nil, or_false] at hα
    rcases hα with rfl | rfl | rfl | rfl | rfl <;> norm_num
  · intro n hn
    have := List.mem_range'_1.1 hn
    omega
  · intro h
    have := congrArg List.length h
    simp [setupBins] at this
    omega

theorem mem_setupBins {N : Nat} (hN : 2 ≤ N) : n ∈ setupBins (some 100) N ↔ 2 ≤ n ∧ n ≤ 100 ∧ n ≤ N := by
  rw [setupBins, List.mem_range'_1]
  simp only [Option.getD_some]
  omega

/-- Index of one entry of a class. -/
noncomputable def clsIdx (mn mx : ℝ) (n : Nat) (v : Option ℝ) : Int :=
  v.elim ((n : Int) - 1) fun x => binLog (logEdges mn mx n) |x|

theorem nanPos_fin (e : List ℝ) : nanPos (e.map fin) = e.length := by
  induction e with
  | nil => rfl
  | cons a t ih =>
    rw [nanPos] at ih ⊢
    rw [List.map_cons, List.takeWhile_cons_of_pos (by simp), List.length_cons, ih, List.length_cons]

/-- Counts of a class on the shared edges. -/
theorem probSpecEdges_eq (hs : IsSearch ss) (h0 : 0 < mn) (h1 : mn < mx) (hn : 1 ≤ n) {cls : List (Option ℝ)}
    (hne : cls ≠ []) (hc : ∀ x ∈ Spec.sharpness cls, mn ≤ x ∧ x ≤ mx) :
    probSpecEdges ss (absAll cls) (some ((logEdges mn mx n).map fin)) n =
      .ok (some (tab n fun i => fin (((cls.map (clsIdx mn mx n)).count (i : Int) : ℝ) / cls.length))) ∧
    ∀ i ∈ cls.map (clsIdx mn mx n), 0 ≤ i ∧ i < (n : Int) := by
  have hlen : ((logEdges mn mx n).map fin).length - 1 = n := by simp [logEdges]
  have hcl : (absAll cls).length = cls.length := by simp [absAll]
  have hcl0 : cls.length ≠ 0 := by simpa using hne
  have hmem : ∀ x, some x ∈ cls → mn ≤ |x| ∧ |x| ≤ mx := by
    intro x hx
    refine hc _ (List.mem_map.2 ⟨x, ?_, rfl⟩)
    exact List.mem_filterMap.2 ⟨some x, hx, rfl⟩
  have hrange : ∀ i ∈ cls.map (clsIdx mn mx n), 0 ≤ i ∧ i < (n : Int) := by
    intro i hi
    obtain ⟨v, hv, rfl⟩ := List.mem_map.1 hi
    cases v with
    | none => simp only [clsIdx, Option.elim_none]; omega
    | some x =>
      have := binLog_range _ (layout_logEdges h0 h1 hn) [|x|]
        (by intro y hy; rw [List.mem_singleton.1 hy]; exact covers_logEdges h0 hn (hmem x hv).1 (hmem x hv).2)
        (binLog (logEdges mn mx n) |x|) (by simp)
      have hl : (logEdges mn mx n).length - 1 = n := by simp [logEdges]
      rw [hl] at this
      exact this
  have hidx : ((absAll cls).map fun v => guardIdx (((logEdges mn mx n).map fin).length - 1)
      (v.elim (nanPos ((logEdges mn mx n).map fin)) (ss ((logEdges mn mx n).map fin)))) =
      cls.map (clsIdx mn mx n) := by
    rw [hlen, absAll, List.map_map]
    apply List.map_congr_left
    intro v _
    cases v with
    | none =>
      simp only [Function.comp, Option.map_none, Option.elim_none, nanPos_fin, clsIdx, guardIdx, logEdges, length_tab]
      push_cast
      split_ifs <;> omega
    | some x =>
      simp only [Function.comp, Option.map_some, Option.elim_some, clsIdx]
      rw [hs.sorted _ _ (pairwise_le_of_layout (layout_logEdges h0 h1 hn)), guardIdx_eq hn]
  obtain ⟨c, e1, e2, e3, e4, _, e5⟩ := bincount_spec (cls.map (clsIdx mn mx n)) n n hrange
  have hlc : c.length = n := by rw [max_self] at e4; omega
  have hct : c = tab n fun i => (cls.map (clsIdx mn mx n)).count (i : Int) := by
    apply List.ext_getElem
    · simp [hlc]
    · intro i g1 g2
      have h := e5 i
      rw [List.getD_eq_getElem?_getD, List.getElem?_eq_getElem g1] at h
      rw [getElem_tab]
      simpa using h
  refine ⟨?_, hrange⟩
  unfold probSpecEdges
  dsimp only
  rw [if_neg (by rw [hcl]; exact hcl0), hidx, e1]
  dsimp only
  rw [hct, hcl]
  simp only [tab, List.map_map]
  congr 2
  apply List.map_congr_left
  intro i _
  simp only [Function.comp]
  rw [div_fin (by exact_mod_cast hcl0)]

/-- The heights of a class. -/
noncomputable def clsBars (mn mx : ℝ) (n : Nat) (cls : List (Option ℝ)) : Option (List X) :=
  if cls = [] then none
  else some (tab n fun i => fin (((cls.map (clsIdx mn mx n)).count (i : Int) : ℝ) / cls.length))

theorem two_le {l : List (Option ℝ)} (hr : PosRange (numbers l) mn mx) : 2 ≤ l.length := by
  have h1 : (numbers l).length ≤ l.length := List.length_filterMap_le _ _
  obtain ⟨⟨h2, h3, _, h4⟩, _⟩ := hr
  rcases hl : numbers l with _ | ⟨a, _ | ⟨b, t⟩⟩
  · rw [hl] at h2; simp at h2
  · rw [hl] at h2 h3
    rw [List.mem_singleton.1 h2, List.mem_singleton.1 h3] at h4
    exact absurd h4 (lt_irrefl _)
  · rw [hl] at h1
    simp only [List.length_cons] at h1
    omega

theorem probSpecEdges_cls (hs : IsSearch ss) (h0 : 0 < mn) (h1 : mn < mx) (hn : 1 ≤ n) {cls : List (Option ℝ)}
    (hc : ∀ x ∈ Spec.sharpness cls, mn ≤ x ∧ x ≤ mx) :
    probSpecEdges ss (absAll cls) (some ((logEdges mn mx n).map fin)) n = .ok (clsBars mn mx n cls) := by
  rw [clsBars]
  split_ifs with h
  · subst h; rfl
  · exact (probSpecEdges_eq hs h0 h1 hn h hc).1

theorem sharpFigure_ok (hs : IsSearch ss) (hr : PosRange (Spec.sharpness (iso ++ non)) mn mx) :
    ∃ c ∈ grid setupAlphas (setupBins (some 100) (iso ++ non).length),
      FirstMax (grid setupAlphas (setupBins (some 100) (iso ++ non).length))
        (logScore (Spec.sharpness (iso ++ non)) mn mx) c ∧
      sharpFigure ss iso non = .ok ⟨some ((logEdges mn mx c.2).map fin),
        some (.arr (tab c.2 fun i => fin (logWidth mn mx c.2 i))), clsBars mn mx c.2 iso, clsBars mn mx c.2 non⟩ := by
  have hlen : (absAll (iso ++ non)).length = (iso ++ non).length := by simp [absAll]
  have hr' : PosRange (numbers (absAll (iso ++ non))) mn mx := by rw [numbers_abs]; exact hr
  have h2 := two_le hr'
  rw [hlen] at h2
  have hg := setup_grid h2
  obtain ⟨c, hc, hf, h⟩ := entry_ok (ss := ss) (data := absAll (iso ++ non)) (as := setupAlphas)
    (bs := setupBins (some 100) (iso ++ non).length) (o := sharpOpts false true)
    (Or.inr ⟨rfl, [0], by simp, rfl⟩) (Or.inr ⟨Or.inr (Or.inr rfl), rfl⟩) hs hr' hg rfl
    (fun n => Or.inr (Or.inr ⟨rfl, rfl⟩))
  have hn : 1 ≤ c.2 := hg.binsPos _ (mem_grid.1 hc).2
  have hf' := firstMax_congr (fun c hc => logVal_score hr' (hg.binsPos _ (mem_grid.1 hc).2)) hf
  rw [numbers_abs] at hf'
  refine ⟨c, hc, hf', ?_⟩
  have hcov : ∀ x ∈ Spec.sharpness (iso ++ non), mn ≤ x ∧ x ≤ mx := hr.1.2.2.1
  have hin : ∀ cls, (cls = iso ∨ cls = non) → ∀ x ∈ Spec.sharpness cls, mn ≤ x ∧ x ≤ mx := by
    intro cls hcls x hx
    apply hcov
    simp only [Spec.sharpness, numbers, List.filterMap_append, List.map_append, List.mem_append] at hx ⊢
    rcases hcls with rfl | rfl
    · exact Or.inl hx
    · exact Or.inr hx
  have hhist : sharpHistogram ss (absAll (iso ++ non)) true (some 100) false true =
      likelihoodBlasLog ss (some (absAll (iso ++ non))) (some setupAlphas)
        (some (setupBins (some 100) (iso ++ non).length)) [0] (sharpOpts false true) := by
    rw [sharpHistogram, if_pos (by simp), if_pos rfl, hlen]
  have hedge : (tab (c.2 + 1) fun i => fin (logEdge mn mx c.2 i)) = (logEdges mn mx c.2).map fin := by
    simp only [logEdges, tab, List.map_map]; rfl
  rw [sharpFigure, hhist, h]
  simp only [Except.bind, widthLen, length_tab, hedge, Except.map,
    probSpecEdges_cls hs hr.2 hr.1.2.2.2 hn (hin iso (Or.inl rfl)),
    probSpecEdges_cls hs hr.2 hr.1.2.2.2 hn (hin non (Or.inr rfl))]

theorem countP_map_eq {A : Type} (l : List A) (f : A → Int) (i : Nat) (P : A → Prop)
    (h : ∀ a ∈ l, f a = (i : Int) ↔ P a) : (l.map f).count (i : Int) = l.countP fun a => decide (P a) := by
  rw [List.count_eq_countP, List.countP_map]
  apply List.countP_congr
  intro a ha
  simp only [Function.comp, beq_iff_eq, decide_eq_true_eq]
  exact h a ha

/-- What is drawn for one class: midpoints and percentages. -/
theorem drawBars_ok {c : Nat} (f : SharpFigure) (he : f.edges = some ((logEdges mn mx c).map fin))
    (hw : f.width = some (.arr (tab c fun i => fin (logWidth mn mx c i)))) (cls : List (Option ℝ)) (hne : cls ≠ []) :
    drawBars f (percent (clsBars mn mx c cls)) = .ok ((tab c fun i =>
      ((logEdge mn mx c i + logEdge mn mx c (i + 1)) / 2,
        100 * ((cls.map (clsIdx mn mx c)).count (i : Int) : ℝ) / cls.length)).map fun p => (fin p.1, fin p.2)) := by
  have hx : xCoords f = some (tab c fun i => fin ((logEdge mn mx c i + logEdge mn mx c (i + 1)) / 2)) := by
    rw [xCoords, he, Option.map_some]
    congr 1
    apply List.ext_getElem
    · simp [logEdges]
    · intro i h1 h2
      simp only [List.getElem_zipWith, List.getElem_tail, List.getElem_map, logEdges, getElem_tab, add_fin]
      rw [div_fin (by norm_num)]
      congr 1; ring
  have hh : percent (clsBars mn mx c cls) = some (tab c fun i =>
      fin (100 * ((cls.map (clsIdx mn mx c)).count (i : Int) : ℝ) / cls.length)) := by
    rw [percent, clsBars, if_neg hne, Option.map_some]
    simp only [tab, List.map_map]
    congr 1
    apply List.map_congr_left
    intro i _
    simp only [Function.comp, mul_fin]
    congr 1; ring
  unfold drawBars
  rw [hx, hw, hh]
  dsimp only
  rw [if_pos (by simp)]
  congr 1
  simp only [tab, List.map_map]
  rw [List.zip_map']
  rfl

theorem sum_clsIdx (cls : List (Option ℝ)) (hne : cls ≠ [])
    (hr : ∀ i ∈ cls.map (clsIdx mn mx n), 0 ≤ i ∧ i < (n : Int)) :
    (tab n fun i => 100 * ((cls.map (clsIdx mn mx n)).count (i : Int) : ℝ) / cls.length).sum = 100 := by
  have h0 : (cls.length : ℝ) ≠ 0 := by simpa using hne
  have : (fun i : Nat => 100 * ((cls.map (clsIdx mn mx n)).count (i : Int) : ℝ) / cls.length) =
      fun i : Nat => ((cls.map (clsIdx mn mx n)).count (i : Int) : ℝ) * (100 / cls.length) := by
    funext i; ring
  rw [this, sum_tab_mul, sum_tab_cast, sum_tab_count _ _ hr, List.length_map]
  field_simp

/-- C150: the sharpness figure.  The edges are those of the best histogram (2 to 100 bins, not more than
triads) of all absolute values; for each class of triads, the drawn bars are at the midpoints of these bins, their
heights are the shares of the class and sum to 100 %, and nothing is drawn for an empty class.  Missing: values
that are NaN, zero, all equal, or a single one (`C150_nan_wrong`, `C150_zero_wrong`, `C150_equal_wrong`,
`C150_single_wrong`). -/
theorem C150_sharpness_partial (hs : IsSearch ss) (hr : PosRange (Spec.sharpness (iso ++ non)) mn mx)
    (hnan : none ∉ iso ++ non) :
    ∃ α n f, 2 ≤ n ∧ n ≤ 100 ∧ n ≤ (iso ++ non).length ∧
      FirstMax (grid [1 / 100, 1 / 10, 1, 10, 100] (List.range' 2 (min 100 (iso ++ non).length - 1)))
        (logScore (Spec.sharpness (iso ++ non)) mn mx) (α, n) ∧
      sharpFigure ss iso non = .ok f ∧ f.edges = some (tab (n + 1) fun i => fin (logEdge mn mx n i)) ∧
      ∀ cls h, (cls = iso ∧ h = f.isolated ∨ cls = non ∧ h = f.notIsolated) →
        (cls = [] → drawBars f (percent h) = .ok []) ∧
        (cls ≠ [] → drawBars f (percent h) = .ok ((tab n fun i =>
            ((logEdge mn mx n i + logEdge mn mx n (i + 1)) / 2, Spec.share cls mn mx n i)).map
              fun p => (fin p.1, fin p.2)) ∧
          (tab n (Spec.share cls mn mx n)).sum = 100) := by
  have h2 : 2 ≤ (iso ++ non).length := by
    have := two_le (l := absAll (iso ++ non)) (mn := mn) (mx := mx) (by rw [numbers_abs]; exact hr)
    simpa [absAll] using this
  obtain ⟨⟨α, n⟩, hc, hf, h⟩ := sharpFigure_ok hs hr
  obtain ⟨b1, b2, b3⟩ := (mem_setupBins h2).1 (mem_grid.1 hc).2
  have hn : 1 ≤ n := le_trans (by norm_num) b1
  refine ⟨α, n, _, b1, b2, b3, hf, h, by simp only [logEdges, tab, List.map_map]; rfl, ?_⟩
  intro cls hh hcls
  have hh' : hh = clsBars mn mx n cls := by
    rcases hcls with ⟨rfl, h⟩ | ⟨rfl, h⟩ <;> exact h
  have hsub : ∀ v ∈ cls, v ∈ iso ++ non := by
    intro v hv
    rcases hcls with ⟨rfl, _⟩ | ⟨rfl, _⟩
    · exact List.mem_append_left _ hv
    · exact List.mem_append_right _ hv
  subst hh'
  constructor
  · rintro rfl
    have : clsBars mn mx n [] = none := by rw [clsBars, if_pos rfl]
    rw [this]
    rfl
  · intro hne
    have hcov : ∀ x ∈ Spec.sharpness cls, mn ≤ x ∧ x ≤ mx := by
      intro x hx
      obtain ⟨y, hy, rfl⟩ := List.mem_map.1 hx
      obtain ⟨v, hv, he⟩ := List.mem_filterMap.1 hy
      exact hr.1.2.2.1 _ (List.mem_map.2 ⟨y, List.mem_filterMap.2 ⟨_, hsub _ hv, he⟩, rfl⟩)
    have hrange := (probSpecEdges_eq hs hr.2 hr.1.2.2.2 hn hne hcov).2
    have hshare : ∀ i : Nat, 100 * ((cls.map (clsIdx mn mx n)).count (i : Int) : ℝ) / cls.length =
        Spec.share cls mn mx n i := by
      intro i
      rw [Spec.share, countP_map_eq cls _ i (fun v => ∃ x, v = some x ∧ InBin (logEdges mn mx n) i |x|)]
      · congr!
      intro v hv
      cases v with
      | none => exact absurd (hsub _ hv) hnan
      | some x =>
        have hx : |x| ∈ Spec.sharpness cls := List.mem_map.2 ⟨x, List.mem_filterMap.2 ⟨_, hv, rfl⟩, rfl⟩
        simp only [clsIdx, Option.elim_some, Option.some.injEq, exists_eq_left']
        exact binLog_iff _ (layout_logEdges hr.2 hr.1.2.2.2 hn) _
          (covers_logEdges hr.2 hn (hcov _ hx).1 (hcov _ hx).2) i
    constructor
    · rw [drawBars_ok _ rfl rfl cls hne]
      simp only [hshare]
    · rw [← sum_clsIdx cls hne hrange]
      exact congrArg List.sum (tab_congr _ _ _ fun i _ => (hshare i).symm)

/-- The hypotheses hold for four triads. -/
example : PosRange (Spec.sharpness ([some (-1), some 16] ++ [some 1, some (-4)])) 1 16 ∧
    none ∉ ([some (-1), some 16] ++ [some 1, some (-4)] : List (Option ℝ)) := by
  have h : Spec.sharpness ([some (-1), some 16] ++ [some 1, some (-4)]) = [1, 16, 1, 4] := by
    simp [Spec.sharpness, numbers]
  rw [h]
  refine ⟨⟨⟨by simp, by simp, ?_, by norm_num⟩, by norm_num⟩, by simp⟩
  intro x hx
  simp only [List.mem_cons, List.not_mem_nil, or_false] at hx
  rcases hx with rfl | rfl | rfl | rfl <;> norm_num

/-- The hypotheses of `C150_nan_wrong`, `C150_zero_wrong` and `C150_equal_wrong` hold for three lists. -/
example : PosRange (Spec.sharpness ([some (-1), none] ++ [some 4])) 1 4 ∧
    (some 0 ∈ ([some 0] ++ [some 3] : List (Option ℝ)) ∧ 2 ≤ ([some 0] ++ [some 3] : List (Option ℝ)).length) ∧
    ∀ v ∈ ([some 3] ++ [some (-3)] : List (Option ℝ)), ∃ y, v = some y ∧ |y| = 3 := by
  have h : Spec.sharpness ([some (-1), none] ++ [some 4]) = [1, 4] := by simp [Spec.sharpness, numbers]
  rw [h]
  refine ⟨⟨⟨by simp, by simp, ?_, by norm_num⟩, by norm_num⟩, by simp, by simp⟩
  intro x hx
  simp only [List.mem_cons, List.not_mem_nil, or_false] at hx
  rcases hx with rfl | rfl <;> norm_num

theorem countP_lt {A : Type} (l : List A) (P Q : A → Prop) (h : ∀ a, P a → Q a) (a : A) (ha : a ∈ l) (hq : Q a)
    (hp : ¬ P a) : l.countP (fun a => decide (P a)) < l.countP (fun a => decide (Q a)) := by
  induction l with
  | nil => simp at ha
  | cons b t ih =>
    have hmono : t.countP (fun a => decide (P a)) ≤ t.countP (fun a => decide (Q a)) := by
      apply List.countP_mono_left
      intro v _ hv
      rw [decide_eq_true_eq] at hv ⊢
      exact h v hv
    rcases List.mem_cons.1 ha with rfl | ha
    · rw [List.countP_cons_of_neg (by simpa using hp), List.countP_cons_of_pos (by simpa using hq)]
      omega
    · have := ih ha
      by_cases h1 : P b
      · rw [List.countP_cons_of_pos (by simpa using h1), List.countP_cons_of_pos (by simpa using h b h1)]
        omega
      · rw [List.countP_cons_of_neg (by simpa using h1)]
        exact lt_of_lt_of_le this (List.Sublist.countP_le (List.sublist_cons_self _ _))

/-- C150, refuted for NaN: NaN values of a class are counted in its last bin. -/
theorem C150_nan_wrong (hs : IsSearch ss) (hr : PosRange (Spec.sharpness (iso ++ non)) mn mx) (hnan : none ∈ iso) :
    ∃ n f bars v, sharpFigure ss iso non = .ok f ∧ drawBars f (percent f.isolated) = .ok bars ∧
      bars.getLast? = some v ∧ ∃ h, v.2 = fin h ∧ Spec.share iso mn mx n (n - 1) < h ∧ bars.length = n := by
  have h2 : 2 ≤ (iso ++ non).length := by
    have := two_le (l := absAll (iso ++ non)) (mn := mn) (mx := mx) (by rw [numbers_abs]; exact hr)
    simpa [absAll] using this
  obtain ⟨⟨α, n⟩, hc, hf, h⟩ := sharpFigure_ok hs hr
  obtain ⟨b1, b2, b3⟩ := (mem_setupBins h2).1 (mem_grid.1 hc).2
  have hne : iso ≠ [] := List.ne_nil_of_mem hnan
  obtain ⟨m, rfl⟩ : ∃ m, n = m + 1 := ⟨n - 1, by dsimp only at b1; omega⟩
  have hn : 1 ≤ m + 1 := by omega
  have hcov : ∀ x ∈ Spec.sharpness iso, mn ≤ x ∧ x ≤ mx := by
    intro x hx
    apply hr.1.2.2.1
    simp only [Spec.sharpness, numbers, List.filterMap_append, List.map_append, List.mem_append] at hx ⊢
    exact Or.inl hx
  have hd := drawBars_ok (mn := mn) (mx := mx) (c := m + 1) ⟨some ((logEdges mn mx (m + 1)).map fin),
        some (.arr (tab (m + 1) fun i => fin (logWidth mn mx (m + 1) i))), clsBars mn mx (m + 1) iso,
        clsBars mn mx (m + 1) non⟩ rfl rfl iso hne
  refine ⟨m + 1, _, _, (fin ((logEdge mn mx (m + 1) m + logEdge mn mx (m + 1) (m + 1)) / 2),
    fin (100 * ((iso.map (clsIdx mn mx (m + 1))).count (m : Int) : ℝ) / iso.length)), h, hd, ?_, _, rfl, ?_, by simp⟩
  · simp only [tab, List.range_succ, List.map_append, List.map_cons, List.map_nil]
    rw [List.getLast?_append]
    rfl
  · rw [Spec.share, Nat.add_sub_cancel]
    have hl : (0 : ℝ) < iso.length := by exact_mod_cast List.length_pos_iff.2 hne
    apply div_lt_div_of_pos_right _ hl
    apply mul_lt_mul_of_pos_left _ (by norm_num)
    have : (iso.countP fun v => decide (∃ x, v = some x ∧ InBin (logEdges mn mx (m + 1)) m |x|)) <
        (iso.map (clsIdx mn mx (m + 1))).count (m : Int) := by
      have hall : ∀ v ∈ iso, (clsIdx mn mx (m + 1) v = (m : Int) ↔
          (∃ x, v = some x ∧ InBin (logEdges mn mx (m + 1)) m |x|) ∨ v = none) := by
        intro v hv
        cases v with
        | none => simp [clsIdx]
        | some x =>
          have hx : |x| ∈ Spec.sharpness iso := List.mem_map.2 ⟨x, List.mem_filterMap.2 ⟨_, hv, rfl⟩, rfl⟩
          simp only [clsIdx, Option.elim_some, Option.some.injEq, exists_eq_left', reduceCtorEq, or_false]
          exact binLog_iff _ (layout_logEdges hr.2 hr.1.2.2.2 hn) _
            (covers_logEdges hr.2 hn (hcov _ hx).1 (hcov _ hx).2) m
      rw [countP_map_eq iso _ m _ hall]
      have := countP_lt iso (fun v => ∃ x, v = some x ∧ InBin (logEdges mn mx (m + 1)) m |x|)
        (fun v => (∃ x, v = some x ∧ InBin (logEdges mn mx (m + 1)) m |x|) ∨ v = none) (fun v hv => Or.inl hv) none hnan
        (Or.inr rfl) (by rintro ⟨x, h, _⟩; cases h)
      convert this
    exact_mod_cast this

/-- C150, refuted for one triad: `TypeError`. -/
theorem C150_single_wrong (x : ℝ) (h : iso ++ non = [some x]) :
    sharpFigure ss iso non = .error .typeError := by
  have hd : absAll (iso ++ non) = [some |x|] := by rw [h]; rfl
  have : ∃ r w, sharpHistogram ss (absAll (iso ++ non)) true (some 100) false true = .ok r ∧
      r.width = some (.scalar w) := by
    rw [sharpHistogram, if_pos (by simp), if_pos rfl, hd, likelihoodBlasLog]
    unfold front
    dsimp only
    rw [if_neg (by simp), if_pos (by simp)]
    simp only [sharpOpts, npHistogram, List.mem_singleton, reduceCtorEq, false_or, Nat.one_ne_zero, if_false]
    exact ⟨_, _, rfl, rfl⟩
  obtain ⟨r, w, hr, hw⟩ := this
  rw [sharpFigure, hr]
  show Except.bind (widthLen r.width) _ = _
  rw [hw]
  rfl

/-- C150, refuted for an exact resonance: a sharpness of zero (two triads or more) raises `ValueError`. -/
theorem C150_zero_wrong (hs : IsSearch ss) (h0 : some 0 ∈ iso ++ non) (h2 : 2 ≤ (iso ++ non).length) :
    sharpFigure ss iso non = .error .valueError := by
  have hlen : (absAll (iso ++ non)).length = (iso ++ non).length := by simp [absAll]
  have hz : ∃ x ∈ numbers (absAll (iso ++ non)), x ≤ 0 := by
    rw [numbers_abs]
    exact ⟨|0|, List.mem_map.2 ⟨0, List.mem_filterMap.2 ⟨_, h0, rfl⟩, rfl⟩, by simp⟩
  have := (C149_not_positive (ss := ss) (as := setupAlphas)
    (bs := setupBins (some 100) (iso ++ non).length) (o := sharpOpts false true) hs (by rw [hlen]; exact h2) hz
    (Or.inr ⟨rfl, [0], by simp, rfl⟩)).2 rfl
  have hb : likelihoodBlasLog ss (some (absAll (iso ++ non))) (some setupAlphas)
      (some (setupBins (some 100) (iso ++ non).length)) [0] (sharpOpts false true) = .error .valueError := by
    rcases this with h | ⟨h1, _⟩
    · exact h
    · have := (mem_setupBins h2).1 h1
      omega
  rw [sharpFigure, sharpHistogram, if_pos (by simp), if_pos rfl, hlen, hb]
  rfl

/-- C150, refuted for equal values (two triads or more): three equal edges, bars without width. -/
theorem C150_equal_wrong (hs : IsSearch ss) {x : ℝ} (hx : 0 < x) (h2 : 2 ≤ (iso ++ non).length)
    (hall : ∀ v ∈ iso ++ non, ∃ y, v = some y ∧ |y| = x) :
    ∃ f, sharpFigure ss iso non = .ok f ∧ f.edges = some [fin x, fin x, fin x] ∧
      f.width = some (.arr [fin 0, fin 0]) := by
  have hlen : (absAll (iso ++ non)).length = (iso ++ non).length := by simp [absAll]
  have hnum : numbers (absAll (iso ++ non)) ≠ [] := by
    obtain ⟨v, t, hv⟩ := List.exists_cons_of_ne_nil (show iso ++ non ≠ [] by intro h; rw [h] at h2; simp at h2)
    obtain ⟨y, rfl, _⟩ := hall v (by rw [hv]; simp)
    rw [numbers_abs, hv]
    simp [Spec.sharpness, numbers]
  have heq : ∀ y ∈ numbers (absAll (iso ++ non)), y = x := by
    intro y hy
    rw [numbers_abs] at hy
    obtain ⟨z, hz, rfl⟩ := List.mem_map.1 hy
    obtain ⟨v, hv, he⟩ := List.mem_filterMap.1 hz
    obtain ⟨w, rfl, hw⟩ := hall v hv
    cases he
    exact hw
  have hcs : ∃ t, (combos3 setupAlphas (setupBins (some 100) (iso ++ non).length) [0]).map
      (fun c => (c.1, c.2.1)) = (1 / 100, 2) :: t ∧ ∀ c ∈ t, 0 < c.1 ∧ 2 ≤ c.2 := by
    have hg := setup_grid h2
    have hcons : ∃ bt, setupBins (some 100) (iso ++ non).length = 2 :: bt := by
      obtain ⟨k, hk⟩ : ∃ k, min 100 (iso ++ non).length - 1 = k + 1 :=
        ⟨min 100 (iso ++ non).length - 2, by omega⟩
      exact ⟨_, by rw [setupBins, Option.getD_some, hk, List.range'_succ]⟩
    obtain ⟨bt, hbt⟩ := hcons
    have hall' : ∀ c ∈ (combos3 setupAlphas (setupBins (some 100) (iso ++ non).length) [0]).map
        (fun c => (c.1, c.2.1)), 0 < c.1 ∧ 2 ≤ c.2 := by
      intro c hc
      obtain ⟨c', hc', rfl⟩ := List.mem_map.1 hc
      simp only [combos3, List.mem_flatMap, List.mem_map] at hc'
      obtain ⟨α, hα, n, hn, _, _, rfl⟩ := hc'
      exact ⟨hg.pos _ hα, ((mem_setupBins h2).1 hn).1⟩
    have hex : ∃ t, (combos3 setupAlphas (setupBins (some 100) (iso ++ non).length) [0]).map
        (fun c => (c.1, c.2.1)) = (1 / 100, 2) :: t := by
      rw [hbt, setupAlphas]
      simp only [combos3, List.flatMap_cons, List.map_cons, List.map_nil, List.cons_append, List.nil_append,
        List.map_append]
      exact ⟨_, rfl⟩
    obtain ⟨t, ht⟩ := hex
    exact ⟨t, ht, fun c hc => hall' c (by rw [ht]; exact List.mem_cons_of_mem _ hc)⟩
  obtain ⟨t, ht, htc⟩ := hcs
  have hev : ∀ c : ℝ × Nat, 0 < c.1 → 2 ≤ c.2 →
      evalLog blasLog ss (numbers (absAll (iso ++ non))) c = .ok (pinf, fin c.1, c.2) := fun c h1 h2 =>
    (evalLog_const hs hx hnum heq h1 h2).2.2.2
  have hsl : searchLoop (nan, 0) ((1 / 100, 2) :: t) (evalLog blasLog ss (numbers (absAll (iso ++ non)))) =
      .ok (fin (1 / 100), 2) := by
    rw [searchLoop, List.foldlM_cons, hev _ (by norm_num) le_rfl]
    show Except.map Prod.snd (t.foldlM _ (pinf, fin (1 / 100), 2) : M _) = _
    rw [foldl_keep_top t _ _ (fun a ha => ⟨(pinf, fin a.1, a.2), hev a (htc a ha).1 (htc a ha).2⟩)]
    rfl
  have hc := logCountsEdges_const hs hx hnum heq (le_refl 2)
  have hrun : ∃ r, likelihoodBlasLog ss (some (absAll (iso ++ non))) (some setupAlphas)
      (some (setupBins (some 100) (iso ++ non).length)) [0] (sharpOpts false true) = .ok r ∧
      r.edges = some [fin x, fin x, fin x] ∧ r.width = some (.arr [fin 0, fin 0]) := by
    rw [likelihoodBlasLog, front_two (by rw [hlen]; exact h2) hnum, ht, runLog, if_neg (by simp [sharpOpts]), hsl]
    show ∃ r, finishLog blasLog ss _ _ _ (fin (1 / 100), 2) = .ok r ∧ _
    rw [finishLog, hc]
    have hw := widthsX_const x 2
    simp only [Except.bind, hw]
    exact ⟨_, rfl, rfl, rfl⟩
  obtain ⟨r, hr, he, hw⟩ := hrun
  have hcls : ∀ cls : List (Option ℝ), (∀ v ∈ cls, v ∈ iso ++ non) →
      ∃ b, probSpecEdges ss (absAll cls) (some [fin x, fin x, fin x]) 2 = .ok b := by
    intro cls hcls
    unfold probSpecEdges
    dsimp only
    split_ifs
    · exact ⟨_, rfl⟩
    · have hnn : ((absAll cls).map fun v => guardIdx ([fin x, fin x, fin x].length - 1)
          (v.elim (nanPos [fin x, fin x, fin x]) (ss [fin x, fin x, fin x]))).any (fun i => decide (i < 0)) = false := by
        rw [List.any_eq_false]
        intro i hi
        obtain ⟨v, _, rfl⟩ := List.mem_map.1 hi
        have := guardIdx_nonneg (n := 2) (by norm_num) (v.elim (nanPos [fin x, fin x, fin x]) (ss [fin x, fin x, fin x]))
        simpa using this
      rw [bincount, hnn, if_neg (by simp)]
      exact ⟨_, rfl⟩
  obtain ⟨a, ha⟩ := hcls iso fun v hv => List.mem_append_left _ hv
  obtain ⟨b, hb⟩ := hcls non fun v hv => List.mem_append_right _ hv
  refine ⟨⟨some [fin x, fin x, fin x], some (.arr [fin 0, fin 0]), a, b⟩, ?_, rfl, rfl⟩
  rw [sharpFigure, sharpHistogram, if_pos (by simp), if_pos rfl, hlen, hr]
  have hl2 : ([fin 0, fin 0] : List X).length = 2 := rfl
  simp only [Except.bind, hw, he, widthLen, hl2, ha, hb, Except.map]

/-- C150: without triads nothing is drawn. -/
theorem C150_empty : ∃ f, sharpFigure ss [] [] = .ok f ∧ drawBars f (percent f.isolated) = .ok [] ∧
    drawBars f (percent f.notIsolated) = .ok [] := by
  refine ⟨⟨none, none, none, none⟩, ?_, rfl, rfl⟩
  rw [sharpFigure, sharpHistogram, if_pos (by simp), if_pos rfl, likelihoodBlasLog]
  unfold front
  rfl

/-- C150: asking for probability and density together (or for neither) ends the program. -/
theorem C150_kind (data : List (Option ℝ)) (log : Bool) (m : Option Nat) (b : Bool) :
    sharpHistogram ss data log m b b = .error .sysExit := by
  rw [sharpHistogram, if_neg (by simp)]

end Verif.Jacky
