import Verif.Jacky.Log
/-!
# C147–C149: automatic histograms with bins equally wide in the logarithm
-/
namespace Verif.Jacky
open Verif.Hist Verif.Hist.Spec X Spec
open Classical

/-- A function as described by `IsSearch` exists. -/
theorem exists_search : ∃ ss, IsSearch ss := by
  refine ⟨fun e x => searchLeft (e.filterMap finPart) x, ⟨?_, ?_⟩⟩
  · intro e x _; rw [filterMap_finPart]
  · intro e x
    exact (searchLeft_spec _ x).2.2.trans (List.length_filterMap_le _ _)

/-- An ordinary grid: positive smoothing constants, one of them above 1, positive bin numbers. -/
structure Spec.Grid (alphas : List ℝ) (bins : List Nat) : Prop where
  pos : ∀ α ∈ alphas, 0 < α
  big : ∃ α ∈ alphas, 1 < α
  binsPos : ∀ n ∈ bins, 1 ≤ n
  nonempty : bins ≠ []

variable {data : List (Option ℝ)} {d : List ℝ} {mn mx : ℝ} {as : List ℝ} {bs : List Nat} {o : Opts} {n : Nat}
  {ss : Search}

/-- The bars that each module returns: numexpr divides by the length of the data with NaNs, the density of
blas by the width of the first bin. -/
def Bars (B : LogBackend) (o : Opts) (N len : Nat) (mn mx : ℝ) (n : Nat) (b : Nat → Nat → ℝ) : Prop :=
  ((B = iterLog ∨ B = cythonLog) ∧ b = fun i c => bar o.prob o.dens N (logWidth mn mx n i) c) ∨
  (B = numexprLog ∧ b = fun i c => bar o.prob o.dens len (logWidth mn mx n i) c) ∨
  (B = blasLog ∧ b = fun _ c => bar o.prob o.dens N (logWidth mn mx n 0) c)

theorem norm_ok {B : LogBackend} {N len : Nat} {b : Nat → Nat → ℝ} (hB : Bars B o N len mn mx n b)
    (hr : PosRange d mn mx) (hn : 1 ≤ n) (hN : N ≠ 0) (hL : len ≠ 0) :
    B.norm o (tab n (logCount d mn mx n)) N len (tab n fun i => fin (logWidth mn mx n i)) =
      .ok (tab n fun i => fin (b i (logCount d mn mx n i))) := by
  have hw := fun i => (logWidth_pos hr.2 hr.1.2.2.2 hn i).ne'
  have hN' : (N : ℝ) ≠ 0 := by exact_mod_cast hN
  have hL' : (len : ℝ) ≠ 0 := by exact_mod_cast hL
  have hl : (tab n (logCount d mn mx n)).length = (tab n fun i => fin (logWidth mn mx n i)).length := by simp
  rcases hB with ⟨rfl | rfl, rfl⟩ | ⟨rfl, rfl⟩ | ⟨rfl, rfl⟩
  · simp only [iterLog, bar]
    split_ifs
    · refine congrArg Except.ok ?_
      simp only [tab, List.map_map]
      exact List.map_congr_left fun i _ => by simp only [Function.comp]; rw [div_fin hN']
    · rw [broadcast_eq hl, zipW]
      refine congrArg Except.ok (tab_congr _ _ _ fun i _ => ?_)
      rw [mul_fin, div_fin (mul_ne_zero hN' (hw i))]
    · simp only [tab, List.map_map]; rfl
  · simp only [cythonLog, bar]
    split_ifs
    · refine congrArg Except.ok ?_
      simp only [tab, List.map_map]
      exact List.map_congr_left fun i _ => by simp only [Function.comp]; rw [div_fin hN']
    · rw [zipW]
      refine congrArg Except.ok (tab_congr _ _ _ fun i _ => ?_)
      rw [mul_fin, div_fin (mul_ne_zero hN' (hw i))]
    · simp only [tab, List.map_map]; rfl
  · simp only [numexprLog, bar]
    split_ifs
    · refine congrArg Except.ok ?_
      simp only [tab, List.map_map]
      exact List.map_congr_left fun i _ => by simp only [Function.comp]; rw [div_fin hL']
    · rw [broadcast_eq hl, zipW]
      refine congrArg Except.ok (tab_congr _ _ _ fun i _ => ?_)
      rw [mul_fin, div_fin (mul_ne_zero hL' (hw i))]
    · simp only [tab, List.map_map]; rfl
  · obtain ⟨m, rfl⟩ : ∃ m, n = m + 1 := ⟨n - 1, by omega⟩
    have hcons : (tab (m + 1) fun i => fin (logWidth mn mx (m + 1) i)) = fin (logWidth mn mx (m + 1) 0) ::
        (tab m fun i => fin (logWidth mn mx (m + 1) (i + 1))) := by
      simp only [tab, List.range_succ_eq_map, List.map_cons, List.map_map]; rfl
    rw [hcons]
    simp only [blasLog, bar]
    split_ifs
    · refine congrArg Except.ok ?_
      simp only [tab, List.map_map]
      refine List.map_congr_left fun i _ => ?_
      simp only [Function.comp]; rw [div_fin hN', mul_fin]; congr 1; field_simp
    · refine congrArg Except.ok ?_
      simp only [tab, List.map_map]
      refine List.map_congr_left fun i _ => ?_
      simp only [Function.comp]; rw [mul_fin, div_fin (mul_ne_zero hN' (hw 0)), mul_fin]
      congr 1
      have := hw 0
      field_simp
    · simp only [tab, List.map_map]; rfl

/-- The result of the body on ordinary data. -/
theorem runLog_ok {B : LogBackend} {k : ℝ × Nat → ℝ} (hB : Factor B d.length k) (hs : IsSearch ss)
    (hr : PosRange d mn mx) {cs : List (ℝ × Nat)} (hcs : ∀ c ∈ cs, 0 < c.1 ∧ 1 ≤ c.2) (hbig : ∃ c ∈ cs, 1 < c.1)
    (hneg : o.negative = false) {len : Nat} (hlen : len ≠ 0) {b : Nat → Nat → Nat → ℝ}
    (hb : ∀ n, Bars B o d.length len mn mx n (b n)) :
    ∃ c ∈ cs, FirstMax cs (fun c => toL (logVal d mn mx k c)) c ∧
      runLog B ss o len d cs = .ok ⟨some (tab c.2 fun i => fin (b c.2 i (logCount d mn mx c.2 i))),
        some (tab (c.2 + 1) fun i => fin (logEdge mn mx c.2 i)),
        some (.arr (tab c.2 fun i => fin (logWidth mn mx c.2 i))), reported o c⟩ := by
  obtain ⟨c0, hc0, h1⟩ := hbig
  obtain ⟨c, hc, hf, hl⟩ := searchLoop_spec (nan, 0) cs (evalLog B ss d) (logVal d mn mx k)
    (fun c => (fin c.1, c.2)) (fun c hc => evalLog_ok hB hs hr (hcs c hc).2 (hcs c hc).1)
    ⟨c0, hc0, _, by rw [logVal, if_pos (Or.inl h1)]⟩
  refine ⟨c, hc, hf, ?_⟩
  have hn := (hcs c hc).2
  have hN : d.length ≠ 0 := by have := one_le_length hr.1; omega
  rw [runLog, hneg, if_neg (by simp), hl]
  show finishLog B ss o d len (fin c.1, c.2) = _
  rw [finishLog, logCountsEdges_eq hs hr hn]
  show Except.map _ (B.norm o _ _ _ (widthsX _)) = _
  rw [widthsX_eq, norm_ok (hb c.2) hr hn hN hlen]
  show Except.ok _ = Except.ok _
  simp only [logEdges, tab, List.map_map]
  rfl

theorem grid_ok (hg : Grid as bs) : (∀ c ∈ grid as bs, 0 < c.1 ∧ 1 ≤ c.2) ∧ ∃ c ∈ grid as bs, 1 < c.1 := by
  refine ⟨fun c hc => ⟨hg.pos _ (mem_grid.1 hc).1, hg.binsPos _ (mem_grid.1 hc).2⟩, ?_⟩
  obtain ⟨α, hα, h1⟩ := hg.big
  obtain ⟨n, hn⟩ := List.exists_mem_of_ne_nil _ hg.nonempty
  exact ⟨(α, n), mem_grid.2 ⟨hα, hn⟩, h1⟩

theorem combos3_eq (as : List ℝ) (bs : List Nat) (ps : List ℝ) :
    (combos3 as bs ps).map (fun c => (c.1, c.2.1)) = (grid as bs).flatMap fun c => ps.map fun _ => c := by
  simp only [combos3, grid, List.map_flatMap, List.flatMap_assoc, List.flatMap_map, List.map_map]
  rfl

/-- Repeating every candidate does not change the first maximum. -/
theorem firstMax_repeat {A P : Type} {L : A → Option EReal} {ps : List P} (hp : ps ≠ []) :
    ∀ (cs : List A) {a : A}, FirstMax (cs.flatMap fun c => ps.map fun _ => c) L a → FirstMax cs L a := by
  intro cs
  induction cs with
  | nil => rintro a ⟨pre, post, v, h, _⟩; simp at h
  | cons c t ih =>
    rintro a ⟨pre, post, v, h1, h2, h3, h4⟩
    rw [List.flatMap_cons] at h1
    obtain ⟨p, hpm⟩ := List.exists_mem_of_ne_nil _ hp
    have hblock : c ∈ ps.map fun _ => c := List.mem_map.2 ⟨p, hpm, rfl⟩
    rcases List.append_eq_append_iff.1 h1 with ⟨as', e1, e2⟩ | ⟨bs', e1, e2⟩
    · obtain ⟨pre', post', v', e3, h2', h3', h4'⟩ := ih (a := a) ⟨as', post, v, e2, h2,
        fun x hx => h3 x (by rw [e1]; exact List.mem_append_right _ hx), h4⟩
      rw [h2] at h2'
      cases h2'
      refine ⟨c :: pre', post', v, by rw [e3]; rfl, h2, ?_, h4'⟩
      intro x hx u hu
      rcases List.mem_cons.1 hx with rfl | hx
      · exact h3 x (by rw [e1]; exact List.mem_append_left _ hblock) u hu
      · exact h3' x hx u hu
    · cases bs' with
      | nil =>
        rw [List.nil_append] at e2
        rw [List.append_nil] at e1
        obtain ⟨pre', post', v', e3, h2', h3', h4'⟩ := ih (a := a) ⟨[], post, v, by rw [← e2]; rfl, h2,
          fun x hx => by simp at hx, h4⟩
        rw [h2] at h2'
        cases h2'
        refine ⟨c :: pre', post', v, by rw [e3]; rfl, h2, ?_, h4'⟩
        intro x hx u hu
        rcases List.mem_cons.1 hx with rfl | hx
        · exact h3 x (by rw [← e1]; exact hblock) u hu
        · exact h3' x hx u hu
      | cons y ys =>
        rw [List.cons_append, List.cons.injEq] at e2
        obtain ⟨rfl, e2⟩ := e2
        have hac : a = c := by
          have : a ∈ ps.map fun _ => c := by rw [e1]; simp
          obtain ⟨_, _, h⟩ := List.mem_map.1 this
          exact h.symm
        subst hac
        refine ⟨[], t, v, rfl, h2, fun x hx => by simp at hx, ?_⟩
        intro x hx u hu
        refine h4 x ?_ u hu
        rw [e2]
        exact List.mem_append_right _ (List.mem_flatMap.2 ⟨x, hx, List.mem_map.2 ⟨p, hpm, rfl⟩⟩)

/-- The four entry points, with the module each belongs to. -/
def IsLogEntry (ss : Search) (data : List (Option ℝ)) (as : List ℝ) (bs : List Nat) (o : Opts)
    (B : LogBackend) (res : M Ret) : Prop :=
  (B = iterLog ∨ B = cythonLog ∨ B = numexprLog) ∧ res = likelihoodLog B ss (some data) (some as) (some bs) o ∨
  B = blasLog ∧ ∃ phases, phases ≠ [] ∧ res = likelihoodBlasLog ss (some data) (some as) (some bs) phases o

theorem entry_ok {B : LogBackend} {k : ℝ × Nat → ℝ} {res : M Ret} (hres : IsLogEntry ss data as bs o B res)
    (hB : Factor B (numbers data).length k) (hs : IsSearch ss) (hr : PosRange (numbers data) mn mx)
    (hg : Grid as bs) (hneg : o.negative = false) {b : Nat → Nat → Nat → ℝ}
    (hb : ∀ n, Bars B o (numbers data).length data.length mn mx n (b n)) :
    ∃ c ∈ grid as bs, FirstMax (grid as bs) (fun c => toL (logVal (numbers data) mn mx k c)) c ∧
      res = .ok ⟨some (tab c.2 fun i => fin (b c.2 i (logCount (numbers data) mn mx c.2 i))),
        some (tab (c.2 + 1) fun i => fin (logEdge mn mx c.2 i)),
        some (.arr (tab c.2 fun i => fin (logWidth mn mx c.2 i))), reported o c⟩ := by
  have hlen : data.length ≠ 0 := by
    have h1 := one_le_length hr.1
    have h2 : (numbers data).length ≤ data.length := List.length_filterMap_le _ _
    omega
  obtain ⟨hg1, hg2⟩ := grid_ok hg
  rcases hres with ⟨_, rfl⟩ | ⟨rfl, ps, hp, rfl⟩
  · rw [likelihoodLog, front_ok hr.1]
    exact runLog_ok hB hs hr hg1 hg2 hneg hlen hb
  · rw [likelihoodBlasLog, front_ok hr.1]
    dsimp only [Option.getD_some]
    rw [combos3_eq]
    have hmem : ∀ c, c ∈ (grid as bs).flatMap (fun c => ps.map fun _ => c) ↔ c ∈ grid as bs := by
      intro c
      rw [List.mem_flatMap]
      constructor
      · rintro ⟨c', hc', h⟩
        obtain ⟨_, _, rfl⟩ := List.mem_map.1 h
        exact hc'
      · intro h
        obtain ⟨p, hpm⟩ := List.exists_mem_of_ne_nil _ hp
        exact ⟨c, h, List.mem_map.2 ⟨p, hpm, rfl⟩⟩
    obtain ⟨c, hc, hf, h⟩ := runLog_ok (cs := (grid as bs).flatMap fun c => ps.map fun _ => c) hB hs hr
      (fun c hc => hg1 c ((hmem c).1 hc)) (by obtain ⟨c, hc, h⟩ := hg2; exact ⟨c, (hmem c).2 hc, h⟩) hneg hlen hb
    exact ⟨c, (hmem c).1 hc, firstMax_repeat hp _ hf, h⟩

theorem factor_exists (B : LogBackend) (N : Nat) {res : M Ret} (h : IsLogEntry ss data as bs o B res) :
    ∃ k, Factor B N k := by
  rcases h with ⟨rfl | rfl | rfl, _⟩ | ⟨rfl, _⟩
  · exact ⟨_, Or.inr ⟨Or.inl rfl, rfl⟩⟩
  · exact ⟨_, Or.inl ⟨rfl, rfl⟩⟩
  · exact ⟨_, Or.inr ⟨Or.inr (Or.inl rfl), rfl⟩⟩
  · exact ⟨_, Or.inr ⟨Or.inr (Or.inr rfl), rfl⟩⟩

/-- C147: the four functions return the histogram of the data with bins of constant ratio, for some tried
combination, with its parameters if asked for.  Missing: numexpr on data with NaNs
(`C147_numexpr_nan_wrong`) and densities by blas (`C147_blas_density_wrong`). -/
theorem C147_log_histogram_partial {B : LogBackend} {res : M Ret} (hres : IsLogEntry ss data as bs o B res)
    (hs : IsSearch ss) (hr : PosRange (numbers data) mn mx) (hg : Grid as bs) (hneg : o.negative = false)
    (hne : B = numexprLog → none ∉ data) (hbl : B = blasLog → o.prob = true ∨ o.dens = false) :
    ∃ α ∈ as, ∃ n ∈ bs, ∃ r, res = .ok r ∧
      IsLogHist (numbers data) mn mx n (numbers data).length o.prob o.dens r ∧ r.params = reported o (α, n) := by
  obtain ⟨k, hk⟩ := factor_exists B (numbers data).length hres
  have hb : ∀ n, Bars B o (numbers data).length data.length mn mx n
      (fun i c => bar o.prob o.dens (numbers data).length (logWidth mn mx n i) c) := by
    intro n
    rcases hres with ⟨rfl | rfl | rfl, _⟩ | ⟨rfl, _⟩
    · exact Or.inl ⟨Or.inl rfl, rfl⟩
    · exact Or.inl ⟨Or.inr rfl, rfl⟩
    · have hl : data.length = (numbers data).length := by
        have hno := hne rfl
        clear * - hno
        induction data with
        | nil => rfl
        | cons x t ih =>
          cases x with
          | none => simp at hno
          | some x =>
            have := ih (fun h => hno (List.mem_cons_of_mem _ h))
            simp only [numbers, List.filterMap_cons, id, List.length_cons] at this ⊢
            omega
      exact Or.inr (Or.inl ⟨rfl, by rw [hl]⟩)
    · refine Or.inr (Or.inr ⟨rfl, ?_⟩)
      funext i c
      simp only [bar]
      rcases hbl rfl with h | h <;> simp [h]
  obtain ⟨c, hc, _, h⟩ := entry_ok hres hk hs hr hg hneg hb
  exact ⟨c.1, (mem_grid.1 hc).1, c.2, (mem_grid.1 hc).2, _, h, ⟨rfl, rfl, rfl⟩, rfl⟩

/-- C148: iterator, numexpr and blas (whatever the phases) choose the first combination with the largest
leave-one-out likelihood.  Missing: cython (`C148_cython_wrong`). -/
theorem C148_log_best_partial {B : LogBackend} {res : M Ret} (hres : IsLogEntry ss data as bs o B res)
    (hB : B = iterLog ∨ B = numexprLog ∨ B = blasLog)
    (hs : IsSearch ss) (hr : PosRange (numbers data) mn mx) (hg : Grid as bs) (hneg : o.negative = false) :
    ∃ c ∈ grid as bs, FirstMax (grid as bs) (logScore (numbers data) mn mx) c ∧ ∃ r, res = .ok r ∧
      r.edges = some (tab (c.2 + 1) fun i => fin (logEdge mn mx c.2 i)) ∧ r.params = reported o c := by
  have hb : ∃ b : Nat → Nat → Nat → ℝ, ∀ n, Bars B o (numbers data).length data.length mn mx n (b n) := by
    rcases hB with rfl | rfl | rfl
    · exact ⟨_, fun n => Or.inl ⟨Or.inl rfl, rfl⟩⟩
    · exact ⟨_, fun n => Or.inr (Or.inl ⟨rfl, rfl⟩)⟩
    · exact ⟨_, fun n => Or.inr (Or.inr ⟨rfl, rfl⟩)⟩
  obtain ⟨b, hb⟩ := hb
  obtain ⟨c, hc, hf, h⟩ := entry_ok hres (Or.inr ⟨hB, rfl⟩) hs hr hg hneg hb
  exact ⟨c, hc, firstMax_congr (fun c hc => logVal_score hr (hg.binsPos _ (mem_grid.1 hc).2)) hf, _, h, rfl, rfl⟩

theorem integral_tab (g : Nat → ℝ) :
    integral (tab n g) (logEdges mn mx n) = (tab n fun i => g i * logWidth mn mx n i).sum := by
  rw [integral]
  congr 1
  apply List.ext_getElem
  · simp [logEdges]
  · intro i h1 h2
    simp only [List.getElem_zipWith, List.getElem_zip, List.getElem_tail, logEdges, getElem_tab, logWidth]

/-- C147: totals of such a histogram: probabilities sum to one, densities integrate to one over the returned
edges, counts sum to the number of points; there is one edge more than bars. -/
theorem C147_total {p q : Bool} {r : Ret} (hr : PosRange d mn mx) (hn : 1 ≤ n)
    (h : IsLogHist d mn mx n d.length p q r) :
    ∃ bars edges : List ℝ, r.hist = some (bars.map fin) ∧ r.edges = some (edges.map fin) ∧
      bars.length = n ∧ edges.length = n + 1 ∧ edges.head? = some mn ∧ edges.getLast? = some mx ∧
      (p = true → bars.sum = 1) ∧ (p = false → q = true → integral bars edges = 1) ∧
      (p = false → q = false → bars.sum = d.length) := by
  obtain ⟨h1, h2, h3⟩ := h
  have hN : (d.length : ℝ) ≠ 0 := by exact_mod_cast (by have := one_le_length hr.1; omega : d.length ≠ 0)
  have hs := sum_logCount hr hn
  refine ⟨tab n fun i => bar p q d.length (logWidth mn mx n i) (logCount d mn mx n i), logEdges mn mx n,
    ?_, ?_, by simp, by simp [logEdges], ?_, ?_, ?_, ?_, ?_⟩
  · rw [h1]; simp only [tab, List.map_map]; rfl
  · rw [h2]; simp only [logEdges, tab, List.map_map]; rfl
  · simp [logEdges, tab, List.range_succ_eq_map, logEdge_zero]
  · simp only [logEdges, tab, List.range_succ, List.map_append, List.map_cons, List.map_nil]
    rw [List.getLast?_append]
    simp only [List.getLast?_singleton, Option.some_or]
    rw [logEdge_last hr.2 hn]
  · rintro rfl
    have : (fun i => bar true q d.length (logWidth mn mx n i) (logCount d mn mx n i)) =
        fun i => (logCount d mn mx n i : ℝ) * (1 / d.length) := by
      funext i; rw [bar, if_pos rfl]; ring
    rw [this, sum_tab_mul, sum_tab_cast, hs]
    field_simp
  · rintro rfl rfl
    rw [integral_tab]
    have : (fun i => bar false true d.length (logWidth mn mx n i) (logCount d mn mx n i) * logWidth mn mx n i) =
        fun i => (logCount d mn mx n i : ℝ) * (1 / d.length) := by
      funext i
      rw [bar, if_neg (by simp), if_pos rfl]
      have := (logWidth_pos hr.2 hr.1.2.2.2 hn i).ne'
      field_simp
    rw [this, sum_tab_mul, sum_tab_cast, hs]
    field_simp
  · rintro rfl rfl
    have : (fun i => bar false false d.length (logWidth mn mx n i) (logCount d mn mx n i)) =
        fun i => (logCount d mn mx n i : ℝ) := by
      funext i; rw [bar, if_neg (by simp), if_neg (by simp)]
    rw [this, sum_tab_cast, hs]

end Verif.Jacky
