import Verif.Jacky.LogModel
import Verif.Jacky.LogSpec
import Verif.Jacky.More
/-!
# Histograms with bins equally wide in the logarithm: counts, edges, likelihood
-/
namespace Verif.Jacky
open Verif.Hist Verif.Hist.Spec X Spec
open Classical

theorem zipWith_tab {A B C : Type} (f : A → B → C) (g : Nat → A) (h : Nat → B) (n : Nat) :
    List.zipWith f (tab n g) (tab n h) = tab n fun i => f (g i) (h i) := by
  simp only [tab, List.zipWith_map]
  rw [List.zipWith_self]

theorem getElem_tab {A : Type} (f : Nat → A) {n i : Nat} (h : i < (tab n f).length) : (tab n f)[i] = f i := by
  simp [tab]

section edges
variable {mn mx : ℝ} {n : Nat}

theorem logEdge_zero : logEdge mn mx n 0 = mn := by simp [logEdge]

theorem logEdge_last (h0 : 0 < mn) (hn : 1 ≤ n) : logEdge mn mx n n = mx := by
  have hn0 : (n : ℝ) ≠ 0 := by exact_mod_cast (by omega : n ≠ 0)
  rw [logEdge, div_self hn0, Real.rpow_one]
  field_simp

theorem logEdge_lt (h0 : 0 < mn) (h : mn < mx) (hn : 1 ≤ n) {i j : Nat} (hij : i < j) :
    logEdge mn mx n i < logEdge mn mx n j := by
  have hn0 : (0 : ℝ) < n := by exact_mod_cast hn
  have hq : 1 < mx / mn := (one_lt_div h0).2 h
  apply mul_lt_mul_of_pos_left _ h0
  apply Real.rpow_lt_rpow_of_exponent_lt hq
  exact div_lt_div_of_pos_right (by exact_mod_cast hij) hn0

theorem logWidth_pos (h0 : 0 < mn) (h : mn < mx) (hn : 1 ≤ n) (i : Nat) : 0 < logWidth mn mx n i :=
  sub_pos.2 (logEdge_lt h0 h hn (Nat.lt_succ_self i))

theorem layout_logEdges (h0 : 0 < mn) (h : mn < mx) (hn : 1 ≤ n) : Layout (logEdges mn mx n) := by
  refine ⟨?_, by simp [logEdges]; omega⟩
  rw [List.pairwise_iff_getElem]
  intro i j hi hj hij
  simp only [logEdges, getElem_tab]
  exact logEdge_lt h0 h hn hij

theorem covers_logEdges (h0 : 0 < mn) (hn : 1 ≤ n) {x : ℝ} (h1 : mn ≤ x) (h2 : x ≤ mx) :
    Covers (logEdges mn mx n) x := by
  refine ⟨⟨mn, ?_, h1⟩, mx, ?_, h2⟩
  · exact List.mem_map.2 ⟨0, List.mem_range.2 (by omega), logEdge_zero⟩
  · exact List.mem_map.2 ⟨n, List.mem_range.2 (by omega), logEdge_last h0 hn⟩

end edges

variable {d : List ℝ} {mn mx : ℝ} {n : Nat}

theorem covers_all (hr : PosRange d mn mx) (hn : 1 ≤ n) : ∀ x ∈ d, Covers (logEdges mn mx n) x := fun x hx =>
  covers_logEdges hr.2 hn (hr.1.2.2.1 x hx).1 (hr.1.2.2.1 x hx).2

theorem pos_layout (hr : PosRange d mn mx) (hn : 1 ≤ n) : Layout (logEdges mn mx n) :=
  layout_logEdges hr.2 hr.1.2.2.2 hn

theorem logIdx_range (hr : PosRange d mn mx) (hn : 1 ≤ n) :
    ∀ i ∈ d.map (binLog (logEdges mn mx n)), 0 ≤ i ∧ i < (n : Int) := by
  have := binLog_range _ (pos_layout hr hn) d (covers_all hr hn)
  have hl : (logEdges mn mx n).length - 1 = n := by simp [logEdges]
  rw [hl] at this
  exact this

theorem logIdx_count (hr : PosRange d mn mx) (hn : 1 ≤ n) (i : Nat) :
    (d.map (binLog (logEdges mn mx n))).count (i : Int) = logCount d mn mx n i :=
  count_eq_countP _ _ _ _ fun x hx => binLog_iff _ (pos_layout hr hn) x (covers_all hr hn x hx) i

theorem last_bin (hr : PosRange d mn mx) (hn : 1 ≤ n) : InBin (logEdges mn mx n) (n - 1) mx := by
  rw [inBin_iff]
  have hl : n - 1 + 1 < (logEdges mn mx n).length := by simp [logEdges]; omega
  refine ⟨hl, Or.inl ⟨?_, ?_⟩⟩
  · simp only [logEdges, getElem_tab]
    calc logEdge mn mx n (n - 1) < logEdge mn mx n n := logEdge_lt hr.2 hr.1.2.2.2 hn (by omega)
      _ = mx := logEdge_last hr.2 hn
  · simp only [logEdges, getElem_tab]
    rw [show n - 1 + 1 = n by omega, logEdge_last hr.2 hn]

theorem logCount_last (hr : PosRange d mn mx) (hn : 1 ≤ n) : 0 < logCount d mn mx n (n - 1) :=
  List.countP_pos_iff.2 ⟨mx, hr.1.2.1, by simpa using last_bin hr hn⟩

theorem bincount_log (hr : PosRange d mn mx) (hn : 1 ≤ n) :
    bincount (d.map (binLog (logEdges mn mx n))) 0 = some (tab n (logCount d mn mx n)) := by
  obtain ⟨c, e1, _, _, e4, _, e5⟩ := bincount_spec (d.map (binLog (logEdges mn mx n))) 0 n (logIdx_range hr hn)
  rw [e1]
  have hlen : c.length = n := by
    have h := e5 (n - 1)
    rw [logIdx_count hr hn] at h
    have hp := logCount_last hr hn
    by_contra hne
    have : c.getD (n - 1) 0 = 0 := by
      rw [List.getD, List.getElem?_eq_none_iff.2 (by omega), Option.getD_none]
    omega
  congr 1
  apply List.ext_getElem
  · simp [hlen]
  · intro i h1 h2
    have h := e5 i
    rw [logIdx_count hr hn, List.getD_eq_getElem?_getD, List.getElem?_eq_getElem h1] at h
    rw [getElem_tab]
    simpa using h

theorem sum_logCount (hr : PosRange d mn mx) (hn : 1 ≤ n) : (tab n (logCount d mn mx n)).sum = d.length := by
  have := sum_tab_count (d.map (binLog (logEdges mn mx n))) n (logIdx_range hr hn)
  rw [List.length_map] at this
  rw [← this]
  exact congrArg List.sum (tab_congr _ _ _ fun i _ => (logIdx_count hr hn i).symm)

theorem log10_pos {x : ℝ} (h : 0 < x) : log10 x = fin (Real.logb 10 x) := by
  rw [log10, if_neg h.not_gt, if_neg h.ne']

theorem map_log10 (h : ∀ x ∈ d, 0 < x) : d.map log10 = (d.map (Real.logb 10)).map fin := by
  rw [List.map_map]
  exact List.map_congr_left fun x hx => log10_pos (h x hx)

theorem filterMap_finPart (l : List ℝ) : (l.map fin).filterMap finPart = l := by
  rw [List.filterMap_map]
  have : (finPart ∘ fin) = some := rfl
  rw [this, List.filterMap_some]

theorem nan_not_mem (l : List ℝ) : nan ∉ l.map fin := by simp
theorem ninf_not_mem (l : List ℝ) : ninf ∉ l.map fin := by simp

theorem xmin_fin (l : List ℝ) : xmin (l.map fin) = fin (amin l) := by
  rw [xmin, if_neg (nan_not_mem l), if_neg (ninf_not_mem l), filterMap_finPart]

theorem xmax_fin {l : List ℝ} (h : l ≠ []) : xmax (l.map fin) = fin (amax l) := by
  rw [xmax, if_neg (nan_not_mem l), filterMap_finPart, if_neg h]

theorem pos_of_posRange (hr : PosRange d mn mx) : ∀ x ∈ d, 0 < x := fun x hx =>
  lt_of_lt_of_le hr.2 (hr.1.2.2.1 x hx).1

theorem range_logb (hr : PosRange d mn mx) :
    Range (d.map (Real.logb 10)) (Real.logb 10 mn) (Real.logb 10 mx) := by
  have hp := pos_of_posRange hr
  obtain ⟨⟨h1, h2, h3, h4⟩, h0⟩ := hr
  refine ⟨List.mem_map.2 ⟨mn, h1, rfl⟩, List.mem_map.2 ⟨mx, h2, rfl⟩, ?_,
    Real.logb_lt_logb (by norm_num) h0 h4⟩
  intro y hy
  obtain ⟨x, hx, rfl⟩ := List.mem_map.1 hy
  exact ⟨Real.logb_le_logb_of_le (by norm_num) h0 (h3 x hx).1,
    Real.logb_le_logb_of_le (by norm_num) (hp x hx) (h3 x hx).2⟩

theorem logspace_eq (h0 : 0 < mn) (h1 : 0 < mx) (hn : 1 ≤ n) :
    logspace (fin (Real.logb 10 mn)) (fin (Real.logb 10 mx)) n = (logEdges mn mx n).map fin := by
  have hn0 : (n : ℝ) ≠ 0 := by exact_mod_cast (by omega : n ≠ 0)
  have he : ∀ i : Nat, (10 : ℝ) ^ ((i : ℝ) * ((Real.logb 10 mx - Real.logb 10 mn) / n) + Real.logb 10 mn) =
      logEdge mn mx n i := by
    intro i
    rw [Real.rpow_add (by norm_num), Real.rpow_logb (by norm_num) (by norm_num) h0, logEdge, mul_comm]
    congr 1
    rw [← Real.logb_div h1.ne' h0.ne']
    rw [show (i : ℝ) * (Real.logb 10 (mx / mn) / n) = Real.logb 10 (mx / mn) * (i / n) by ring,
      Real.rpow_mul (by norm_num), Real.rpow_logb (by norm_num) (by norm_num) (div_pos h1 h0)]
  rw [logspace, linspaceX, if_neg (by omega), logEdges]
  simp only [tab, List.range_succ, List.map_append, List.map_map, List.map_cons, List.map_nil]
  congr 1
  · apply List.map_congr_left
    intro i _
    simp only [Function.comp]
    rw [sub_fin, div_fin hn0, mul_fin, add_fin, pow10, he]
  · rw [pow10, ← he n]
    congr 3
    field_simp
    ring

theorem guardIdx_eq (hn : 1 ≤ n) (x : ℝ) (mn mx : ℝ) :
    guardIdx n (searchLeft (logEdges mn mx n) x) = binLog (logEdges mn mx n) x := by
  have : ((logEdges mn mx n).length : Int) - 1 = n := by simp [logEdges]
  simp only [guardIdx, binLog, this]

theorem pairwise_le_of_layout {e : List ℝ} (h : Layout e) : e.Pairwise (· ≤ ·) := h.1.imp le_of_lt

theorem logCountsEdges_eq {ss : Search} (hs : IsSearch ss) (hr : PosRange d mn mx) (hn : 1 ≤ n) :
    logCountsEdges ss d n = .ok (tab n (logCount d mn mx n), (logEdges mn mx n).map fin) := by
  obtain ⟨hmn, hmx⟩ := range_iff hr.1
  by_cases hn1 : n = 1
  · subst hn1
    have h := sum_logCount hr hn
    have ht : ∀ f : Nat → Nat, tab 1 f = [f 0] := fun f => rfl
    have hl := logEdge_last (mx := mx) hr.2 (le_refl 1)
    rw [ht] at h
    simp only [List.sum_cons, List.sum_nil, Nat.add_zero] at h
    rw [logCountsEdges, if_pos rfl, ht, h, hmn, hmx, logEdges]
    simp only [tab, List.range_succ, List.range_zero, List.nil_append, List.map_append, List.map_cons, List.map_nil,
      List.cons_append, logEdge_zero, hl]
  · have hl := range_logb hr
    obtain ⟨e1, e2⟩ := range_iff hl
    have hne : d.map (Real.logb 10) ≠ [] := by
      intro h
      have := hl.1
      rw [h] at this
      simp at this
    have h1 : 0 < mx := hr.2.trans hr.1.2.2.2
    have hmap : (d.map fun x => guardIdx n (ss ((logEdges mn mx n).map fin) x)) =
        d.map (binLog (logEdges mn mx n)) := by
      apply List.map_congr_left
      intro x _
      rw [hs.sorted _ _ (pairwise_le_of_layout (pos_layout hr hn)), guardIdx_eq hn]
    rw [logCountsEdges, if_neg hn1]
    simp only [map_log10 (pos_of_posRange hr)]
    rw [xmin_fin, xmax_fin hne, e1, e2, logspace_eq hr.2 h1 hn, hmap, bincount_log hr hn]

theorem widthsX_eq : widthsX ((logEdges mn mx n).map fin) = tab n fun i => fin (logWidth mn mx n i) := by
  apply List.ext_getElem
  · simp [widthsX, logEdges]
  · intro i h1 h2
    have hi : i < n := by simpa using h2
    simp only [widthsX, List.getElem_zipWith, List.getElem_tail, List.getElem_map, logEdges, getElem_tab, sub_fin,
      logWidth]

/-! ### The likelihood -/

/-- The likelihood formula over the reals. -/
noncomputable def logFormula (d : List ℝ) (mn mx : ℝ) (k : ℝ) (c : ℝ × Nat) : ℝ :=
  (tab c.2 fun i => (logCount d mn mx c.2 i : ℝ) *
    Real.log (((logCount d mn mx c.2 i : ℝ) + c.1 - 1) / (k * logWidth mn mx c.2 i))).sum

/-- The formula with the factor of the number of points is the leave-one-out likelihood. -/
theorem logFormula_eq (hr : PosRange d mn mx) (hn : 1 ≤ n) (α : ℝ) :
    logFormula d mn mx (convNumpy d.length n α) (α, n) = logLeaveOneOut d mn mx α n := by
  rw [logLeaveOneOut, tab_getD d ((fun i : Int =>
    Real.log (((logCount d mn mx n i.toNat : ℝ) + α - 1) / (convNumpy d.length n α *
      logWidth mn mx n i.toNat))) ∘ binLog (logEdges mn mx n))]
  · rw [← List.map_map]
    rw [sum_by_bin _ n (logIdx_range hr hn)]
    simp only [logFormula, Int.toNat_natCast]
    exact congrArg List.sum (tab_congr _ _ _ fun i _ => by rw [logIdx_count hr hn i])
  · intro j hj
    have hget : d.getD j 0 = d[j] := by simp [List.getD, hj]
    have hmem : d[j] ∈ d := List.getElem_mem hj
    have hiff := fun i => binLog_iff _ (pos_layout hr hn) d[j] (covers_all hr hn _ hmem) i
    obtain ⟨h0, h1⟩ := logIdx_range hr hn _ (List.mem_map.2 ⟨_, hmem, rfl⟩)
    obtain ⟨k, hk⟩ := Int.eq_ofNat_of_zero_le h0
    have hkn : k < n := by rw [hk] at h1; exact_mod_cast h1
    have hkx : InBin (logEdges mn mx n) k d[j] := (hiff k).1 hk
    have hcnt := (List.getElem_cons_eraseIdx_perm hj).countP_eq
      (fun y => decide (InBin (logEdges mn mx n) k y))
    rw [List.countP_cons, if_pos (by simpa using hkx)] at hcnt
    have hlen : (d.eraseIdx j).length + 1 = d.length := by
      rw [List.length_eraseIdx_of_lt hj]; omega
    have hlen' : ((d.eraseIdx j).length : ℝ) = d.length - 1 := by rw [← hlen]; push_cast; ring
    have hk' : ((logCount d mn mx n k : Nat) : ℝ) = (logCount (d.eraseIdx j) mn mx n k : Nat) + 1 := by
      rw [logCount, logCount, ← hcnt]; push_cast; ring
    have hden : logDensity (d.eraseIdx j) mn mx n α d[j] =
        ((logCount (d.eraseIdx j) mn mx n k : ℝ) + α) /
          (((d.eraseIdx j).length + n * α) * logWidth mn mx n k) := by
      rw [logDensity, ← sum_tab_indicator n k hkn (fun i => ((logCount (d.eraseIdx j) mn mx n i : ℝ) + α) /
          (((d.eraseIdx j).length + n * α) * logWidth mn mx n i))]
      refine congrArg List.sum (tab_congr _ _ _ fun i _ => ?_)
      by_cases hik : i = k
      · subst hik; rw [if_pos hkx, if_pos rfl]
      · rw [if_neg hik, if_neg]
        intro h
        have := (hiff i).2 h
        rw [hk] at this
        exact hik (by exact_mod_cast this.symm)
    simp only [Function.comp, hget]
    rw [hden, hk, Int.toNat_natCast, hk', hlen', convNumpy]
    congr 2
    · ring

theorem logTerms_eq {α k : ℝ} (hr : PosRange d mn mx) (hn : 1 ≤ n) (hα : 0 < α) (hk : 0 < k) :
    sum (tab n fun i => term (logCount d mn mx n i) (fin (logWidth mn mx n i)) α (fin k)) =
      if 1 < α ∨ ∀ i < n, logCount d mn mx n i ≠ 0 then fin (logFormula d mn mx k (α, n)) else nan := by
  have hw := logWidth_pos hr.2 hr.1.2.2.2 hn
  split_ifs with h
  · have hpos : ∀ i < n, 0 < (logCount d mn mx n i : ℝ) + α - 1 := by
      intro i hi
      rcases h with h | h
      · have : (0 : ℝ) ≤ logCount d mn mx n i := Nat.cast_nonneg _
        linarith
      · have : (1 : ℝ) ≤ logCount d mn mx n i := by exact_mod_cast Nat.one_le_iff_ne_zero.2 (h i hi)
        linarith
    have : (tab n fun i => term (logCount d mn mx n i) (fin (logWidth mn mx n i)) α (fin k)) =
        (tab n fun i => (logCount d mn mx n i : ℝ) *
          Real.log (((logCount d mn mx n i : ℝ) + α - 1) / (k * logWidth mn mx n i))).map fin := by
      simp only [tab, List.map_map]
      apply List.map_congr_left
      intro i hi
      exact term_pos (hw i) hk (hpos i (List.mem_range.1 hi))
    rw [this, sum_fin]; rfl
  · push Not at h
    obtain ⟨h1, i, hi, h0⟩ := h
    apply sum_nan
    refine List.mem_map.2 ⟨i, List.mem_range.2 hi, ?_⟩
    rw [h0]
    exact term_nan (hw i) hk h1

theorem sum_tab_conv (f : Nat → Nat) (N : Nat) (h : (tab n f).sum = N) (α : ℝ) :
    (((tab n f).map fun (c : Nat) => (c : ℝ)).map fun x => x + α).sum = N + n * α := by
  have h1 : (((tab n f).map fun (c : Nat) => (c : ℝ)).map fun x => x + α) =
      tab n fun i => (f i : ℝ) + (fun _ => α) i := by
    simp only [tab, List.map_map]; rfl
  rw [h1, sum_tab_add]
  congr 1
  · rw [← h]
    simp only [tab, Nat.cast_list_sum, List.map_map]; rfl
  · simp [tab]

theorem convNumexpr_tab (f : Nat → Nat) (N : Nat) (h : (tab n f).sum = N) (α : ℝ) :
    convNumexpr ((tab n f).map fun (c : Nat) => (c : ℝ)) α = convNumpy N n α := by
  rw [convNumexpr, sum_tab_conv f N h, convNumpy]; ring

theorem convBlas_tab (f : Nat → Nat) (N : Nat) (h : (tab n f).sum = N) {α : ℝ} (hα : 0 < α) :
    convBlas ((tab n f).map fun (c : Nat) => (c : ℝ)) α = convNumpy N n α := by
  rw [← convNumexpr_tab f N h, convBlas, convNumexpr]
  congr 2
  simp only [List.map_map]
  apply List.map_congr_left
  intro c _
  simp only [Function.comp]
  rw [abs_of_pos]
  have : (0 : ℝ) ≤ c := Nat.cast_nonneg _
  linarith

/-- The value that the search sees with factor `k`. -/
noncomputable def logVal (d : List ℝ) (mn mx : ℝ) (k : ℝ × Nat → ℝ) (c : ℝ × Nat) : X :=
  if 1 < c.1 ∨ ∀ i < c.2, logCount d mn mx c.2 i ≠ 0 then fin (logFormula d mn mx (k c) c) else nan

theorem logVal_score (hr : PosRange d mn mx) {c : ℝ × Nat} (hc : 1 ≤ c.2) :
    toL (logVal d mn mx (fun c => convNumpy d.length c.2 c.1) c) = logScore d mn mx c := by
  rw [logVal, logScore]
  split_ifs
  · rw [← logFormula_eq hr hc]; rfl
  · rfl

/-- The factor of each module. -/
def Factor (B : LogBackend) (N : Nat) (k : ℝ × Nat → ℝ) : Prop :=
  (B = cythonLog ∧ k = kCython) ∨
    ((B = iterLog ∨ B = numexprLog ∨ B = blasLog) ∧ k = fun c => convNumpy N c.2 c.1)

theorem zipW (f : Nat → X → X) (d : List ℝ) (mn mx : ℝ) (n : Nat) :
    List.zipWith f (tab n (logCount d mn mx n)) (tab n fun i => fin (logWidth mn mx n i)) =
      tab n fun i => f (logCount d mn mx n i) (fin (logWidth mn mx n i)) := zipWith_tab _ _ _ _

theorem broadcast_eq {A B C : Type} {f : A → B → C} {as : List A} {bs : List B} (h : as.length = bs.length) :
    broadcast f as bs = .ok (List.zipWith f as bs) := by
  unfold broadcast
  rw [if_pos h]

theorem like_ok {B : LogBackend} {k : ℝ × Nat → ℝ} (hB : Factor B d.length k) (hr : PosRange d mn mx)
    {c : ℝ × Nat} (hn : 1 ≤ c.2) (hα : 0 < c.1) :
    B.like (tab c.2 (logCount d mn mx c.2)) (tab c.2 fun i => fin (logWidth mn mx c.2 i)) c.1
      (B.conv (tab c.2 (logCount d mn mx c.2)) d.length c.2 c.1) = .ok (logVal d mn mx k c) := by
  have hw := logWidth_pos hr.2 hr.1.2.2.2 hn
  have hs := sum_logCount hr hn
  have hkp := convNumpy_pos hr.1 hn hα
  have hl : (tab c.2 (logCount d mn mx c.2)).length = (tab c.2 fun i => fin (logWidth mn mx c.2 i)).length := by
    simp
  rcases hB with ⟨rfl, rfl⟩ | ⟨rfl | rfl | rfl, rfl⟩
  · show Except.ok (sum _) = _
    rw [zipW]
    have : cythonLog.conv (tab c.2 (logCount d mn mx c.2)) d.length c.2 c.1 = fin (kCython c) := by
      simp [cythonLog, kCython]
    rw [this]
    exact congrArg Except.ok (logTerms_eq hr hn hα (kCython_pos hα hn))
  · show likeIterLog _ _ _ (fin (convNumpy d.length c.2 c.1)) = _
    rw [likeIterLog, if_pos hl, zipW]
    refine congrArg Except.ok ?_
    refine Eq.trans ?_ (logTerms_eq hr hn hα hkp)
    congr 1
    apply tab_congr
    intro i _
    rw [term, mul_fin, mul_fin]
    congr 4
    · ring
    · ring
  · show Except.map sum (broadcast _ _ _) = _
    rw [broadcast_eq hl, zipW]
    have : numexprLog.conv (tab c.2 (logCount d mn mx c.2)) d.length c.2 c.1 =
        fin (convNumpy d.length c.2 c.1) := congrArg fin (convNumexpr_tab _ _ hs _)
    rw [this]
    exact congrArg Except.ok (logTerms_eq hr hn hα hkp)
  · show likeBlasLog _ _ _ _ = _
    have : blasLog.conv (tab c.2 (logCount d mn mx c.2)) d.length c.2 c.1 =
        fin (convNumpy d.length c.2 c.1) := congrArg fin (convBlas_tab _ _ hs hα)
    rw [this, likeBlasLog, if_pos (Or.inl hl), zipW]
    refine congrArg Except.ok ?_
    refine Eq.trans ?_ (logTerms_eq hr hn hα hkp)
    congr 1
    apply tab_congr
    intro i _
    rw [term, mul_fin, div_fin hkp.ne', mul_fin, div_fin (hw i).ne', div_fin (mul_pos hkp (hw i)).ne']
    congr 3
    have := (hw i).ne'
    have := hkp.ne'
    field_simp
    ring

theorem evalLog_ok {B : LogBackend} {k : ℝ × Nat → ℝ} (hB : Factor B d.length k) {ss : Search}
    (hs : IsSearch ss) (hr : PosRange d mn mx) {c : ℝ × Nat} (hn : 1 ≤ c.2) (hα : 0 < c.1) :
    evalLog B ss d c = .ok (logVal d mn mx k c, fin c.1, c.2) := by
  rw [evalLog, logCountsEdges_eq hs hr hn]
  show Except.map _ (B.like _ (widthsX _) _ _) = _
  rw [widthsX_eq, like_ok hB hr hn hα]
  rfl

end Verif.Jacky
