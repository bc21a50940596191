import Verif.Jacky.LogClaims
/-!
# C147–C149: concrete cases, defects, data that are not positive
-/
namespace Verif.Jacky
open Verif.Hist Verif.Hist.Spec X Spec
open Classical

variable {data : List (Option ℝ)} {d : List ℝ} {mn mx : ℝ} {as : List ℝ} {bs : List Nat} {o : Opts} {n : Nat}
  {ss : Search}

theorem numbers_lt (h : none ∈ data) : (numbers data).length < data.length := by
  induction data with
  | nil => simp at h
  | cons x t ih =>
    have hle : (numbers t).length ≤ t.length := List.length_filterMap_le _ _
    cases x with
    | none => simpa [numbers, Nat.lt_succ_iff] using hle
    | some x =>
      have := ih (by simpa using h)
      simp only [numbers, List.filterMap_cons, id, List.length_cons] at this ⊢
      omega

/-- C147, refuted for numexpr: as soon as a NaN is among the data the probabilities sum to less than one. -/
theorem C147_numexpr_nan_wrong (hs : IsSearch ss) (hr : PosRange (numbers data) mn mx) (hg : Grid as bs)
    (hneg : o.negative = false) (hp : o.prob = true) (hnan : none ∈ data) :
    ∃ (r : Ret) (bars : List ℝ), likelihoodLog numexprLog ss (some data) (some as) (some bs) o = .ok r ∧
      r.hist = some (bars.map fin) ∧ bars.sum < 1 := by
  obtain ⟨c, hc, _, h⟩ := entry_ok (o := o) (Or.inl ⟨Or.inr (Or.inr rfl), rfl⟩)
    (Or.inr ⟨Or.inr (Or.inl rfl), rfl⟩) hs hr hg hneg (fun n => Or.inr (Or.inl ⟨rfl, rfl⟩))
  refine ⟨_, tab c.2 fun i => bar o.prob o.dens data.length (logWidth mn mx c.2 i)
    (logCount (numbers data) mn mx c.2 i), h, ?_, ?_⟩
  · simp only [tab, List.map_map]; rfl
  · have hlt := numbers_lt hnan
    have hN : (0 : ℝ) < data.length := by exact_mod_cast (by omega : 0 < data.length)
    have : (fun i => bar o.prob o.dens data.length (logWidth mn mx c.2 i) (logCount (numbers data) mn mx c.2 i)) =
        fun i => (logCount (numbers data) mn mx c.2 i : ℝ) * (1 / data.length) := by
      funext i; rw [bar, if_pos hp]; ring
    rw [this, sum_tab_mul, sum_tab_cast, sum_logCount hr (hg.binsPos _ (mem_grid.1 hc).2), mul_one_div,
      div_lt_one hN]
    exact_mod_cast hlt

theorem logWidth_mul (h0 : 0 < mn) (h1 : mn < mx) (i : Nat) :
    logWidth mn mx n i = (mx / mn) ^ ((i : ℝ) / n) * logWidth mn mx n 0 := by
  have hq : 0 < mx / mn := div_pos (h0.trans h1) h0
  simp only [logWidth, logEdge, Nat.zero_add]
  rw [show (((i + 1 : Nat) : ℝ) / n) = (i : ℝ) / n + (1 : Nat) / n by push_cast; ring, Real.rpow_add hq]
  simp
  ring

theorem sum_tab_lt (n : Nat) (f g : Nat → ℝ) (h : ∀ i < n, f i ≤ g i) (h' : ∃ i < n, f i < g i) :
    (tab n f).sum < (tab n g).sum := by
  obtain ⟨i, hi, hlt⟩ := h'
  exact List.sum_lt_sum f g (fun j hj => h j (List.mem_range.1 hj)) ⟨i, List.mem_range.2 hi, hlt⟩

/-- C147, refuted for the densities of blas: with more than one bin they integrate to more than one over the
returned edges. -/
theorem C147_blas_density_wrong {ps : List ℝ} (hps : ps ≠ []) (hs : IsSearch ss)
    (hr : PosRange (numbers data) mn mx) (hg : Grid as bs) (hneg : o.negative = false) (hp : o.prob = false)
    (hd : o.dens = true) (h2 : ∀ n ∈ bs, 2 ≤ n) :
    ∃ (r : Ret) (bars edges : List ℝ), likelihoodBlasLog ss (some data) (some as) (some bs) ps o = .ok r ∧
      r.hist = some (bars.map fin) ∧ r.edges = some (edges.map fin) ∧ 1 < integral bars edges := by
  obtain ⟨c, hc, _, h⟩ := entry_ok (o := o) (Or.inr ⟨rfl, ps, hps, rfl⟩)
    (Or.inr ⟨Or.inr (Or.inr rfl), rfl⟩) hs hr hg hneg (fun n => Or.inr (Or.inr ⟨rfl, rfl⟩))
  refine ⟨_, tab c.2 fun i => bar o.prob o.dens (numbers data).length (logWidth mn mx c.2 0)
    (logCount (numbers data) mn mx c.2 i), logEdges mn mx c.2, h, ?_, ?_, ?_⟩
  · simp only [tab, List.map_map]; rfl
  · simp only [tab, logEdges, List.map_map]; rfl
  · have hn2 := h2 _ (mem_grid.1 hc).2
    have hn : 1 ≤ c.2 := by omega
    have hn0 : (0 : ℝ) < c.2 := by exact_mod_cast hn
    have hN : (0 : ℝ) < (numbers data).length := by exact_mod_cast one_le_length hr.1
    have hw0 := logWidth_pos hr.2 hr.1.2.2.2 hn 0
    have hq : 1 < mx / mn := (one_lt_div hr.2).2 hr.1.2.2.2
    have e1 : (tab c.2 fun i => (logCount (numbers data) mn mx c.2 i : ℝ) * (1 / (numbers data).length)).sum = 1 := by
      rw [sum_tab_mul, sum_tab_cast, sum_logCount hr hn]; field_simp
    rw [integral_tab, ← e1]
    have hb : ∀ i, bar o.prob o.dens (numbers data).length (logWidth mn mx c.2 0)
        (logCount (numbers data) mn mx c.2 i) * logWidth mn mx c.2 i =
        (logCount (numbers data) mn mx c.2 i : ℝ) * (1 / (numbers data).length) * (mx / mn) ^ ((i : ℝ) / c.2) := by
      intro i
      rw [bar, hp, if_neg (by simp), if_pos hd, logWidth_mul hr.2 hr.1.2.2.2 i]
      field_simp
    refine sum_tab_lt _ _ _ (fun i _ => ?_) ⟨c.2 - 1, by omega, ?_⟩
    · rw [hb]
      refine le_mul_of_one_le_right (by positivity) ?_
      exact Real.one_le_rpow hq.le (by positivity)
    · rw [hb]
      have hcp := logCount_last hr hn
      refine lt_mul_of_one_lt_right ?_ ?_
      · have : (0 : ℝ) < logCount (numbers data) mn mx c.2 (c.2 - 1) := by exact_mod_cast hcp
        positivity
      · apply Real.one_lt_rpow hq
        have : (0 : ℝ) < (c.2 - 1 : Nat) := by exact_mod_cast (by omega : 0 < c.2 - 1)
        positivity

/-! ### A concrete case; the cython factor -/

/-- The data set of the counterexample. -/
def logData : List (Option ℝ) := [some 1, some 1, some 1, some 16]

theorem logData_numbers : numbers logData = [1, 1, 1, 16] := rfl

theorem logData_range : PosRange (numbers logData) 1 16 := by
  rw [logData_numbers]
  refine ⟨⟨by simp, by simp, ?_, by norm_num⟩, by norm_num⟩
  intro x hx
  simp only [List.mem_cons, List.not_mem_nil, or_false] at hx
  rcases hx with rfl | rfl | rfl | rfl <;> norm_num

theorem logData_grid : Grid [2] [1, 2] := ⟨by simp, ⟨2, by simp, by norm_num⟩, by simp, by simp⟩

example : ∃ ss o, IsSearch ss ∧ PosRange (numbers logData) 1 16 ∧ Grid [2] [1, 2] ∧ Opts.negative o = false ∧
    none ∉ logData := ⟨_, Opts.default, exists_search.choose_spec, logData_range, logData_grid, rfl, by simp [logData]⟩

/-- With a NaN. -/
example : ∃ data : List (Option ℝ), none ∈ data ∧ PosRange (numbers data) 1 16 :=
  ⟨none :: logData, by simp, logData_range⟩

theorem logEdge_two : logEdge 1 16 2 1 = 4 := by
  rw [logEdge, one_mul, div_one, Nat.cast_one, Nat.cast_ofNat, ← Real.sqrt_eq_rpow,
    show (16 : ℝ) = 4 ^ 2 by norm_num, Real.sqrt_sq (by norm_num)]

theorem logEdges_two : logEdges 1 16 2 = [1, 4, 16] := by
  have h2 := logEdge_last (mn := 1) (mx := 16) (n := 2) (by norm_num) (by norm_num)
  simp only [logEdges, tab, List.range_succ, List.range_zero, List.nil_append, List.map_append, List.map_cons,
    List.map_nil, List.cons_append, logEdge_zero, logEdge_two, h2]

theorem logEdges_one : logEdges 1 16 1 = [1, 16] := by
  have h2 := logEdge_last (mn := 1) (mx := 16) (n := 1) (by norm_num) (by norm_num)
  simp only [logEdges, tab, List.range_succ, List.range_zero, List.nil_append, List.map_append, List.map_cons,
    List.map_nil, List.cons_append, logEdge_zero, h2]

theorem logData_counts : logCount (numbers logData) 1 16 1 0 = 4 ∧ logCount (numbers logData) 1 16 2 0 = 3 ∧
    logCount (numbers logData) 1 16 2 1 = 1 := by
  rw [logData_numbers]
  simp only [logCount, logEdges_one, logEdges_two]
  refine ⟨?_, ?_, ?_⟩ <;> simp only [List.countP_cons, List.countP_nil, InBin] <;> norm_num

theorem logFormula_one (k : ℝ) : logFormula (numbers logData) 1 16 k (2, 1) = 4 * Real.log (5 / (k * 15)) := by
  have h2 := logEdge_last (mn := 1) (mx := 16) (n := 1) (by norm_num) (by norm_num)
  simp only [logFormula, tab, List.range_succ, List.range_zero, List.nil_append, List.map_cons, List.map_nil,
    List.sum_cons, List.sum_nil, logWidth, logEdge_zero, logData_counts.1, h2, Nat.zero_add]
  norm_num

theorem logFormula_two (k : ℝ) : logFormula (numbers logData) 1 16 k (2, 2) =
    3 * Real.log (4 / (k * 3)) + Real.log (2 / (k * 12)) := by
  have h2 := logEdge_last (mn := 1) (mx := 16) (n := 2) (by norm_num) (by norm_num)
  simp only [logFormula, tab, List.range_succ, List.range_zero, List.nil_append, List.map_cons, List.map_nil,
    List.cons_append, List.sum_cons, List.sum_nil, logWidth, logEdge_zero, logData_counts.2.1, logData_counts.2.2,
    logEdge_two, h2, Nat.zero_add, Nat.reduceAdd]
  norm_num

theorem logVal_big (k : ℝ × Nat → ℝ) (n : Nat) : toL (logVal (numbers logData) 1 16 k (2, n)) =
    some ((logFormula (numbers logData) 1 16 (k (2, n)) (2, n) : ℝ) : EReal) := by
  rw [logVal, if_pos (Or.inl (by norm_num))]; rfl

/-- C148, refuted for cython: on the same data and grid it returns one bin where the likelihood prefers
two. -/
theorem C148_cython_wrong (hs : IsSearch ss) (o : Opts) (hneg : o.negative = false) :
    (∃ r h, likelihoodLog iterLog ss (some logData) (some [2]) (some [1, 2]) o = .ok r ∧ r.hist = some h ∧
      h.length = 2) ∧
    (∃ r h, likelihoodLog cythonLog ss (some logData) (some [2]) (some [1, 2]) o = .ok r ∧ r.hist = some h ∧
      h.length = 1) := by
  have hlen : (numbers logData).length = 4 := rfl
  constructor
  · obtain ⟨c, hc, hf, h⟩ := entry_ok (o := o) (Or.inl ⟨Or.inl rfl, rfl⟩)
      (Or.inr ⟨Or.inl rfl, rfl⟩) hs logData_range logData_grid hneg (fun n => Or.inl ⟨Or.inl rfl, rfl⟩)
    refine ⟨_, _, h, rfl, ?_⟩
    have : c = (2, 2) := by
      refine firstMax_last (a := (2, 1)) (b := (2, 2)) (logVal_big _ 1) (logVal_big _ 2) ?_ hf
      rw [logFormula_one, logFormula_two, hlen]
      have e1 : convNumpy 4 1 (2 : ℝ) = 5 := by rw [convNumpy]; norm_num
      have e2 : convNumpy 4 2 (2 : ℝ) = 7 := by rw [convNumpy]; norm_num
      rw [e1, e2]
      have f1 : (4 : ℝ) * Real.log (5 / (5 * 15)) = Real.log ((5 / (5 * 15)) ^ 4) := by rw [Real.log_pow]; norm_num
      have f2 : (3 : ℝ) * Real.log (4 / (7 * 3)) + Real.log (2 / (7 * 12)) =
          Real.log ((4 / (7 * 3)) ^ 3 * (2 / (7 * 12))) := by
        rw [Real.log_mul (by norm_num) (by norm_num), Real.log_pow]; norm_num
      rw [f1, f2]
      apply Real.log_lt_log <;> norm_num
    subst this
    simp [tab]
  · obtain ⟨c, hc, hf, h⟩ := entry_ok (o := o) (Or.inl ⟨Or.inr (Or.inl rfl), rfl⟩)
      (Or.inl ⟨rfl, rfl⟩) hs logData_range logData_grid hneg (fun n => Or.inl ⟨Or.inr rfl, rfl⟩)
    refine ⟨_, _, h, rfl, ?_⟩
    have : c = (2, 1) := by
      refine firstMax_head (a := (2, 1)) (b := (2, 2)) (logVal_big _ 1) (logVal_big _ 2) ?_ hf
      rw [logFormula_one, logFormula_two]
      have e1 : kCython (2, 1) = 2 := by rw [kCython, convCythonNoLoop]; norm_num
      have e2 : kCython (2, 2) = 5 := by rw [kCython, convCythonNoLoop]; norm_num
      rw [e1, e2]
      have f1 : (4 : ℝ) * Real.log (5 / (2 * 15)) = Real.log ((5 / (2 * 15)) ^ 4) := by rw [Real.log_pow]; norm_num
      have f2 : (3 : ℝ) * Real.log (4 / (5 * 3)) + Real.log (2 / (5 * 12)) =
          Real.log ((4 / (5 * 3)) ^ 3 * (2 / (5 * 12))) := by
        rw [Real.log_mul (by norm_num) (by norm_num), Real.log_pow]; norm_num
      rw [f1, f2]
      apply Real.log_le_log <;> norm_num
    subst this
    simp [tab]

end Verif.Jacky
