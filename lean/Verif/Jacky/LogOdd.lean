import Verif.Jacky.LogMore
/-!
# C147, C149: equal data, data that are not positive
-/
namespace Verif.Jacky
open Verif.Hist Verif.Hist.Spec X Spec
open Classical

variable {data : List (Option ℝ)} {d : List ℝ} {as : List ℝ} {bs : List Nat} {o : Opts} {n : Nat} {ss : Search}

/-! ### All numbers equal -/

theorem amin_const {x : ℝ} {l : List ℝ} (hl : l ≠ []) (h : ∀ y ∈ l, y = x) : amin l = x ∧ amax l = x :=
  ⟨h _ (amin_spec hl).1, h _ (amax_spec hl).1⟩

theorem top_replicate (N : Nat) (hN : N ≠ 0) : top (List.replicate N (0 : Int)) = 1 := by
  induction N with
  | zero => simp at hN
  | succ m ih =>
    rcases Nat.eq_zero_or_pos m with rfl | hm
    · rfl
    · have := ih (by omega)
      simp only [top, List.replicate_succ, List.foldr_cons] at this ⊢
      rw [this]; rfl

theorem bincount_replicate (N : Nat) (hN : N ≠ 0) : bincount (List.replicate N 0) 0 = some [N] := by
  rw [bincount, if_neg (by simp), top_replicate N hN]
  simp [tab]

theorem searchLeft_const (x : ℝ) (m : Nat) : searchLeft (List.replicate m x) x = 0 := by
  cases m with
  | zero => rfl
  | succ m => simp [searchLeft, List.replicate_succ]

theorem logspace_const {x : ℝ} (hx : 0 < x) (hn : n ≠ 0) :
    logspace (fin (Real.logb 10 x)) (fin (Real.logb 10 x)) n = (List.replicate (n + 1) x).map fin := by
  have hn0 : (n : ℝ) ≠ 0 := by exact_mod_cast hn
  have hp : (10 : ℝ) ^ Real.logb 10 x = x := Real.rpow_logb (by norm_num) (by norm_num) hx
  rw [logspace, linspaceX, if_neg hn, List.replicate_succ']
  simp only [List.map_append, List.map_cons, List.map_nil, List.map_replicate, pow10, hp]
  congr 1
  simp only [tab, List.map_map]
  rw [List.eq_replicate_iff]
  refine ⟨by simp, ?_⟩
  intro b hb
  obtain ⟨i, _, rfl⟩ := List.mem_map.1 hb
  simp only [Function.comp]
  rw [sub_fin, sub_self, div_fin hn0, mul_fin, add_fin, pow10, zero_div, mul_zero, zero_add, hp]

theorem logCountsEdges_const (hs : IsSearch ss) {x : ℝ} (hx : 0 < x) (hd : d ≠ []) (h : ∀ y ∈ d, y = x)
    (hn : 2 ≤ n) : logCountsEdges ss d n = .ok ([d.length], (List.replicate (n + 1) x).map fin) := by
  have hlog : d.map log10 = (d.map (Real.logb 10)).map fin := map_log10 fun y hy => by rw [h y hy]; exact hx
  have hc : ∀ y ∈ d.map (Real.logb 10), y = Real.logb 10 x := by
    intro y hy
    obtain ⟨z, hz, rfl⟩ := List.mem_map.1 hy
    rw [h z hz]
  have hne : d.map (Real.logb 10) ≠ [] := by simpa using hd
  obtain ⟨e1, e2⟩ := amin_const hne hc
  have hidx : (d.map fun y => guardIdx n (ss ((List.replicate (n + 1) x).map fin) y)) = List.replicate d.length 0 := by
    rw [List.eq_replicate_iff]
    refine ⟨by simp, ?_⟩
    intro b hb
    obtain ⟨y, hy, rfl⟩ := List.mem_map.1 hb
    rw [h y hy, hs.sorted _ _ (by rw [List.pairwise_replicate]; exact Or.inr le_rfl), searchLeft_const]
    simp only [guardIdx]
    norm_num
    omega
  unfold logCountsEdges
  rw [if_neg (by omega)]
  simp only [hlog, xmin_fin, xmax_fin hne, e1, e2]
  rw [logspace_const hx (by omega), hidx, bincount_replicate _ (by simpa using hd)]

theorem widthsX_const (x : ℝ) (m : Nat) :
    widthsX ((List.replicate (m + 1) x).map fin) = List.replicate m (fin 0) := by
  rw [List.eq_replicate_iff]
  refine ⟨by simp [widthsX], ?_⟩
  intro b hb
  obtain ⟨i, hi, rfl⟩ := List.getElem_of_mem hb
  simp only [widthsX, List.getElem_zipWith, List.getElem_tail, List.getElem_map, List.getElem_replicate, sub_fin,
    sub_self]

theorem foldl_pinf (m : Nat) : (List.replicate m pinf).foldl add pinf = pinf := by
  induction m with
  | zero => rfl
  | succ m ih => rw [List.replicate_succ, List.foldl_cons]; exact ih

theorem sum_pinf {m : Nat} (hm : m ≠ 0) : sum (List.replicate m pinf) = pinf := by
  obtain ⟨k, rfl⟩ := Nat.exists_eq_succ_of_ne_zero hm
  rw [sum, List.replicate_succ, List.foldl_cons]
  exact foldl_pinf k

theorem term_zero {N : Nat} (hN : N ≠ 0) {α k : ℝ} (hα : 0 < α) : term N (fin 0) α (fin k) = pinf := by
  have h1 : (1 : ℝ) ≤ N := by exact_mod_cast Nat.one_le_iff_ne_zero.2 hN
  have h2 : (0 : ℝ) < (N : ℝ) + α - 1 := by linarith
  rw [term, mul_fin, mul_zero, div, if_pos rfl, infOf, if_neg h2.ne', if_pos h2]
  show mul (fin N) pinf = pinf
  rw [mul, infOf, if_neg (by linarith), if_pos (by linarith)]

theorem searchLoop_error {A S : Type} (init : S) (a : A) (t : List A) (L : A → M (X × S)) {e : Err}
    (h : L a = .error e) : searchLoop init (a :: t) L = .error e := by
  rw [searchLoop, List.foldlM_cons, h]
  rfl

theorem foldl_keep_top {A S : Type} (t : List A) (L : A → M (X × S)) (s : S)
    (h : ∀ a ∈ t, ∃ r, L a = .ok r) :
    (t.foldlM (fun b a => (L a).map (keepBest b)) (pinf, s) : M (X × S)) = .ok (pinf, s) := by
  induction t with
  | nil => rfl
  | cons a t ih =>
    obtain ⟨r, hr⟩ := h a (by simp)
    rw [List.foldlM_cons, hr]
    have : keepBest (pinf, s) r = (pinf, s) := by
      have : gt r.1 pinf = false := by cases r.1 <;> rfl
      rw [keepBest, this]; rfl
    show (t.foldlM _ (keepBest (pinf, s) r) : M (X × S)) = _
    rw [this]
    exact ih fun a ha => h a (List.mem_cons_of_mem _ ha)

theorem front_two (h2 : 2 ≤ data.length) (hn : numbers data ≠ []) (rest : List ℝ → List ℝ → List Nat → M Ret) :
    front (some data) (some as) (some bs) o rest = rest (numbers data) as bs := by
  have hall : ¬ ∀ x ∈ data, x = none := by
    intro h
    apply hn
    rw [numbers, List.filterMap_eq_nil_iff]
    intro x hx
    rw [h x hx]; rfl
  unfold front
  simp only
  rw [if_neg (by omega), if_neg (by omega), if_neg hall]
  rfl

/-- The likelihood of equal data: `+inf`, except that the iterator refuses. -/
theorem evalLog_const (hs : IsSearch ss) {x : ℝ} (hx : 0 < x) (hd : d ≠ []) (h : ∀ y ∈ d, y = x)
    {α : ℝ} (hα : 0 < α) (hn : 2 ≤ n) :
    evalLog iterLog ss d (α, n) = .error .valueError ∧
    evalLog cythonLog ss d (α, n) = .ok (pinf, fin α, n) ∧
    evalLog numexprLog ss d (α, n) = .ok (pinf, fin α, n) ∧
    evalLog blasLog ss d (α, n) = .ok (pinf, fin α, n) := by
  have hc := logCountsEdges_const hs hx hd h hn
  have hN : d.length ≠ 0 := by simpa using hd
  obtain ⟨m, rfl⟩ : ∃ m, n = m + 2 := ⟨n - 2, by omega⟩
  have hb : ∀ B : LogBackend, evalLog B ss d (α, m + 2) = (B.like [d.length] (List.replicate (m + 2) (fin 0)) α
      (B.conv [d.length] d.length (m + 2) α)).map fun l => (l, fin α, m + 2) := by
    intro B
    rw [evalLog, hc]
    show Except.map _ (B.like _ (widthsX _) _ _) = _
    rw [widthsX_const]
  refine ⟨?_, ?_, ?_, ?_⟩
  · rw [hb]
    have hl : iterLog.like = likeIterLog := rfl
    rw [hl, likeIterLog, if_neg (by simp)]
    rfl
  · rw [hb]
    show Except.map _ (Except.ok (sum [termL α _ d.length (fin 0)])) = _
    have : cythonLog.conv [d.length] d.length (m + 2) α = fin (convCythonNoLoop 1 α) := rfl
    rw [this, termL, term_zero hN hα]
    rfl
  · rw [hb]
    have : numexprLog.conv [d.length] d.length (m + 2) α = fin (convNumexpr [(d.length : ℝ)] α) := rfl
    have hl : numexprLog.like = fun cs ws α k => (broadcast (termL α k) cs ws).map sum := rfl
    rw [this, hl]
    dsimp only
    unfold broadcast
    rw [if_neg (by simp)]
    show Except.map _ (Except.ok (sum ((List.replicate (m + 2) (fin 0)).map (termL α _ d.length)))) = _
    rw [List.map_replicate, termL, term_zero hN hα, sum_pinf (by omega)]
    rfl
  · rw [hb]
    have hl : blasLog.like = likeBlasLog := rfl
    rw [hl]
    have h1 : (1 : ℝ) ≤ d.length := by exact_mod_cast Nat.one_le_iff_ne_zero.2 hN
    have hk : 0 < convBlas [(d.length : ℝ)] α := by
      rw [convBlas]
      simp only [List.map_cons, List.map_nil, List.sum_cons, List.sum_nil]
      rw [abs_of_pos (by linarith)]
      linarith
    have : blasLog.conv [d.length] d.length (m + 2) α = fin (convBlas [(d.length : ℝ)] α) := rfl
    rw [this, likeBlasLog, if_pos (Or.inr (by simp)), List.replicate_succ]
    show Except.map _ (Except.ok (sum [_])) = _
    have hp : 0 < 1 / convBlas [(d.length : ℝ)] α * ((d.length : ℝ) + (α - 1)) :=
      mul_pos (one_div_pos.2 hk) (by linarith)
    dsimp only
    rw [div_fin hk.ne', mul_fin, div, if_pos rfl, infOf, if_neg hp.ne', if_pos hp]
    have : mul (fin (d.length : ℝ)) (log pinf) = pinf := by
      show mul (fin (d.length : ℝ)) pinf = pinf
      rw [mul, infOf, if_neg (by linarith), if_pos (by linarith)]
    rw [this]
    rfl

/-- C147, refuted for data of one value (two entries or more) and more than one bin: the iterator raises
`ValueError`; the other three return one bar with at least three edges, all equal to that value. -/
theorem C147_equal_wrong (hs : IsSearch ss) {x : ℝ} (hx : 0 < x) (h2 : 2 ≤ data.length)
    (hd : numbers data ≠ []) (h : ∀ y ∈ numbers data, y = x) {α : ℝ} (hα : 0 < α) (hn : 2 ≤ n)
    (hneg : o.negative = false) (hp : o.prob = true) :
    likelihoodLog iterLog ss (some data) (some [α]) (some [n]) o = .error .valueError ∧
    ∀ B res, IsLogEntry ss data [α] [n] o B res → B ≠ iterLog → ∃ r b, res = .ok r ∧
      r.hist = some [b] ∧ r.edges = some (List.replicate (n + 1) (fin x)) := by
  obtain ⟨e1, e2, e3, e4⟩ := evalLog_const hs hx hd h hα hn
  have hc := logCountsEdges_const hs hx hd h hn
  constructor
  · rw [likelihoodLog, front_two h2 hd, runLog, hneg, if_neg (by simp)]
    show Except.bind (searchLoop (nan, 0) [(α, n)] (evalLog iterLog ss (numbers data))) _ = _
    rw [searchLoop_error _ _ _ _ e1]
    rfl
  · intro B res hres hB
    have hev : evalLog B ss (numbers data) (α, n) = .ok (pinf, fin α, n) := by
      rcases hres with ⟨rfl | rfl | rfl, _⟩ | ⟨rfl, _⟩
      · exact absurd rfl hB
      · exact e2
      · exact e3
      · exact e4
    have hnorm : ∃ b, B.norm o [(numbers data).length] (numbers data).length data.length
        (List.replicate n (fin 0)) = .ok [b] := by
      rcases hres with ⟨rfl | rfl | rfl, _⟩ | ⟨rfl, _⟩
      · exact absurd rfl hB
      · exact ⟨_, by show (if o.prob then _ else _) = _; rw [if_pos hp]; rfl⟩
      · exact ⟨_, by show (if o.prob then _ else _) = _; rw [if_pos hp]; rfl⟩
      · exact ⟨_, by show (if o.prob then _ else _) = _; rw [if_pos hp]; rfl⟩
    obtain ⟨b, hb⟩ := hnorm
    have hrun : ∀ cs : List (ℝ × Nat), cs ≠ [] → (∀ c ∈ cs, c = (α, n)) → ∃ r b,
        runLog B ss o data.length (numbers data) cs = .ok r ∧
        r.hist = some [b] ∧ r.edges = some (List.replicate (n + 1) (fin x)) := by
      intro cs hne hcs
      have hsl : searchLoop (nan, 0) cs (evalLog B ss (numbers data)) = .ok (fin α, n) := by
        cases cs with
        | nil => exact absurd rfl hne
        | cons c t =>
          rw [searchLoop, List.foldlM_cons, hcs c (by simp), hev]
          show Except.map Prod.snd (t.foldlM _ (pinf, fin α, n) : M _) = _
          rw [foldl_keep_top t _ _
            (fun a ha => ⟨(pinf, fin α, n), by rw [hcs a (List.mem_cons_of_mem _ ha), hev]⟩)]
          rfl
      refine ⟨⟨some [b], some (List.replicate (n + 1) (fin x)), some (.arr (List.replicate n (fin 0))),
        binningParams o (fin α, n)⟩, b, ?_, rfl, rfl⟩
      rw [runLog, hneg, if_neg (by simp), hsl]
      show finishLog B ss o (numbers data) data.length (fin α, n) = _
      rw [finishLog, hc]
      show Except.map _ (B.norm o _ _ _ (widthsX _)) = _
      rw [widthsX_const, hb]
      simp only [List.map_replicate]
      rfl
    rcases hres with ⟨_, rfl⟩ | ⟨rfl, ps, hps, rfl⟩
    · rw [likelihoodLog, front_two h2 hd]
      exact hrun [(α, n)] (by simp) (by simp)
    · rw [likelihoodBlasLog, front_two h2 hd]
      refine hrun _ ?_ ?_
      · simpa [combos3] using hps
      · intro c hc
        simp only [combos3, List.flatMap_cons, List.flatMap_nil, List.append_nil, List.map_map] at hc
        obtain ⟨_, _, rfl⟩ := List.mem_map.1 hc
        rfl

example : 2 ≤ [some (3 : ℝ), some 3].length ∧ numbers [some (3 : ℝ), some 3] ≠ [] ∧
    ∀ y ∈ numbers [some (3 : ℝ), some 3], y = 3 := by simp [numbers]

/-! ### Data that are not positive -/

/-- What the search loop can return. -/
theorem searchLoop_cases {A S : Type} (init : S) (cs : List A) (L : A → M (X × S)) :
    (∃ a ∈ cs, ∃ e, L a = .error e ∧ searchLoop init cs L = .error e) ∨ searchLoop init cs L = .ok init ∨
      ∃ a ∈ cs, ∃ v s, L a = .ok (v, s) ∧ v ≠ nan ∧ searchLoop init cs L = .ok s := by
  have key : ∀ (cs : List A) (b : X × S),
      (∃ a ∈ cs, ∃ e, L a = .error e ∧
        (cs.foldlM (fun b a => (L a).map (keepBest b)) b : M (X × S)) = .error e) ∨
      (cs.foldlM (fun b a => (L a).map (keepBest b)) b : M (X × S)) = .ok b ∨
      ∃ a ∈ cs, ∃ r, L a = .ok r ∧ r.1 ≠ nan ∧
        (cs.foldlM (fun b a => (L a).map (keepBest b)) b : M (X × S)) = .ok r := by
    intro cs
    induction cs with
    | nil => intro b; exact Or.inr (Or.inl rfl)
    | cons a t ih =>
      intro b
      rw [List.foldlM_cons]
      cases hL : L a with
      | error e => exact Or.inl ⟨a, by simp, e, hL, rfl⟩
      | ok r =>
        have hb : (do let s' ← Except.map (keepBest b) (Except.ok r : M (X × S))
                      t.foldlM (fun b a => (L a).map (keepBest b)) s' : M (X × S)) =
            t.foldlM (fun b a => (L a).map (keepBest b)) (keepBest b r) := rfl
        rw [hb]
        have hk : keepBest b r = b ∨ keepBest b r = r ∧ r.1 ≠ nan := by
          by_cases hg : gt r.1 b.1 = true
          · right
            refine ⟨by rw [keepBest, if_pos hg], ?_⟩
            intro h
            rw [h, nan_gt] at hg
            cases hg
          · left
            rw [keepBest, if_neg hg]
        rcases ih (keepBest b r) with ⟨a', ha', e, h1, h2⟩ | h | ⟨a', ha', r', h1, h2, h3⟩
        · exact Or.inl ⟨a', List.mem_cons_of_mem _ ha', e, h1, h2⟩
        · rcases hk with hk | ⟨hk, hn⟩
          · rw [hk] at h ⊢; exact Or.inr (Or.inl h)
          · rw [hk] at h ⊢; exact Or.inr (Or.inr ⟨a, by simp, r, hL, hn, h⟩)
        · exact Or.inr (Or.inr ⟨a', List.mem_cons_of_mem _ ha', r', h1, h2, h3⟩)
  rcases key cs (ninf, init) with ⟨a, ha, e, h1, h2⟩ | h | ⟨a, ha, r, h1, h2, h3⟩
  · exact Or.inl ⟨a, ha, e, h1, by rw [searchLoop, h2]; rfl⟩
  · exact Or.inr (Or.inl (by rw [searchLoop, h]; rfl))
  · exact Or.inr (Or.inr ⟨a, ha, r.1, r.2, h1, h2, by rw [searchLoop, h3]; rfl⟩)

theorem sub_nan (a : X) : sub a nan = nan := add_nan _
theorem nan_sub (a : X) : sub nan a = nan := nan_add _
theorem mul_nan (a : X) : mul a nan = nan := by cases a <;> rfl
theorem nan_mul (a : X) : mul nan a = nan := by cases a <;> rfl
theorem div_nan (a : X) : div a nan = nan := by cases a <;> rfl
theorem nan_div (a : X) : div nan a = nan := by cases a <;> rfl

/-- The extreme logarithms of data with a number that is not positive. -/
theorem xrange_bad (h : ∃ x ∈ d, x ≤ 0) :
    (xmin (d.map log10) = nan ∧ xmax (d.map log10) = nan) ∨
    (xmin (d.map log10) = ninf ∧ (xmax (d.map log10) = ninf ∨ ∃ b, xmax (d.map log10) = fin b)) := by
  by_cases hn : nan ∈ d.map log10
  · left; exact ⟨by rw [xmin, if_pos hn], by rw [xmax, if_pos hn]⟩
  · right
    obtain ⟨x, hx, h0⟩ := h
    have hi : ninf ∈ d.map log10 := by
      refine List.mem_map.2 ⟨x, hx, ?_⟩
      rcases h0.lt_or_eq with h1 | h1
      · exact absurd (List.mem_map.2 ⟨x, hx, by rw [log10, if_pos h1]⟩) hn
      · rw [log10, if_neg (by simp [h1]), if_pos h1]
    refine ⟨by rw [xmin, if_neg hn, if_pos hi], ?_⟩
    rw [xmax, if_neg hn]
    split_ifs
    · exact Or.inl rfl
    · exact Or.inr ⟨_, rfl⟩

/-- The edges: all but the last are NaN. -/
theorem logspace_bad (h : ∃ x ∈ d, x ≤ 0) (hn : n ≠ 0) :
    ∃ e, logspace (xmin (d.map log10)) (xmax (d.map log10)) n = List.replicate n nan ++ [e] := by
  have hn0 : (n : ℝ) ≠ 0 := by exact_mod_cast hn
  have hnn : ¬ (n : ℝ) < 0 := by simp
  refine ⟨pow10 (xmax (d.map log10)), ?_⟩
  rw [logspace, linspaceX, if_neg hn]
  simp only [List.map_append, List.map_cons, List.map_nil]
  congr 1
  rw [List.eq_replicate_iff]
  refine ⟨by simp, ?_⟩
  intro b hb
  simp only [tab, List.map_map] at hb
  obtain ⟨i, _, rfl⟩ := List.mem_map.1 hb
  simp only [Function.comp]
  rcases xrange_bad h with ⟨e1, e2⟩ | ⟨e1, e2 | ⟨b, e2⟩⟩
  · rw [e1, add_nan]; rfl
  · rw [e1, e2]
    have : sub ninf ninf = nan := rfl
    rw [this, nan_div, mul_nan, nan_add]; rfl
  · rw [e1, e2]
    have : sub (fin b) ninf = pinf := rfl
    rw [this, div, if_neg hnn]
    have hm : mul (fin (i : ℝ)) pinf = nan ∨ mul (fin (i : ℝ)) pinf = pinf := by
      rw [mul, infOf]
      split_ifs with h1 h2
      · exact Or.inl rfl
      · exact Or.inr rfl
      · exfalso
        have : (0 : ℝ) ≤ i := Nat.cast_nonneg _
        exact h2 (lt_of_le_of_ne this (Ne.symm h1))
    rcases hm with hm | hm <;> rw [hm] <;> rfl

theorem widthsX_bad (e : X) : widthsX (List.replicate n nan ++ [e]) = List.replicate n nan := by
  rw [List.eq_replicate_iff]
  refine ⟨by simp [widthsX], ?_⟩
  intro b hb
  obtain ⟨i, hi, rfl⟩ := List.getElem_of_mem hb
  have hin : i < n := by simpa [widthsX] using hi
  simp only [widthsX, List.getElem_zipWith]
  rw [List.getElem_append_left (by simpa using hin), List.getElem_replicate, sub_nan]

theorem guardIdx_nonneg (hn : 1 ≤ n) (k : Nat) : 0 ≤ guardIdx n k := by
  simp only [guardIdx]
  split_ifs <;> omega

/-- The counts of data with a number that is not positive; NaN widths. -/
theorem logCountsEdges_bad (h : ∃ x ∈ d, x ≤ 0) (hn : 2 ≤ n) :
    ∃ c cs e, logCountsEdges ss d n = .ok (c :: cs, e) ∧ widthsX e = List.replicate n nan := by
  obtain ⟨e, he⟩ := logspace_bad h (by omega : n ≠ 0)
  have hne : d ≠ [] := by rintro rfl; simp at h
  obtain ⟨x, t, rfl⟩ := List.exists_cons_of_ne_nil hne
  have hb : ∃ c cs, bincount ((x :: t).map fun y => guardIdx n (ss (List.replicate n nan ++ [e]) y)) 0 =
      some (c :: cs) := by
    rw [bincount, if_neg]
    · have htop : ∃ m, max 0 (top ((x :: t).map fun y => guardIdx n (ss (List.replicate n nan ++ [e]) y))) = m + 1 := by
        refine ⟨_ - 1, (Nat.sub_add_cancel ?_).symm⟩
        simp only [List.map_cons, top, List.foldr_cons]
        rw [Nat.zero_max]
        exact (Nat.le_add_left 1 _).trans (le_max_left _ _)
      obtain ⟨m, hm⟩ := htop
      rw [hm]
      simp only [tab, List.range_succ_eq_map, List.map_cons]
      exact ⟨_, _, rfl⟩
    · simp only [List.any_map, Bool.not_eq_true, List.any_eq_false]
      intro y _
      exact decide_eq_false (not_lt.2 <| guardIdx_nonneg (le_trans (by norm_num) hn) _)
  obtain ⟨c, cs, hcs⟩ := hb
  refine ⟨c, cs, List.replicate n nan ++ [e], ?_, widthsX_bad e⟩
  unfold logCountsEdges
  rw [if_neg (by omega)]
  simp only [he]
  rw [hcs]

theorem term_nan_width (c : Nat) (α : ℝ) (k : X) : term c nan α k = nan := by
  rw [term, mul_nan, div_nan]
  exact mul_nan _

/-- The likelihood of more than one bin is NaN or an exception. -/
theorem evalLog_bad {B : LogBackend} (hB : B = iterLog ∨ B = cythonLog ∨ B = numexprLog ∨ B = blasLog)
    (h : ∃ x ∈ d, x ≤ 0) (α : ℝ) (hn : 2 ≤ n) :
    evalLog B ss d (α, n) = .error .valueError ∨ ∃ s, evalLog B ss d (α, n) = .ok (nan, s) := by
  obtain ⟨c, cs, e, hc, hw⟩ := logCountsEdges_bad (ss := ss) h hn
  obtain ⟨m, rfl⟩ : ∃ m, n = m + 1 := ⟨n - 1, by omega⟩
  have hb : evalLog B ss d (α, m + 1) = (B.like (c :: cs) (nan :: List.replicate m nan) α
      (B.conv (c :: cs) d.length (m + 1) α)).map fun l => (l, fin α, m + 1) := by
    rw [evalLog, hc]
    show Except.map _ (B.like _ (widthsX _) _ _) = _
    rw [hw, List.replicate_succ]
  have key : ∀ k, B.like (c :: cs) (nan :: List.replicate m nan) α k = .error .valueError ∨
      B.like (c :: cs) (nan :: List.replicate m nan) α k = .ok nan := by
    intro k
    rcases hB with rfl | rfl | rfl | rfl
    · have hl : iterLog.like = likeIterLog := rfl
      rw [hl, likeIterLog]
      split_ifs
      · right
        rw [List.zipWith_cons_cons, nan_mul, div_nan]
        refine congrArg Except.ok (sum_nan _ ?_)
        rw [show log nan = nan from rfl, mul_nan]
        exact List.mem_cons_self
      · exact Or.inl rfl
    · right
      have hl : cythonLog.like = fun cs ws α k => .ok (sum (List.zipWith (termL α k) cs ws)) := rfl
      rw [hl]
      dsimp only
      rw [List.zipWith_cons_cons, termL, term_nan_width]
      exact congrArg Except.ok (sum_nan _ List.mem_cons_self)
    · have hl : numexprLog.like = fun cs ws α k => (broadcast (termL α k) cs ws).map sum := rfl
      rw [hl]
      dsimp only
      unfold broadcast
      split_ifs
      · right
        rw [List.zipWith_cons_cons, termL, term_nan_width]
        exact congrArg Except.ok (sum_nan _ List.mem_cons_self)
      · cases cs with
        | nil =>
          right
          show Except.ok (sum ((nan :: List.replicate m nan).map (termL α k c))) = _
          rw [List.map_cons, termL, term_nan_width]
          exact congrArg Except.ok (sum_nan _ List.mem_cons_self)
        | cons c' cs' => exact Or.inl rfl
    · have hl : blasLog.like = likeBlasLog := rfl
      rw [hl, likeBlasLog]
      split_ifs
      · right
        rw [List.zipWith_cons_cons, div_nan]
        refine congrArg Except.ok (sum_nan _ ?_)
        rw [show log nan = nan from rfl, mul_nan]
        exact List.mem_cons_self
      · exact Or.inl rfl
  rw [hb]
  rcases key (B.conv (c :: cs) d.length (m + 1) α) with hk | hk <;> rw [hk]
  · exact Or.inl rfl
  · exact Or.inr ⟨_, rfl⟩

/-- Zero bins: the guards produce index `-1`. -/
theorem logCountsEdges_zero (hs : IsSearch ss) (hd : d ≠ []) : logCountsEdges ss d 0 = .error .valueError := by
  obtain ⟨x, t, rfl⟩ := List.exists_cons_of_ne_nil hd
  have hidx : ∀ e : List X, e.length = 1 → ∀ y, guardIdx 0 (ss e y) = -1 := by
    intro e he y
    have := hs.le e y
    rw [he] at this
    have : ss e y = 0 ∨ ss e y = 1 := by omega
    rcases this with h | h <;> rw [h] <;> rfl
  have hl : ∀ a b, (logspace a b 0).length = 1 := fun a b => by simp [logspace, linspaceX]
  unfold logCountsEdges
  rw [if_neg (by omega)]
  dsimp only
  rw [bincount, if_pos]
  rw [List.map_cons, List.any_cons, hidx _ (hl _ _)]
  rfl

/-- C149: for data with a number that is not positive (two entries or more), whatever the grid and the
phases, the log-scale functions return no bins in the logarithm: `None`s if `negative_values` is set, else
`ValueError`, or one bin between the extreme values, and this only if one bin is among the tried numbers. -/
theorem C149_not_positive (hs : IsSearch ss) (h2 : 2 ≤ data.length) (h : ∃ x ∈ numbers data, x ≤ 0)
    {B : LogBackend} {res : M Ret} (hres : IsLogEntry ss data as bs o B res) :
    (o.negative = true → res = .ok Ret.none) ∧
    (o.negative = false → res = .error .valueError ∨
      1 ∈ bs ∧ ∃ r b, res = .ok r ∧ r.hist = some [b] ∧
        r.edges = some [fin (amin (numbers data)), fin (amax (numbers data))]) := by
  have hd : numbers data ≠ [] := by intro h0; rw [h0] at h; simp at h
  have hB : B = iterLog ∨ B = cythonLog ∨ B = numexprLog ∨ B = blasLog := by
    rcases hres with ⟨rfl | rfl | rfl, _⟩ | ⟨rfl, _⟩ <;> simp
  have hrun : ∃ cs : List (ℝ × Nat), (∀ c ∈ cs, c.2 ∈ bs) ∧
      res = runLog B ss o data.length (numbers data) cs := by
    rcases hres with ⟨_, rfl⟩ | ⟨rfl, ps, hps, rfl⟩
    · refine ⟨combos2 as bs, ?_, by rw [likelihoodLog, front_two h2 hd]; rfl⟩
      intro c hc
      exact (mem_grid (as := as).1 hc).2
    · refine ⟨_, ?_, by rw [likelihoodBlasLog, front_two h2 hd]; rfl⟩
      intro c hc
      obtain ⟨c', hc', rfl⟩ := List.mem_map.1 hc
      simp only [combos3, List.mem_flatMap, List.mem_map] at hc'
      obtain ⟨_, _, n, hn, _, _, rfl⟩ := hc'
      exact hn
  obtain ⟨cs, hcs, rfl⟩ := hrun
  refine ⟨fun hneg => by rw [runLog, if_pos hneg], fun hneg => ?_⟩
  rw [runLog, hneg, if_neg (by simp)]
  have hz : ∀ α, evalLog B ss (numbers data) (α, 0) = .error .valueError := by
    intro α
    rw [evalLog, logCountsEdges_zero hs hd]; rfl
  have hone : logCountsEdges ss (numbers data) 1 = .ok ([(numbers data).length],
      [fin (amin (numbers data)), fin (amax (numbers data))]) := by rw [logCountsEdges, if_pos rfl]
  have hlike1 : ∀ k α, ∃ v, B.like [(numbers data).length] [fin (amax (numbers data) - amin (numbers data))] α k =
      .ok v := by
    intro k α
    rcases hB with rfl | rfl | rfl | rfl <;> exact ⟨_, rfl⟩
  have hnorm1 : ∃ b, B.norm o [(numbers data).length] (numbers data).length data.length
      [fin (amax (numbers data) - amin (numbers data))] = .ok [b] := by
    rcases hB with rfl | rfl | rfl | rfl
    · simp only [iterLog]; split_ifs <;> exact ⟨_, rfl⟩
    · simp only [cythonLog]; split_ifs <;> exact ⟨_, rfl⟩
    · simp only [numexprLog]; split_ifs <;> exact ⟨_, rfl⟩
    · simp only [blasLog]; split_ifs <;> exact ⟨_, rfl⟩
  have hev1 : ∀ α, ∃ v, evalLog B ss (numbers data) (α, 1) = .ok (v, fin α, 1) := by
    intro α
    obtain ⟨v, hv⟩ := hlike1 (B.conv [(numbers data).length] (numbers data).length 1 α) α
    refine ⟨v, ?_⟩
    rw [evalLog, hone]
    show Except.map _ (B.like _ (widthsX _) _ _) = _
    have hw : widthsX [fin (amin (numbers data)), fin (amax (numbers data))] =
      [fin (amax (numbers data) - amin (numbers data))] := by simp [widthsX]
    rw [hw, hv]; rfl
  rcases searchLoop_cases (nan, 0) cs (evalLog B ss (numbers data)) with ⟨c, hc, e, h1, hl⟩ | hl |
      ⟨c, hc, v, s, h1, hv, hl⟩
  · left
    rw [hl]
    obtain ⟨α, n⟩ := c
    rcases Nat.lt_or_ge n 2 with hn | hn
    · have : n = 0 ∨ n = 1 := by omega
      rcases this with rfl | rfl
      · rw [hz] at h1; cases h1; rfl
      · obtain ⟨v, hv⟩ := hev1 α
        rw [hv] at h1; cases h1
    · rcases evalLog_bad (ss := ss) hB h α hn with he | ⟨s, he⟩
      · rw [he] at h1; cases h1; rfl
      · rw [he] at h1; cases h1
  · left
    rw [hl]
    show finishLog B ss o _ _ (nan, 0) = _
    rw [finishLog, logCountsEdges_zero hs hd]; rfl
  · right
    rw [hl]
    obtain ⟨α, n⟩ := c
    have hn1 : n = 1 := by
      rcases Nat.lt_or_ge n 2 with hn | hn
      · have : n = 0 ∨ n = 1 := by omega
        rcases this with rfl | rfl
        · rw [hz] at h1; cases h1
        · rfl
      · rcases evalLog_bad (ss := ss) hB h α hn with he | ⟨s', he⟩
        · rw [he] at h1; cases h1
        · rw [he] at h1; cases h1; exact absurd rfl hv
    subst hn1
    obtain ⟨v', hv'⟩ := hev1 α
    rw [hv'] at h1
    cases h1
    obtain ⟨b, hb⟩ := hnorm1
    refine ⟨hcs _ hc, ⟨some [b], some [fin (amin (numbers data)), fin (amax (numbers data))],
      some (.arr [fin (amax (numbers data) - amin (numbers data))]), binningParams o (fin α, 1)⟩, b, ?_, rfl, rfl⟩
    show finishLog B ss o _ _ (fin α, 1) = _
    rw [finishLog, hone]
    show Except.map _ (B.norm o _ _ _ (widthsX _)) = _
    have hw : widthsX [fin (amin (numbers data)), fin (amax (numbers data))] =
      [fin (amax (numbers data) - amin (numbers data))] := by simp [widthsX]
    rw [hw, hb]; rfl

/-- The second case occurs: data with a zero, one bin. -/
theorem C149_one_bin (hneg : o.negative = false) (hp : o.prob = true) :
    ∃ r b, likelihoodLog iterLog ss (some [some 0, some 1]) (some [2]) (some [1]) o = .ok r ∧
      r.hist = some [b] := by
  have hnum : numbers [some (0 : ℝ), some 1] = [0, 1] := rfl
  have hd : numbers [some (0 : ℝ), some 1] ≠ [] := by simp [hnum]
  have hmin : amin ([0, 1] : List ℝ) = 0 := by simp [amin]
  have hmax : amax ([0, 1] : List ℝ) = 1 := by simp [amax]
  have hone : logCountsEdges ss [0, 1] 1 = .ok ([2], [fin 0, fin 1]) := by
    rw [logCountsEdges, if_pos rfl, hmin, hmax]; rfl
  have hw : widthsX [fin 0, fin 1] = [fin 1] := by simp [widthsX]
  have hl : iterLog.like [2] [fin 1] 2 (iterLog.conv [2] 2 1 2) = .ok (fin (2 * Real.log (3 / 3))) := by
    have h1 : iterLog.like = likeIterLog := rfl
    have h2 : iterLog.conv [2] 2 1 2 = fin 3 := by
      show fin (convNumpy 2 1 2) = _
      rw [convNumpy]; norm_num
    rw [h1, h2, likeIterLog, if_pos (by simp)]
    simp only [List.zipWith_cons_cons, List.zipWith_nil_right, mul_fin]
    rw [div_fin (by norm_num), log_fin (by norm_num), mul_fin, sum]
    simp only [List.foldl_cons, List.foldl_nil, add_fin]
    norm_num
  have hev : evalLog iterLog ss [0, 1] (2, 1) = .ok (fin (2 * Real.log (3 / 3)), fin 2, 1) := by
    rw [evalLog, hone]
    have hlen : ([0, 1] : List ℝ).length = 2 := rfl
    simp only [Except.bind, hw, hlen, hl]
    rfl
  have hs : searchLoop (nan, 0) [((2 : ℝ), 1)] (evalLog iterLog ss [0, 1]) = .ok (fin 2, 1) := by
    show Except.map Prod.snd (Except.bind (Except.map (keepBest (ninf, nan, 0))
      (evalLog iterLog ss [0, 1] (2, 1))) fun b => .ok b) = _
    rw [hev]
    rfl
  have hn : iterLog.norm o [2] 2 2 [fin 1] = .ok [div (fin (2 : Nat)) (fin (2 : Nat))] := by
    show (if o.prob then _ else _) = _
    rw [if_pos hp]
    rfl
  refine ⟨⟨some [div (fin (2 : Nat)) (fin (2 : Nat))], some [fin 0, fin 1], some (.arr [fin 1]),
    binningParams o (fin 2, 1)⟩, _, ?_, rfl⟩
  rw [likelihoodLog, front_two (by simp) hd, runLog, hneg, if_neg (by simp), hnum]
  show Except.bind (searchLoop (nan, 0) [((2 : ℝ), 1)] (evalLog iterLog ss [0, 1])) _ = _
  rw [hs]
  show finishLog iterLog ss o [0, 1] 2 (fin 2, 1) = _
  rw [finishLog, hone]
  show Except.map _ (iterLog.norm o [2] 2 2 (widthsX [fin 0, fin 1])) = _
  rw [hw, hn]
  rfl

example : 2 ≤ [some (-1 : ℝ), some 1].length ∧ ∃ x ∈ numbers [some (-1 : ℝ), some 1], x ≤ 0 := by
  simp [numbers]

end Verif.Jacky
