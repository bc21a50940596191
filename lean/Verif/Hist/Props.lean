import Verif.Hist.Model
import Verif.Hist.Spec
import Verif.CommonLemmas
import Mathlib.Tactic.Linarith
import Mathlib.Tactic.Ring
import Mathlib.Tactic.FieldSimp
import Mathlib.Tactic.NormNum
import Mathlib.Tactic.Positivity
import Mathlib.Data.List.Count
import Mathlib.Algebra.BigOperators.Ring.List
import Mathlib.Analysis.SpecialFunctions.Log.Basic
/-!
# C32–C33, C56: binning
-/
namespace Verif.Hist
open Verif Verif.Hist.Spec

/-! ### bincount -/

theorem top_gt (idx : List Int) (i : Int) (h : i ∈ idx) : i.toNat < top idx := by
  induction idx with
  | nil => simp at h
  | cons a t ih =>
    simp only [top, List.foldr_cons] at *
    rcases List.mem_cons.1 h with rfl | h
    · omega
    · have := ih h; omega

theorem top_le (idx : List Int) (n : Nat) (h : ∀ i ∈ idx, i.toNat < n) : top idx ≤ n := by
  induction idx with
  | nil => simp [top]
  | cons a t ih =>
    simp only [top, List.foldr_cons] at *
    have := ih (fun i hi => h i (List.mem_cons_of_mem _ hi))
    have := h a List.mem_cons_self
    omega

theorem sum_tab_count (idx : List Int) (M : Nat) (h : ∀ i ∈ idx, 0 ≤ i ∧ i < (M : Int)) :
    (tab M (fun i => idx.count (i : Int))).sum = idx.length := by
  induction idx with
  | nil => simp [tab]
  | cons a t ih =>
    have ih := ih (fun i hi => h i (List.mem_cons_of_mem _ hi))
    have ha := h a List.mem_cons_self
    have : (tab M (fun i => (a :: t).count (i : Int))).sum
        = (tab M (fun i => t.count (i : Int))).sum + (tab M (fun i => if a = (i : Int) then 1 else 0)).sum := by
      simp only [tab]
      rw [← List.sum_map_add]
      congr 1
      apply List.map_congr_left
      intro i _
      rw [List.count_cons]
      by_cases hh : a = (i : Int) <;> simp [hh]
    rw [this, ih, List.length_cons]
    congr 1
    obtain ⟨k, rfl⟩ := Int.eq_ofNat_of_zero_le ha.1
    have hk : k < M := by omega
    have key : ∀ M : Nat, (tab M (fun i => if ((k : Nat) : Int) = (i : Int) then 1 else 0)).sum
        = if k < M then 1 else 0 := by
      intro M
      induction M with
      | zero => simp [tab]
      | succ M ih =>
        simp only [tab] at ih ⊢
        rw [List.range_succ, List.map_append, List.sum_append, ih]
        simp only [List.map_cons, List.map_nil, List.sum_cons, List.sum_nil, Nat.cast_inj]
        split_ifs <;> omega
    rw [key, if_pos hk]

theorem bincount_spec (idx : List Int) (minl n : Nat) (h : ∀ i ∈ idx, 0 ≤ i ∧ i < (n : Int)) :
    ∃ c, bincount idx minl = some c ∧ c.sum = idx.length ∧ minl ≤ c.length ∧ c.length ≤ max minl n ∧
      c.length = max minl (top idx) ∧ ∀ i : Nat, c.getD i 0 = idx.count (i : Int) := by
  have h1 : (idx.any (fun i => decide (i < 0))) = false := by
    rw [List.any_eq_false]; intro i hi; have := h i hi; simp; omega
  refine ⟨_, by simp only [bincount, h1]; rfl, ?_, by simp, ?_, by simp, ?_⟩
  · apply sum_tab_count
    intro i hi
    have := top_gt idx i hi
    have := h i hi
    omega
  · have := top_le idx n (fun i hi => by have := h i hi; omega)
    simp only [length_tab]; omega
  · intro i
    by_cases hi : i < max minl (top idx)
    · simp only [tab, List.getD, List.getElem?_map, List.getElem?_range hi]
      simp
    · have : (tab (max minl (top idx)) (fun i => idx.count (i : Int)))[i]? = none := by
        rw [List.getElem?_eq_none_iff]; simpa using hi
      rw [List.getD, this, Option.getD_none]
      symm
      rw [List.count_eq_zero]
      intro hm
      have := top_gt idx _ hm
      simp at this; omega

/-! ### searching sorted edges -/
variable {K : Type} [Field K] [LinearOrder K]

theorem searchLeft_spec (edges : List K) (x : K) :
    (∀ i (h : i < edges.length), i < searchLeft edges x → edges[i] < x) ∧
    (∀ h : searchLeft edges x < edges.length, x ≤ edges[searchLeft edges x]) ∧
    searchLeft edges x ≤ edges.length := by
  induction edges with
  | nil => simp [searchLeft]
  | cons a t ih =>
    by_cases ha : a < x
    · have hs : searchLeft (a :: t) x = searchLeft t x + 1 := by simp [searchLeft, List.takeWhile_cons, ha]
      obtain ⟨h1, h2, h3⟩ := ih
      refine ⟨?_, ?_, ?_⟩
      · intro i h hi
        cases i with
        | zero => simpa using ha
        | succ i => simpa using h1 i (by simpa using h) (by omega)
      · intro h
        simp only [hs, List.getElem_cons_succ]
        exact h2 (by simp at h; omega)
      · simp [hs, h3]
    · have hs : searchLeft (a :: t) x = 0 := by simp [searchLeft, List.takeWhile_cons, ha]
      refine ⟨?_, ?_, ?_⟩
      · intro i h hi; omega
      · intro h
        simp only [hs, List.getElem_cons_zero]
        exact not_lt.1 ha
      · simp [hs]

theorem layout_lt {edges : List K} (hl : Layout edges) {i j : Nat} (hj : j < edges.length) (hij : i < j) :
    edges[i]'(by omega) < edges[j] := List.pairwise_iff_getElem.1 hl.1 i j (by omega) hj hij

theorem layout_le {edges : List K} (hl : Layout edges) {i j : Nat} (hj : j < edges.length) (hij : i ≤ j) :
    edges[i]'(by omega) ≤ edges[j] := by
  rcases Nat.lt_or_eq_of_le hij with h | rfl
  · exact (layout_lt hl hj h).le
  · exact le_rfl

theorem inBin_iff {edges : List K} {i : Nat} {x : K} :
    InBin edges i x ↔ ∃ h : i + 1 < edges.length,
      (edges[i] < x ∧ x ≤ edges[i + 1] ∨ i = 0 ∧ x = edges[i]) := by
  constructor
  · rintro ⟨lo, hi, h1, h2, h⟩
    obtain ⟨h2', rfl⟩ := List.getElem?_eq_some_iff.1 h2
    obtain ⟨h1', rfl⟩ := List.getElem?_eq_some_iff.1 h1
    exact ⟨h2', h⟩
  · rintro ⟨h, hh⟩
    exact ⟨edges[i], edges[i + 1], List.getElem?_eq_getElem _, List.getElem?_eq_getElem _, hh⟩

theorem inBin_unique {edges : List K} (hl : Layout edges) {i j : Nat} {x : K}
    (hi : InBin edges i x) (hj : InBin edges j x) : i = j := by
  rw [inBin_iff] at hi hj
  have key : ∀ a b : Nat, a < b → (∃ h : a + 1 < edges.length,
      (edges[a] < x ∧ x ≤ edges[a + 1] ∨ a = 0 ∧ x = edges[a])) → (∃ h : b + 1 < edges.length,
      (edges[b] < x ∧ x ≤ edges[b + 1] ∨ b = 0 ∧ x = edges[b])) → False := by
    rintro a b hab ⟨ha, h1⟩ ⟨hb, h2⟩
    have e1 := layout_le hl (i := a + 1) (j := b) (by omega) (by omega)
    have e2 := layout_lt hl (i := a) (j := b) (by omega) (by omega)
    rcases h2 with h2 | h2
    · rcases h1 with h1 | h1
      · exact absurd (lt_of_lt_of_le h2.1 (h1.2.trans e1)) (lt_irrefl _)
      · rw [h1.2] at h2; exact absurd (h2.1.trans e2) (lt_irrefl _)
    · omega
  rcases Nat.lt_trichotomy i j with h | h | h
  · exact (key i j h hi hj).elim
  · exact h
  · exact (key j i h hj hi).elim

theorem covers_iff {edges : List K} (hl : Layout edges) {x : K} (hx : Covers edges x) :
    edges[0]'(by have := hl.2; omega) ≤ x ∧ x ≤ edges[edges.length - 1]'(by have := hl.2; omega) := by
  obtain ⟨⟨a, ha, hax⟩, b, hb, hbx⟩ := hx
  obtain ⟨i, hi, rfl⟩ := List.getElem_of_mem ha
  obtain ⟨j, hj, rfl⟩ := List.getElem_of_mem hb
  exact ⟨(layout_le hl hi (Nat.zero_le _)).trans hax, hbx.trans (layout_le hl (by omega) (by omega))⟩

/-- C32: every point covered by the layout is put in exactly the one bin whose edges enclose it. -/
theorem C32_point_in_enclosing_bin (edges : List K) (hl : Layout edges) (x : K) (hx : Covers edges x) :
    ∃ i : Nat, binLog edges x = (i : Int) ∧ InBin edges i x ∧ ∀ j, InBin edges j x → j = i := by
  suffices h : ∃ i : Nat, binLog edges x = (i : Int) ∧ InBin edges i x by
    obtain ⟨i, h1, h2⟩ := h
    exact ⟨i, h1, h2, fun j hj => inBin_unique hl hj h2⟩
  obtain ⟨h1, h2, h3⟩ := searchLeft_spec edges x
  obtain ⟨c0, cn⟩ := covers_iff hl hx
  have hlen := hl.2
  have hlt : searchLeft edges x < edges.length := by
    rcases Nat.lt_or_eq_of_le h3 with h | h
    · exact h
    · have := h1 (edges.length - 1) (by omega) (by omega)
      exact absurd (lt_of_lt_of_le this cn) (lt_irrefl _)
  have hle := h2 hlt
  generalize hs : searchLeft edges x = s at *
  cases s with
  | zero =>
    refine ⟨0, ?_, ?_⟩
    · simp only [binLog, hs]
      split_ifs <;> simp_all <;> omega
    · rw [inBin_iff]
      exact ⟨by omega, Or.inr ⟨rfl, le_antisymm hle c0⟩⟩
  | succ s =>
    refine ⟨s, ?_, ?_⟩
    · simp only [binLog, hs]
      rw [if_neg (by push_cast; omega), if_neg (by push_cast; omega)]
      push_cast; omega
    · rw [inBin_iff]
      exact ⟨by omega, Or.inl ⟨h1 s (by omega) (by omega), hle⟩⟩

theorem binLog_iff (edges : List K) (hl : Layout edges) (x : K) (hx : Covers edges x) (i : Nat) :
    binLog edges x = (i : Int) ↔ InBin edges i x := by
  obtain ⟨j, h1, h2, h3⟩ := C32_point_in_enclosing_bin edges hl x hx
  rw [h1]
  constructor
  · intro h; have : j = i := by omega
    exact this ▸ h2
  · intro h; rw [h3 i h]

theorem binLog_range (edges : List K) (hl : Layout edges) (data : List K)
    (hd : ∀ x ∈ data, Covers edges x) :
    ∀ i ∈ data.map (binLog edges), 0 ≤ i ∧ i < ((edges.length - 1 : Nat) : Int) := by
  intro i hi
  obtain ⟨x, hx, rfl⟩ := List.mem_map.1 hi
  obtain ⟨j, h1, h2, _⟩ := C32_point_in_enclosing_bin edges hl x (hd x hx)
  obtain ⟨h, _⟩ := inBin_iff.1 h2
  rw [h1]; omega

open Classical in
theorem count_eq_countP (data : List K) (f : K → Int) (P : K → Prop) (i : Int)
    (h : ∀ x ∈ data, f x = i ↔ P x) : (data.map f).count i = data.countP (fun x => decide (P x)) := by
  rw [List.count, List.countP_map]
  apply List.countP_congr
  intro x hx
  simp [h x hx]

open Classical in
/-- C32 (log bins): the counts sum to the number of points, and the count of bin `i` (0 beyond the end of
the returned array) is the number of points enclosed by its edges. -/
theorem C32_counts_conserve_and_localise (edges data : List K) (minl : Nat) (hl : Layout edges)
    (hd : ∀ x ∈ data, Covers edges x) :
    ∃ c, histLogCounts data edges minl = some c ∧ c.sum = data.length ∧
      minl ≤ c.length ∧ c.length ≤ max minl (edges.length - 1) ∧
      ∀ i : Nat, c.getD i 0 = data.countP (fun x => decide (InBin edges i x)) := by
  obtain ⟨c, h1, h2, h3, h4, _, h5⟩ :=
    bincount_spec (data.map (binLog edges)) minl (edges.length - 1) (binLog_range edges hl data hd)
  refine ⟨c, h1, by simpa using h2, h3, h4, fun i => ?_⟩
  rw [h5 i]
  exact count_eq_countP _ _ _ _ (fun x hx => binLog_iff edges hl x (hd x hx) i)

example : Layout ([1, 2, 4] : List ℚ) ∧ ∀ x ∈ ([1, 2, 3, 4] : List ℚ), Covers [1, 2, 4] x := by
  refine ⟨⟨by simp; norm_num, by simp⟩, ?_⟩
  intro x hx
  simp only [List.mem_cons, List.not_mem_nil, or_false] at hx
  refine ⟨⟨1, by simp, ?_⟩, ⟨4, by simp, ?_⟩⟩ <;> rcases hx with rfl | rfl | rfl | rfl <;> norm_num

example : histLogCounts ([1, 2, 3, 4] : List ℚ) [1, 2, 4] 0 = some [2, 2] := by decide +kernel
example : histLogCountsAndEdges ([1, 2, 3, 4] : List ℚ) [1, 2, 4] 1 4 1 0 = some ([4], [1, 4]) := by
  decide +kernel

/-! ### Equal-width bins -/

section eqbin
variable [IsStrictOrderedRing K] [FloorRing K]

/-- The edited index (upper-edge adjustment). -/
theorem eqbin_iff (mn w : K) (hw : 0 < w) (n : Nat) (hn : 1 ≤ n) (x : K) (h0 : mn ≤ x) (h1 : x ≤ mn + n * w)
    (i : Nat) :
    (if ⌊(x - mn) / w⌋ = (n : Int) then (n : Int) - 1 else ⌊(x - mn) / w⌋) = (i : Int) ↔
      InEqBin mn w n i x := by
  have hy0 : 0 ≤ (x - mn) / w := div_nonneg (by linarith) hw.le
  have hy1 : (x - mn) / w ≤ n := by rw [div_le_iff₀ hw]; linarith
  have hn' : (0 : K) < n := by exact_mod_cast (by omega : 0 < n)
  by_cases hx : x = mn + n * w
  · have hfl : ⌊(x - mn) / w⌋ = (n : Int) := by
      have : (x - mn) / w = n := by rw [hx]; field_simp; ring
      rw [this]; simp
    rw [if_pos hfl]
    constructor
    · intro h
      have hin : i + 1 = n := by omega
      have : ((i : K) + 1) = n := by exact_mod_cast hin
      refine ⟨by omega, ?_, Or.inr ⟨hin, hx⟩⟩
      rw [hx, ← this]; linarith
    · rintro ⟨h1, h2, h3 | h3⟩
      · exfalso
        have : ((i : K) + 1) ≤ n := by exact_mod_cast h1
        have := mul_le_mul_of_nonneg_right this hw.le
        rw [hx] at h3; linarith
      · omega
  · have hlt : (x - mn) / w < n := by
      rw [div_lt_iff₀ hw]
      rcases lt_or_eq_of_le h1 with h | h
      · linarith
      · exact absurd h hx
    have hfl : ⌊(x - mn) / w⌋ < (n : Int) := by rw [Int.floor_lt]; exact_mod_cast hlt
    rw [if_neg (by omega), Int.floor_eq_iff]
    rw [le_div_iff₀ hw, div_lt_iff₀ hw]
    constructor
    · rintro ⟨h2, h3⟩
      simp only [Int.cast_natCast] at h2 h3
      refine ⟨?_, by linarith, Or.inl (by linarith)⟩
      by_contra hc
      have : (n : K) ≤ i := by exact_mod_cast (by omega : n ≤ i)
      have := mul_le_mul_of_nonneg_right this hw.le
      rw [div_lt_iff₀ hw] at hlt
      linarith
    · rintro ⟨h2, h3, h4 | h4⟩
      · simp only [Int.cast_natCast]
        constructor <;> linarith
      · exact absurd h4.2 hx

theorem eqbin_range (mn w : K) (hw : 0 < w) (n : Nat) (hn : 1 ≤ n) (x : K) (h0 : mn ≤ x)
    (h1 : x ≤ mn + n * w) :
    0 ≤ (if ⌊(x - mn) / w⌋ = (n : Int) then (n : Int) - 1 else ⌊(x - mn) / w⌋) ∧
    (if ⌊(x - mn) / w⌋ = (n : Int) then (n : Int) - 1 else ⌊(x - mn) / w⌋) < n := by
  have hy0 : 0 ≤ ⌊(x - mn) / w⌋ := Int.floor_nonneg.2 (div_nonneg (by linarith) hw.le)
  have hy1 : ⌊(x - mn) / w⌋ ≤ (n : Int) := by
    have h : (x - mn) / w ≤ n := by rw [div_le_iff₀ hw]; linarith
    have := Int.floor_le_floor h
    simpa using this
  split_ifs with h <;> omega

open Classical in
/-- C32 (equal-width bins, all three implementations at phase 0): counts sum to the number of points and
count the points enclosed by each bin; there are at least the asked-for minimum and at most the given number
of bars. -/
theorem C32_equal_width_counts (idx : K → K → K → K → Int)
    (hidx : idx = idxCython ∨ idx = idxNumexpr ∨ idx = idxBlas)
    (mn w : K) (hw : 0 < w) (n minl : Nat) (hn : 1 ≤ n) (checks : Bool) (forgiven : Nat) (data : List K)
    (hd : ∀ x ∈ data, mn ≤ x ∧ x ≤ mn + n * w) :
    ∃ c, countsWith (idx mn w 0) data n minl checks forgiven = some c ∧ c.sum = data.length ∧
      (2 ≤ n → minl ≤ c.length) ∧ c.length ≤ max minl n ∧
      ∀ i : Nat, c.getD i 0 = data.countP (fun x => decide (InEqBin mn w n i x)) := by
  by_cases h1 : n = 1
  · refine ⟨[data.length], by simp [countsWith, h1], by simp, by omega, by simp; omega, ?_⟩
    subst h1
    intro i
    cases i with
    | zero =>
      simp only [List.getD_cons_zero]
      symm
      rw [List.countP_eq_length]
      intro x hx
      have := hd x hx
      simp only [decide_eq_true_eq]
      refine ⟨by omega, by simpa using this.1, ?_⟩
      rcases lt_or_eq_of_le this.2 with h | h
      · left; simpa using h
      · right; exact ⟨rfl, h⟩
    | succ i =>
      simp only [List.getD_cons_succ, List.getD_nil]
      symm
      rw [List.countP_eq_zero]
      intro x hx h
      simp only [decide_eq_true_eq] at h
      have := h.1; omega
  · have h1n : 1 ≤ n := by omega
    have hie : ∀ x ∈ data, idx mn w 0 x = ⌊(x - mn) / w⌋ := by
      intro x hx
      have := hd x hx
      have hy0 : 0 ≤ (x - mn) / w := div_nonneg (by linarith) hw.le
      rcases hidx with rfl | rfl | rfl
      · simp [idxCython]
      · simp [idxNumexpr, hy0]
      · simp only [idxBlas, add_zero]; congr 1; field_simp
    have hr : data.map (fun x => let b := idx mn w 0 x; if b = (n : Int) then (n : Int) - 1 else b)
        = data.map (fun x => if ⌊(x - mn) / w⌋ = (n : Int) then (n : Int) - 1 else ⌊(x - mn) / w⌋) := by
      apply List.map_congr_left
      intro x hx
      simp only [hie x hx]
    have hrng : ∀ i ∈ data.map (fun x => if ⌊(x - mn) / w⌋ = (n : Int) then (n : Int) - 1 else ⌊(x - mn) / w⌋),
        0 ≤ i ∧ i < (n : Int) := by
      intro i hi
      obtain ⟨x, hx, rfl⟩ := List.mem_map.1 hi
      exact eqbin_range mn w hw n h1n x (hd x hx).1 (hd x hx).2
    obtain ⟨c, e1, e2, e3, e4, _, e5⟩ := bincount_spec _ minl n hrng
    refine ⟨c, ?_, by simpa using e2, fun _ => e3, e4, fun i => ?_⟩
    · simp only [countsWith, h1, if_false]
      rw [hr, if_neg, e1]
      simp only [Bool.and_eq_true, List.any_eq_true, decide_eq_true_eq, not_and, not_exists]
      intro _ i hi
      have := (hrng i hi).1; omega
    · rw [e5 i]
      exact count_eq_countP _ _ _ _
        (fun x hx => eqbin_iff mn w hw n h1n x (hd x hx).1 (hd x hx).2 i)

example : ∀ x ∈ ([0, 1/2, 1, 2] : List ℚ), (0 : ℚ) ≤ x ∧ x ≤ 0 + (2 : ℕ) * 1 := by
  intro x hx
  simp only [List.mem_cons, List.not_mem_nil, or_false] at hx
  rcases hx with rfl | rfl | rfl | rfl <;> norm_num

/-- C56 (what holds): at phase 0 the three equal-width implementations put every point in the same bin,
whatever the bin width and minimum. -/
theorem C56_phase_zero_agree_partial (mn w x : K) (hw : 0 < w) (hx : mn ≤ x) :
    idxCython mn w 0 x = idxNumexpr mn w 0 x ∧ idxCython mn w 0 x = idxBlas mn w 0 x := by
  have hy0 : 0 ≤ (x - mn) / w := div_nonneg (by linarith) hw.le
  refine ⟨by simp [idxCython, idxNumexpr, hy0], ?_⟩
  simp only [idxCython, idxBlas, sub_zero, add_zero]; congr 1; field_simp

/-- C56 (what fails): for every phase strictly between 0 and 1, every positive width and every data set, the
cython version puts the minimum in bin `-1`, the other two in bin 0. -/
theorem C56_phase_disagrees (mn w φ : K) (h0 : 0 < φ) (h1 : φ < 1) :
    idxCython mn w φ mn = -1 ∧ idxNumexpr mn w φ mn = 0 ∧ idxBlas mn w φ mn = 0 := by
  refine ⟨?_, ?_, ?_⟩
  · simp only [idxCython, sub_self, zero_div, zero_sub]
    rw [Int.floor_eq_iff]; constructor <;> push_cast <;> linarith
  · simp only [idxNumexpr, sub_self, zero_div, zero_sub]
    rw [if_neg (by linarith), Int.ceil_eq_iff]; constructor <;> push_cast <;> linarith
  · simp only [idxBlas, sub_self, mul_zero, zero_add]
    rw [Int.floor_eq_iff]; constructor <;> push_cast <;> linarith

theorem bincount_neg (idx : List Int) (minl : Nat) (i : Int) (hi : i ∈ idx) (h : i < 0) :
    bincount idx minl = none := by
  have : idx.any (fun i => decide (i < 0)) = true := by
    rw [List.any_eq_true]; exact ⟨i, hi, by simpa using h⟩
  simp [bincount, this]

/-- C56 (what fails): with a phase in (0,1), two or more bins and the maximum not in the lowest `φ·w`,
`_cython_histogram_counts` fails on *every* data set containing its minimum, with or without the
additional checks. -/
theorem C56_cython_phase_always_fails (mn w φ mx : K) (hw : 0 < w) (h0 : 0 < φ) (h1 : φ < 1)
    (data : List K) (n minl forgiven : Nat) (checks : Bool) (hn : 2 ≤ n) (hmn : mn ∈ data)
    (hmx : data[forgiven]? = some mx) (hlarge : mn + φ * w ≤ mx) :
    countsWith (idxCython mn w φ) data n minl checks forgiven = none := by
  have hneg : (-1 : Int) ∈ data.map (fun x => let b := idxCython mn w φ x;
      if b = (n : Int) then (n : Int) - 1 else b) := by
    refine List.mem_map.2 ⟨mn, hmn, ?_⟩
    simp only [(C56_phase_disagrees mn w φ h0 h1).1]
    rw [if_neg (by omega)]
  simp only [countsWith, show n ≠ 1 by omega, if_false]
  split_ifs with hc hf
  · exfalso
    obtain ⟨_, i, hi, hi0⟩ := hf
    rw [List.getElem?_map, hmx] at hi
    simp only [Option.map_some, Option.some.injEq] at hi
    have : 0 ≤ idxCython mn w φ mx := by
      apply Int.floor_nonneg.2
      rw [sub_nonneg, le_div_iff₀ hw]; linarith
    split_ifs at hi <;> omega
  · rfl
  · exact bincount_neg _ _ _ hneg (by norm_num)

/-- C56 (what fails): on one data set with phase 1/2 the three implementations give three different results. -/
theorem C56_three_results :
    countsWith (idxCython (0 : ℚ) 1 (1/2)) [0, 1, 2] 2 0 false 2 = none ∧
    countsWith (idxNumexpr (0 : ℚ) 1 (1/2)) [0, 1, 2] 2 0 false 2 = some [2, 1] ∧
    countsWith (idxBlas (0 : ℚ) 1 (1/2)) [0, 1, 2] 2 0 false 2 = some [1, 2] := by
  refine ⟨by decide +kernel, by decide +kernel, by decide +kernel⟩

/-- C32/C56 (the forgiven point): with the additional checks on, if rounding pushed exactly one point below the
first bin and that point is the one the code looks at, the histogram is still complete: that point is counted
in the first bin and every other point in its own. -/
theorem C32_forgiven_point (idx : K → Int) (data : List K) (n minl j : Nat) (hn : 2 ≤ n) (x0 : K)
    (hx0 : data[j]? = some x0) (hneg : idx x0 < 0)
    (hone : data.countP (fun x => decide (idx x < 0)) = 1) (hhi : ∀ x ∈ data, idx x ≤ (n : Int)) :
    ∃ c, countsWith idx data n minl true j = some c ∧ c.sum = data.length ∧
      ∀ i : Nat, c.getD i 0 = data.countP (fun x =>
        decide ((idx x < 0 ∧ i = 0) ∨ idx x = (i : Int) ∧ i < n ∨ (idx x = (n : Int) ∧ i + 1 = n))) := by
  have hr : ∀ x : K, (let b := idx x; if b = (n : Int) then (n : Int) - 1 else b) < 0 ↔ idx x < 0 := by
    intro x; simp only; split_ifs <;> omega
  have hany : (data.map (fun x => let b := idx x; if b = (n : Int) then (n : Int) - 1 else b)).any
      (fun i => decide (i < 0)) = true := by
    rw [List.any_eq_true]
    exact ⟨_, List.mem_map.2 ⟨x0, List.mem_of_getElem? hx0, rfl⟩, by simpa using (hr x0).2 hneg⟩
  have hcnt : (data.map (fun x => let b := idx x; if b = (n : Int) then (n : Int) - 1 else b)).countP
      (fun i => decide (i < 0)) = 1 := by
    rw [List.countP_map, ← hone]
    apply List.countP_congr
    intro x _
    simp only [Function.comp, decide_eq_true_eq]
    exact hr x
  have hf : ∃ i, (data.map (fun x => let b := idx x; if b = (n : Int) then (n : Int) - 1 else b))[j]? = some i ∧
      i < 0 := ⟨_, by rw [List.getElem?_map, hx0]; rfl, (hr x0).2 hneg⟩
  have hrng : ∀ i ∈ (data.map (fun x => let b := idx x; if b = (n : Int) then (n : Int) - 1 else b)).map
      (fun i => if i < 0 then 0 else i), 0 ≤ i ∧ i < (n : Int) := by
    intro i hi
    simp only [List.map_map, List.mem_map, Function.comp] at hi
    obtain ⟨x, hx, rfl⟩ := hi
    have := hhi x hx
    split_ifs <;> omega
  obtain ⟨c, e1, e2, _, _, _, e5⟩ := bincount_spec _ minl n hrng
  refine ⟨c, ?_, by simpa using e2, fun i => ?_⟩
  · simp only [countsWith, show n ≠ 1 by omega, if_false]
    rw [if_pos (by rw [Bool.true_and]; exact hany), if_pos ⟨hcnt, hf⟩, e1]
  · rw [e5 i, List.map_map]
    rw [List.count, List.countP_map]
    apply List.countP_congr
    intro x hx
    have := hhi x hx
    simp only [Function.comp, beq_iff_eq, decide_eq_true_eq]
    split_ifs <;> omega

example : countsWith (fun x : ℚ => if x = 3 then -1 else x.num) [0, 3, 1, 2] 2 0 true 1 = some [2, 2] := by
  decide +kernel

end eqbin
end Verif.Hist
