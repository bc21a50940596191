import Verif.Hist.Props
import Mathlib.Analysis.SpecialFunctions.Log.Basic
/-!
# C34–C35: likelihoods and the search for the best binning
-/
namespace Verif.Hist
open Verif

/-! ### C34 -/

/-- Specification: `c` at the split `combos = pre ++ c :: post` is the first maximiser among the entries
whose likelihood is a number. -/
def FirstMax {A : Type} (combos : List A) (L : A → Option EReal) (c : A) : Prop :=
  ∃ pre post v, combos = pre ++ c :: post ∧ L c = some v ∧
    (∀ a ∈ pre, ∀ u, L a = some u → u < v) ∧ ∀ a ∈ post, ∀ u, L a = some u → u ≤ v

/-- The iterator's fold, started from a value `b`. -/
theorem iter_fold {A : Type} (L : A → Option EReal) (combos : List A) (b : EReal × A) :
    let r := combos.foldl (fun (b : EReal × A) c => match L c with
      | some v => if b.1 < v then (v, c) else b
      | none => b) b
    (∃ pre c post v, combos = pre ++ c :: post ∧ L c = some v ∧ b.1 < v ∧ r = (v, c) ∧
      (∀ a ∈ pre, ∀ u, L a = some u → u < v) ∧ ∀ a ∈ post, ∀ u, L a = some u → u ≤ v) ∨
    (r = b ∧ ∀ a ∈ combos, ∀ u, L a = some u → u ≤ b.1) := by
  induction combos generalizing b with
  | nil => right; simp
  | cons a t ih =>
    simp only [List.foldl_cons]
    cases hL : L a with
    | none =>
      rcases ih b with ⟨pre, c, post, v, h1, h2, h3, h4, h5, h6⟩ | ⟨h1, h2⟩
      · left
        refine ⟨a :: pre, c, post, v, by simp [h1], h2, h3, h4, ?_, h6⟩
        intro x hx u hu
        rcases List.mem_cons.1 hx with rfl | hx
        · rw [hL] at hu; cases hu
        · exact h5 x hx u hu
      · right
        refine ⟨h1, ?_⟩
        intro x hx u hu
        rcases List.mem_cons.1 hx with rfl | hx
        · rw [hL] at hu; cases hu
        · exact h2 x hx u hu
    | some w =>
      simp only
      by_cases hw : b.1 < w
      · rw [if_pos hw]
        left
        rcases ih (w, a) with ⟨pre, c, post, v, h1, h2, h3, h4, h5, h6⟩ | ⟨h1, h2⟩
        · refine ⟨a :: pre, c, post, v, by simp [h1], h2, hw.trans h3, h4, ?_, h6⟩
          intro x hx u hu
          rcases List.mem_cons.1 hx with rfl | hx
          · rw [hL] at hu; cases hu; exact h3
          · exact h5 x hx u hu
        · exact ⟨[], a, t, w, rfl, hL, hw, h1, by simp, h2⟩
      · rw [if_neg hw]
        rcases ih b with ⟨pre, c, post, v, h1, h2, h3, h4, h5, h6⟩ | ⟨h1, h2⟩
        · left
          refine ⟨a :: pre, c, post, v, by simp [h1], h2, h3, h4, ?_, h6⟩
          intro x hx u hu
          rcases List.mem_cons.1 hx with rfl | hx
          · rw [hL] at hu; cases hu; exact lt_of_le_of_lt (not_lt.1 hw) h3
          · exact h5 x hx u hu
        · right
          refine ⟨h1, ?_⟩
          intro x hx u hu
          rcases List.mem_cons.1 hx with rfl | hx
          · rw [hL] at hu; cases hu; exact not_lt.1 hw
          · exact h2 x hx u hu

/-- `np.argmax` returns the first position of a largest value. -/
theorem argmax_fold (vs : List EReal) (k : Nat) (b : EReal × Nat) :
    let r := (vs.zipIdx k).foldl (fun (b : EReal × Nat) (p : EReal × Nat) => if b.1 < p.1 then p else b) b
    (∃ i v, vs[i]? = some v ∧ r = (v, k + i) ∧ b.1 < v ∧ (∀ j < i, ∀ u, vs[j]? = some u → u < v) ∧
      ∀ u ∈ vs, u ≤ v) ∨ (r = b ∧ ∀ u ∈ vs, u ≤ b.1) := by
  induction vs generalizing k b with
  | nil => right; simp
  | cons a t ih =>
    simp only [List.zipIdx_cons, List.foldl_cons]
    by_cases hw : b.1 < a
    · rw [if_pos hw]
      left
      rcases ih (k + 1) (a, k) with ⟨i, v, h1, h2, h3, h4, h5⟩ | ⟨h1, h2⟩
      · refine ⟨i + 1, v, by simpa using h1, by rw [h2]; simp; omega, hw.trans h3, ?_, ?_⟩
        · intro j hj u hu
          cases j with
          | zero => simp at hu; subst hu; exact h3
          | succ j => exact h4 j (by omega) u (by simpa using hu)
        · intro u hu
          rcases List.mem_cons.1 hu with rfl | hu
          · exact h3.le
          · exact h5 u hu
      · refine ⟨0, a, by simp, by rw [h1]; simp, hw, by simp, ?_⟩
        intro u hu
        rcases List.mem_cons.1 hu with rfl | hu
        · exact le_rfl
        · exact h2 u hu
    · rw [if_neg hw]
      rcases ih (k + 1) b with ⟨i, v, h1, h2, h3, h4, h5⟩ | ⟨h1, h2⟩
      · left
        refine ⟨i + 1, v, by simpa using h1, by rw [h2]; simp; omega, h3, ?_, ?_⟩
        · intro j hj u hu
          cases j with
          | zero => simp at hu; subst hu; exact lt_of_le_of_lt (not_lt.1 hw) h3
          | succ j => exact h4 j (by omega) u (by simpa using hu)
        · intro u hu
          rcases List.mem_cons.1 hu with rfl | hu
          · exact (lt_of_le_of_lt (not_lt.1 hw) h3).le
          · exact h5 u hu
      · right
        refine ⟨h1, ?_⟩
        intro u hu
        rcases List.mem_cons.1 hu with rfl | hu
        · exact not_lt.1 hw
        · exact h2 u hu

theorem argmax_spec (vs : List EReal) (hne : vs ≠ []) :
    ∃ v, vs[argmax vs]? = some v ∧ (∀ j < argmax vs, ∀ u, vs[j]? = some u → u < v) ∧ ∀ u ∈ vs, u ≤ v := by
  cases vs with
  | nil => exact absurd rfl hne
  | cons a t =>
    have := argmax_fold (a :: t) 0 (a, 0)
    simp only [argmax, List.headD_cons]
    rcases this with ⟨i, v, h1, h2, h3, h4, h5⟩ | ⟨h1, h2⟩
    · refine ⟨v, ?_, ?_, h5⟩
      · rw [h2]; simpa using h1
      · rw [h2]; simpa using h4
    · rw [h1]
      exact ⟨a, by simp, by simp, h2⟩

theorem firstMax_unique {A : Type} {combos : List A} {L : A → Option EReal} {a b : A}
    (ha : FirstMax combos L a) (hb : FirstMax combos L b) : a = b := by
  obtain ⟨p, q, v, h1, h2, h3, h4⟩ := ha
  obtain ⟨p', q', v', h1', h2', h3', h4'⟩ := hb
  rw [h1] at h1'
  rcases List.append_eq_append_iff.1 h1' with ⟨r, e1, e2⟩ | ⟨r, e1, e2⟩
  · cases r with
    | nil => simp at e2; exact e2.1
    | cons x r =>
      simp only [List.cons_append, List.cons.injEq] at e2
      obtain ⟨rfl, e2⟩ := e2
      have := h3' a (by rw [e1]; simp) v h2
      have := h4 b (by rw [e2]; simp) v' h2'
      exact absurd (lt_of_lt_of_le ‹v < v'› this) (lt_irrefl _)
  · cases r with
    | nil => simp at e2; exact e2.1.symm
    | cons x r =>
      simp only [List.cons_append, List.cons.injEq] at e2
      obtain ⟨rfl, e2⟩ := e2
      have := h3 b (by rw [e1]; simp) v' h2'
      have := h4' a (by rw [e2]; simp) v h2
      exact absurd (lt_of_lt_of_le ‹v' < v› this) (lt_irrefl _)

/-- C34: whenever some tried combination has a likelihood above `-inf`, the iterator and the numpy search
both return the first maximiser in iteration order. -/
theorem C34_search_returns_first_maximiser_partial {A : Type} (combos : List A) (L : A → Option EReal)
    (dflt : A) (h : ∃ c ∈ combos, ∃ v, L c = some v ∧ ⊥ < v) :
    ∃ c, FirstMax combos L c ∧ searchIter combos L dflt = c ∧ searchNumpy combos L = some c := by
  obtain ⟨c0, hc0, v0, hv0, hb0⟩ := h
  have h1 : ∃ c, FirstMax combos L c ∧ searchIter combos L dflt = c := by
    rcases iter_fold L combos (⊥, dflt) with ⟨pre, c, post, v, h1, h2, _, h4, h5, h6⟩ | ⟨_, h2⟩
    · exact ⟨c, ⟨pre, post, v, h1, h2, h5, h6⟩, by rw [searchIter]; exact congrArg Prod.snd h4⟩
    · exact absurd (lt_of_lt_of_le hb0 (h2 c0 hc0 v0 hv0)) (lt_irrefl _)
  obtain ⟨c, hc, hi⟩ := h1
  refine ⟨c, hc, hi, ?_⟩
  rw [searchNumpy, if_neg (by intro hall; rw [hall c0 hc0] at hv0; cases hv0)]
  obtain ⟨v, a1, a2, a3⟩ := argmax_spec (combos.map (fun c => (L c).getD ⊥))
    (by simpa using List.ne_nil_of_mem hc0)
  generalize argmax (combos.map (fun c => (L c).getD ⊥)) = k at a1 a2
  rw [List.getElem?_map] at a1
  cases hk : combos[k]? with
  | none => rw [hk] at a1; cases a1
  | some d =>
    rw [hk] at a1
    simp only [Option.map_some, Option.some.injEq] at a1
    have hvb : ⊥ < v := by
      have := a3 v0 (List.mem_map.2 ⟨c0, hc0, by simp [hv0]⟩)
      exact lt_of_lt_of_le hb0 this
    have hLd : L d = some v := by
      cases hd : L d with
      | none => rw [hd] at a1; simp at a1; rw [← a1] at hvb; exact absurd hvb (lt_irrefl _)
      | some w => rw [hd] at a1; simp at a1; rw [a1]
    obtain ⟨hkl, hkd⟩ := List.getElem?_eq_some_iff.1 hk
    have hfm : FirstMax combos L d := by
      refine ⟨combos.take k, combos.drop (k + 1), v, ?_, hLd, ?_, ?_⟩
      · rw [← hkd, List.getElem_cons_drop, List.take_append_drop]
      · intro a ha u hu
        obtain ⟨j, hj, rfl⟩ := List.getElem_of_mem ha
        simp only [List.length_take] at hj
        apply a2 j (by omega) u
        rw [List.getElem?_map, List.getElem?_eq_getElem (by omega)]
        simp only [List.getElem_take] at hu
        simp [hu]
      · intro a ha u hu
        apply a3 u
        exact List.mem_map.2 ⟨a, List.mem_of_mem_drop ha, by simp [hu]⟩
    rw [firstMax_unique hfm hc]

example : ∃ c ∈ ([1, 2, 3] : List Nat), ∃ v, (if c = 1 then none else some ((c : ℝ) : EReal)) = some v ∧ ⊥ < v :=
  ⟨2, by simp, ((2 : ℕ) : ℝ), by simp, EReal.bot_lt_coe _⟩

/-- C34 (what fails): if the first tried combination gives NaN, none gives more than `-inf` and at least one
gives `-inf`, numpy returns the combination with the NaN likelihood while the iterator returns its
initial default values. -/
theorem C34_degenerate_disagree {A : Type} (a : A) (rest : List A) (L : A → Option EReal) (dflt : A)
    (hnan : L a = none) (hrest : ∀ c ∈ rest, L c = none ∨ L c = some ⊥) (hsome : ∃ c ∈ rest, L c = some ⊥) :
    searchNumpy (a :: rest) L = some a ∧ searchIter (a :: rest) L dflt = dflt := by
  constructor
  · rw [searchNumpy, if_neg]
    · obtain ⟨v, a1, a2, a3⟩ := argmax_spec ((a :: rest).map (fun c => (L c).getD ⊥)) (by simp)
      have hz : argmax ((a :: rest).map (fun c => (L c).getD ⊥)) = 0 := by
        by_contra hne
        have h0 := a2 0 (by omega) ⊥ (by simp [hnan])
        have hv : v ∈ (a :: rest).map (fun c => (L c).getD ⊥) := List.mem_of_getElem? a1
        obtain ⟨c, hc, rfl⟩ := List.mem_map.1 hv
        rcases List.mem_cons.1 hc with rfl | hc
        · simp [hnan] at h0
        · rcases hrest c hc with h | h <;> simp [h] at h0
      rw [hz]; rfl
    · intro hall
      obtain ⟨c, hc, h⟩ := hsome
      rw [hall c (List.mem_cons_of_mem _ hc)] at h; cases h
  · rcases iter_fold L (a :: rest) (⊥, dflt) with ⟨pre, c, post, v, h1, h2, h3, _⟩ | ⟨h, _⟩
    · exfalso
      have hc : c ∈ a :: rest := by rw [h1]; simp
      rcases List.mem_cons.1 hc with rfl | hc
      · rw [hnan] at h2; cases h2
      · rcases hrest c hc with h | h
        · rw [h] at h2; cases h2
        · rw [h] at h2; cases h2; exact absurd h3 (lt_irrefl _)
    · rw [searchIter]; exact congrArg Prod.snd h

/-! ### C35 -/
variable {K : Type} [Field K] [LinearOrder K]

theorem zip_self_map {A B C : Type} (f : A → B → C) (g : A → B) (l : List A) :
    List.zipWith f l (l.map g) = l.map (fun a => f a (g a)) := by
  induction l with
  | nil => rfl
  | cons a t ih => simp [ih]

theorem foldl_add (l : List K) (g : K → K) (a : K) : l.foldl (fun a n => a + g n) a = a + (l.map g).sum := by
  induction l generalizing a with
  | nil => simp
  | cons x t ih => simp [ih, add_assoc]

/-- C35: for one and the same conversion factor, the four equal-width likelihoods agree, for every
logarithm function. -/
theorem C35_likelihoods_agree_given_factor (lg : K → K) (counts : List K) (w α k : K) :
    jackyCython lg counts α w k = jackyNumpy lg counts w α k ∧
    jackyNumexpr lg counts w α k = jackyNumpy lg counts w α k ∧
    jackyBlas lg counts w α k = jackyNumpy lg counts w α k := by
  refine ⟨?_, ?_, ?_⟩
  · rw [jackyCython, jackyNumpy, zip_self_map, foldl_add, zero_add]
  · rw [jackyNumexpr, jackyNumpy, zip_self_map]
  · rw [jackyBlas, jackyNumpy, zip_self_map, zip_self_map]
    congr 1
    apply List.map_congr_left
    intro n _
    rw [one_div_mul_eq_div, add_sub_assoc]

/-- C35: likewise for the variable-width (log) likelihoods, for matching numbers of counts and edges. -/
theorem C35_log_likelihoods_agree_given_factor (lg : K → K) (counts edges : List K) (α k : K)
    (hlen : edges.length = counts.length + 1) :
    jackyLogCython lg counts edges α k = some (jackyLogNumpy lg counts edges α k) ∧
    jackyLogNumexpr lg counts edges α k = jackyLogNumpy lg counts edges α k ∧
    jackyLogBlas lg counts edges α k = jackyLogNumpy lg counts edges α k := by
  have hne : jackyLogNumexpr lg counts edges α k = jackyLogNumpy lg counts edges α k := by
    rw [jackyLogNumexpr, jackyLogNumpy]
    congr 1
    apply List.ext_getElem
    · simp
    · intro i h1 h2
      simp only [List.getElem_zipWith]
      rw [add_sub_assoc, mul_comm k]
  refine ⟨?_, hne, ?_⟩
  · rw [← hne, jackyLogNumexpr, jackyLogCython]
    rw [foldlM_some _ _ (fun a d => a + (counts.getD d 0) *
      lg ((counts.getD d 0 + α - 1) / (k * (edges.getD (d + 1) 0 - edges.getD d 0))))]
    · congr 1
      rw [foldl_add_sum (n := counts.length) (g := fun d => (counts.getD d 0) *
        lg ((counts.getD d 0 + α - 1) / (k * (edges.getD (d + 1) 0 - edges.getD d 0)))), zero_add]
      rw [Finset.sum_range, ← List.sum_ofFn]
      congr 1
      apply List.ext_getElem
      · simp [widths, hlen]
      · intro i h1 h2
        have hi : i < counts.length := by simpa using h1
        simp only [List.getElem_ofFn, List.getElem_zipWith, widths, List.getElem_tail, List.getElem_dropLast]
        rw [List.getD, List.getD, List.getD, List.getElem?_eq_getElem hi,
          List.getElem?_eq_getElem (by omega), List.getElem?_eq_getElem (by omega)]
        simp
    · intro i hi a
      have hi : i < counts.length := by simpa using hi
      rw [List.getD, List.getD, List.getD, List.getElem?_eq_getElem hi,
          List.getElem?_eq_getElem (by omega), List.getElem?_eq_getElem (by omega)]
      simp
  · rw [jackyLogBlas, jackyLogNumpy]
    congr 1
    congr 1
    congr 1
    funext n w
    rw [one_div_mul_eq_div, div_div, mul_comm k]

theorem sum_map_add_const (counts : List K) (α : K) :
    (counts.map (fun n => n + α)).sum = counts.sum + (counts.length : K) * α := by
  induction counts with
  | nil => simp
  | cons a t ih => simp [ih]; ring

/-- C35: the numpy, cython-loop, numexpr and BLAS conversion factors agree for counts summing to the number
of points (BLAS sums absolute values, hence the sign condition). -/
theorem C35_conversion_factors_agree_partial [IsStrictOrderedRing K] (counts : List K) (N : Nat) (α : K)
    (hs : counts.sum = N) :
    convCythonLoop counts α = convNumpy N counts.length α ∧
    convNumexpr counts α = convNumpy N counts.length α ∧
    ((∀ n ∈ counts, 0 ≤ n + α) → convBlas counts α = convNumpy N counts.length α) := by
  have key : convNumexpr counts α = convNumpy N counts.length α := by
    rw [convNumexpr, convNumpy, sum_map_add_const, hs]; ring
  refine ⟨?_, key, ?_⟩
  · rw [convCythonLoop, foldl_add counts (fun n => n + α), zero_add, ← key, convNumexpr]
  · intro h
    rw [← key, convBlas, convNumexpr]
    congr 2
    apply List.map_congr_left
    intro n hn
    exact abs_of_nonneg (h n hn)

example : ([2, 3] : List ℚ).sum = (5 : ℕ) ∧ ∀ n ∈ ([2, 3] : List ℚ), 0 ≤ n + 1 := by
  constructor
  · norm_num
  · intro n hn; simp only [List.mem_cons, List.not_mem_nil, or_false] at hn; rcases hn with rfl | rfl <;> norm_num

/-- C35 (what fails): the loop-free cython factor, the one the cython drivers use, equals the others exactly
when there are as many bins as data points. -/
theorem C35_cython_no_loop_factor_wrong [CharZero K] (N nBins : Nat) (α : K) :
    convCythonNoLoop nBins α = convNumpy N nBins α ↔ N = nBins := by
  rw [convCythonNoLoop, convNumpy]
  constructor
  · intro h
    have : (N : K) = nBins := by linear_combination -h
    exact_mod_cast this
  · rintro rfl; ring

/-- How a likelihood over the reals changes when another conversion factor is used. -/
theorem jacky_factor_change (counts : List ℝ) (w α k k' : ℝ) (hw : 0 < w) (hk : 0 < k) (hk' : 0 < k')
    (hc : ∀ n ∈ counts, n ≠ 0 → 0 < n + α - 1) :
    jackyNumpy Real.log counts w α k' = jackyNumpy Real.log counts w α k +
      counts.sum * (Real.log k - Real.log k') := by
  rw [jackyNumpy, jackyNumpy, zip_self_map, zip_self_map]
  induction counts with
  | nil => simp
  | cons n t ih =>
    have ih := ih (fun m hm => hc m (List.mem_cons_of_mem _ hm))
    simp only [List.map_cons, List.sum_cons, ih]
    by_cases hn : n = 0
    · simp [hn]
    · have hp := hc n List.mem_cons_self hn
      rw [Real.log_div hp.ne' (by positivity), Real.log_div hp.ne' (by positivity),
        Real.log_mul hk.ne' hw.ne', Real.log_mul hk'.ne' hw.ne']
      ring

/-- C35 (what fails): hence the cython likelihood differs from the numpy one for every non-empty data set
whose size is not the number of bins (positive width and factors, valid logarithm arguments). -/
theorem C35_cython_likelihood_wrong (counts : List ℝ) (N : Nat) (w α : ℝ) (hw : 0 < w)
    (hs : counts.sum = N) (hN : N ≠ 0) (hne : N ≠ counts.length)
    (hk : 0 < convNumpy N counts.length α) (hk' : 0 < convCythonNoLoop counts.length α)
    (hc : ∀ n ∈ counts, n ≠ 0 → 0 < n + α - 1) :
    jackyCython Real.log counts α w (convCythonNoLoop counts.length α) ≠
      jackyNumpy Real.log counts w α (convNumpy N counts.length α) := by
  rw [(C35_likelihoods_agree_given_factor _ _ _ _ _).1, jacky_factor_change counts w α _ _ hw hk hk' hc, hs]
  intro h
  have h0 : (N : ℝ) * (Real.log (convNumpy N counts.length α) - Real.log (convCythonNoLoop counts.length α)) = 0 := by
    linarith
  rcases mul_eq_zero.1 h0 with h | h
  · exact hN (by exact_mod_cast h)
  · have := Real.log_injOn_pos (Set.mem_Ioi.2 hk) (Set.mem_Ioi.2 hk') (by linarith)
    exact hne ((C35_cython_no_loop_factor_wrong N counts.length α).1 this.symm)

example : 0 < convNumpy (K := ℝ) 5 ([2, 3] : List ℝ).length 1 ∧ 0 < convCythonNoLoop (K := ℝ) ([2, 3] : List ℝ).length 1 := by
  constructor <;> norm_num [convNumpy, convCythonNoLoop]

end Verif.Hist
