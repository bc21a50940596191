import Verif.Hist.Density
/-!
# C168: histograms on given edges

Model of `histogram_log_spec_edges` (numpy_iterator_jacky.py 790-849), `histogram_blas_log_spec_edges` (blas_jacky.py 892-951),
`histogram_numexpr_log_spec_edges` (numexpr_jacky.py 870-936) and `histogram_cython_log_spec_edges` (cy_jacky.py 842-918) on top of
the functions of `Model.lean`.  Data are numbers (no NaN); `none` is a raised exception, or for cython a read beyond the edges.
-/
namespace Verif.Hist
open Verif Verif.Hist.Spec

variable {K : Type} [Field K] [LinearOrder K]

/-- The four versions. -/
inductive Version where
  | numpy | blas | numexpr | cython
deriving DecidableEq

/-- The numexpr expression for densities, numexpr_jacky.py:925-934: `counts / (N * (ha - hb))` with broadcasting. -/
def densNumexprEdges (data edges : List K) (minl : Nat) : Option (List K) := do
  let c ← histLogCounts data edges minl
  bdiv (c.map (fun (n : Nat) => (n : K))) ((widths edges).map ((data.length : K) * ·))

/-- The four functions; the outer `none` is an exception, the inner one the returned `None`. -/
def specEdges (v : Version) (data edges : Option (List K)) (prob dens : Bool) (minl : Nat) (negative : Bool) :
    Option (Option (List K)) :=
  match edges, data with
  | some e, some d =>
    if d.length = 0 then some none
    else if negative then some none
    else if prob then (probLog d e minl).map some
    else if dens then
      match v with
      | .numpy => (densLog d e minl).map some
      | .blas => (densLog d e minl).map some
      | .numexpr => (densNumexprEdges d e minl).map some
      | .cython => (densLogCython d e minl).map some
    else (histLogCounts d e minl).map fun c => some (c.map (fun (n : Nat) => (n : K)))
  | _, _ => some none

/-! ### Specification -/

/-- `x` belongs to bin `i` if the first and the last bin are unbounded to the outside. -/
def Spec.InOpenBin (edges : List K) (i : Nat) (x : K) : Prop :=
  ∃ lo hi, edges[i]? = some lo ∧ edges[i + 1]? = some hi ∧ (i = 0 ∨ lo < x) ∧ (i + 2 = edges.length ∨ x ≤ hi)

/-- The bars: number of points, share of the points, or share per width. -/
def Spec.IsBars (data edges : List K) (prob dens : Bool) (bars : List K) : Prop :=
  bars.length + 1 = edges.length ∧ ∀ i lo hi (pts : List K), edges[i]? = some lo → edges[i + 1]? = some hi →
    (∃ P : K → Bool, (∀ x, P x = true ↔ InOpenBin edges i x) ∧ pts = data.filter P) →
    bars[i]? = some (if prob then (pts.length : K) / data.length else if dens then (pts.length : K) / (data.length * (hi - lo)) else pts.length)

/-! ### Proofs -/

theorem inOpenBin_iff {edges : List K} {i : Nat} {x : K} : InOpenBin edges i x ↔ ∃ h : i + 1 < edges.length,
    (i = 0 ∨ edges[i] < x) ∧ (i + 2 = edges.length ∨ x ≤ edges[i + 1]) := by
  constructor
  · rintro ⟨lo, hi, h1, h2, h⟩
    obtain ⟨h2', rfl⟩ := List.getElem?_eq_some_iff.1 h2
    obtain ⟨h1', rfl⟩ := List.getElem?_eq_some_iff.1 h1
    exact ⟨h2', h⟩
  · rintro ⟨h, hh⟩
    exact ⟨edges[i], edges[i + 1], List.getElem?_eq_getElem _, List.getElem?_eq_getElem _, hh⟩

theorem inOpenBin_unique {edges : List K} (hl : Layout edges) {i j : Nat} {x : K} (hi : InOpenBin edges i x)
    (hj : InOpenBin edges j x) : i = j := by
  rw [inOpenBin_iff] at hi hj
  have key : ∀ a b : Nat, a < b → (∃ h : a + 1 < edges.length, (a = 0 ∨ edges[a] < x) ∧ (a + 2 = edges.length ∨ x ≤ edges[a + 1])) →
      (∃ h : b + 1 < edges.length, (b = 0 ∨ edges[b] < x) ∧ (b + 2 = edges.length ∨ x ≤ edges[b + 1])) → False := by
    rintro a b hab ⟨ha, -, h1⟩ ⟨hb, h2, -⟩
    have e1 := layout_le hl (i := a + 1) (j := b) (by omega) (by omega)
    rcases h2 with h2 | h2
    · omega
    · rcases h1 with h1 | h1
      · omega
      · exact absurd (lt_of_lt_of_le h2 (h1.trans e1)) (lt_irrefl _)
  rcases Nat.lt_trichotomy i j with h | h | h
  · exact (key i j h hi hj).elim
  · exact h
  · exact (key j i h hj hi).elim

theorem binLog_open (edges : List K) (hl : Layout edges) (x : K) : ∃ i : Nat, binLog edges x = (i : Int) ∧ InOpenBin edges i x := by
  obtain ⟨h1, h2, h3⟩ := searchLeft_spec edges x
  have hlen := hl.2
  generalize hs : searchLeft edges x = s at *
  cases s with
  | zero =>
    refine ⟨0, ?_, ?_⟩
    · simp only [binLog, hs]
      split_ifs with a b <;> simp at a ⊢ <;> omega
    · rw [inOpenBin_iff]
      refine ⟨by omega, Or.inl rfl, Or.inr ((h2 (by omega)).trans ?_)⟩
      exact layout_le hl (by omega) (by omega)
  | succ s =>
    by_cases he : s + 1 = edges.length
    · refine ⟨s - 1, ?_, ?_⟩
      · simp only [binLog, hs]
        split_ifs <;> push_cast at * <;> omega
      · rw [inOpenBin_iff]
        refine ⟨by omega, Or.inr (h1 _ (by omega) (by omega)), Or.inl (by omega)⟩
    · refine ⟨s, ?_, ?_⟩
      · simp only [binLog, hs]
        split_ifs <;> push_cast at * <;> omega
      · rw [inOpenBin_iff]
        exact ⟨by omega, Or.inr (h1 _ (by omega) (by omega)), Or.inr (h2 (by omega))⟩

theorem binLog_open_iff (edges : List K) (hl : Layout edges) (x : K) (i : Nat) : binLog edges x = (i : Int) ↔ InOpenBin edges i x := by
  obtain ⟨j, h1, h2⟩ := binLog_open edges hl x
  constructor
  · intro h
    have : i = j := by omega
    exact this ▸ h2
  · intro h
    rw [h1, inOpenBin_unique hl h h2]

theorem binLog_open_range (edges : List K) (hl : Layout edges) (data : List K) :
    ∀ i ∈ data.map (binLog edges), 0 ≤ i ∧ i < ((edges.length - 1 : Nat) : Int) := by
  intro i hi
  obtain ⟨x, _, rfl⟩ := List.mem_map.1 hi
  obtain ⟨j, h1, h2⟩ := binLog_open edges hl x
  obtain ⟨h, _⟩ := inOpenBin_iff.1 h2
  omega

/-- The counts for all bins. -/
theorem counts_open (edges : List K) (hl : Layout edges) (data : List K) : ∃ c, histLogCounts data edges (edges.length - 1) = some c ∧
    c.length = edges.length - 1 ∧ c.sum = data.length ∧
    ∀ (i : Nat) (P : K → Bool), (∀ x, P x = true ↔ InOpenBin edges i x) → c.getD i 0 = (data.filter P).length := by
  obtain ⟨c, h1, h2, h3, h4, _, h5⟩ := bincount_spec (data.map (binLog edges)) (edges.length - 1) (edges.length - 1)
    (binLog_open_range edges hl data)
  refine ⟨c, h1, by omega, by simpa using h2, ?_⟩
  intro i P hP
  rw [h5 i, List.count, List.countP_map, List.countP_eq_length_filter]
  congr 1
  apply List.filter_congr
  intro x _
  have : binLog edges x = (i : Int) ↔ P x = true := (binLog_open_iff edges hl x i).trans (hP x).symm
  by_cases h : P x = true
  · simp [Function.comp, this.2 h, h]
  · have h' : ¬ binLog edges x = (i : Int) := fun g => h (this.1 g)
    simp only [Function.comp, Bool.not_eq_true] at *
    rw [h]; simpa using h'

theorem isBars_of (edges : List K) (data : List K) (prob dens : Bool) (c : List Nat) (bars : List K)
    (hc : c.length + 1 = edges.length) (hb : bars.length = c.length)
    (h2 : ∀ (i : Nat) (P : K → Bool), (∀ x, P x = true ↔ InOpenBin edges i x) → c.getD i 0 = (data.filter P).length)
    (h : ∀ i (h1 : i < bars.length) (h2 : i + 1 < edges.length), bars[i] = if prob then (c.getD i 0 : K) / data.length
      else if dens then (c.getD i 0 : K) / (data.length * (edges[i + 1] - edges[i])) else (c.getD i 0 : K)) :
    IsBars data edges prob dens bars := by
  refine ⟨by omega, ?_⟩
  rintro i lo hi pts e1 e2 ⟨P, hP, rfl⟩
  obtain ⟨g2, rfl⟩ := List.getElem?_eq_some_iff.1 e2
  obtain ⟨g1, rfl⟩ := List.getElem?_eq_some_iff.1 e1
  rw [List.getElem?_eq_getElem (by omega), h i (by omega) g2, h2 i P hP]

/-- **C168.** For increasing edges and any data, if all bins are asked for, the four versions return the same bars: every
point is counted once, in the bin with its two edges, points outside the edges in the first or last bin. -/
theorem C168_bars_partial (v : Version) (edges data : List K) (hl : Layout edges) (hd : data ≠ []) (prob dens : Bool) :
    ∃ bars, specEdges v (some data) (some edges) prob dens (edges.length - 1) false = some (some bars) ∧
      IsBars data edges prob dens bars := by
  obtain ⟨c, h1, h3, _, h2⟩ := counts_open edges hl data
  have hlen := hl.2
  have h0 : ¬ data.length = 0 := by simpa using hd
  have hc : c.length + 1 = edges.length := by omega
  have hgd : ∀ i (h : i < c.length), c.getD i 0 = c[i] := by
    intro i h; rw [List.getD, List.getElem?_eq_getElem h]; rfl
  cases prob with
  | true =>
    refine ⟨c.map fun (n : Nat) => (n : K) / (data.length : K), ?_, ?_⟩
    · simp [specEdges, hd, probLog, h1]
    · refine isBars_of edges data true dens c _ hc (by simp) h2 ?_
      intro i g1 _
      have g1 : i < c.length := by simpa using g1
      simp only [List.getElem_map, if_true, hgd i g1]
  | false =>
    cases dens with
    | false =>
      refine ⟨c.map fun (n : Nat) => (n : K), ?_, ?_⟩
      · simp [specEdges, hd, h1]
      · refine isBars_of edges data false false c _ hc (by simp) h2 ?_
        intro i g1 _
        have g1 : i < c.length := by simpa using g1
        simp only [List.getElem_map, Bool.false_eq_true, if_false, hgd i g1]
    | true =>
      have hw : (widths edges).length = c.length := by rw [length_widths]; omega
      have hwi : ∀ i (h : i < (widths edges).length) (h' : i + 1 < edges.length), (widths edges)[i] = edges[i + 1] - edges[i] := by
        intro i h h'
        simp only [widths, List.getElem_zipWith, List.getElem_tail, List.getElem_dropLast]
      have hbars : ∀ bars : List K, bars.length = c.length →
          (∀ i (h : i < bars.length) (h' : i + 1 < edges.length), bars[i] = (c.getD i 0 : K) / (data.length * (edges[i + 1] - edges[i]))) →
          IsBars data edges false true bars := by
        intro bars hb h
        refine isBars_of edges data false true c _ hc hb h2 ?_
        intro i g1 g2
        rw [h i g1 g2]
        simp
      have hnp : ∃ bars, densLog data edges (edges.length - 1) = some bars ∧ IsBars data edges false true bars := by
        refine ⟨List.zipWith (· / ·) (c.map fun (n : Nat) => (n : K) / (data.length : K)) (widths edges), ?_, ?_⟩
        · simp [densLog, probLog, h1, bdiv, hw]
        · apply hbars
          · simp [hw]
          · intro i g g'
            have g1 : i < c.length := by simpa [hw] using g
            simp only [List.getElem_zipWith, List.getElem_map, hgd i g1]
            rw [hwi i (by omega) g', div_div]
      cases v with
      | numpy =>
        obtain ⟨bars, e, hb⟩ := hnp
        exact ⟨bars, by simp [specEdges, hd, e], hb⟩
      | blas =>
        obtain ⟨bars, e, hb⟩ := hnp
        exact ⟨bars, by simp [specEdges, hd, e], hb⟩
      | numexpr =>
        refine ⟨List.zipWith (· / ·) (c.map fun (n : Nat) => (n : K)) ((widths edges).map ((data.length : K) * ·)), ?_, ?_⟩
        · simp [specEdges, hd, densNumexprEdges, h1, bdiv, hw]
        · apply hbars
          · simp [hw]
          · intro i g g'
            have g1 : i < c.length := by simpa [hw] using g
            simp only [List.getElem_zipWith, List.getElem_map, hgd i g1]
            rw [hwi i (by omega) g']
      | cython =>
        refine ⟨(List.range c.length).map fun i => (c.getD i 0 : K) / ((data.length : K) * (edges.getD (i+1) 0 - edges.getD i 0)), ?_, ?_⟩
        · simp only [specEdges, h0, if_false, Bool.false_eq_true, if_true, densLogCython, h1, Option.bind_eq_bind, Option.bind_some]
          rw [mapM_total _ _ (fun i => (c.getD i 0 : K) / ((data.length : K) * (edges.getD (i+1) 0 - edges.getD i 0)))]
          · rfl
          · intro i hi
            have hi : i < c.length := by simpa using hi
            rw [List.getD, List.getD, List.getD, List.getElem?_eq_getElem hi,
              List.getElem?_eq_getElem (by omega), List.getElem?_eq_getElem (by omega)]
            simp
        · apply hbars
          · simp
          · intro i g g'
            simp only [List.getElem_map, List.getElem_range]
            have e1 : edges.getD (i+1) 0 = edges[i+1] := by rw [List.getD, List.getElem?_eq_getElem g']; rfl
            have e2 : edges.getD i 0 = edges[i] := by rw [List.getD, List.getElem?_eq_getElem (by omega)]; rfl
            rw [e1, e2]

/-- The bars are determined by the data and the edges. -/
theorem isBars_unique {edges data : List K} {prob dens : Bool} {a b : List K} (ha : IsBars data edges prob dens a)
    (hb : IsBars data edges prob dens b) : a = b := by
  classical
  refine List.ext_getElem? fun i => ?_
  by_cases hi : i < a.length
  · have h1 : i + 1 < edges.length := by have := ha.1; omega
    rw [ha.2 i _ _ _ (List.getElem?_eq_getElem (by omega)) (List.getElem?_eq_getElem h1) ⟨fun x => decide (InOpenBin edges i x), by simp, rfl⟩,
      hb.2 i _ _ _ (List.getElem?_eq_getElem (by omega)) (List.getElem?_eq_getElem h1) ⟨fun x => decide (InOpenBin edges i x), by simp, rfl⟩]
  · have := ha.1
    have := hb.1
    rw [List.getElem?_eq_none (by omega), List.getElem?_eq_none (by omega)]

/-- **C168.** The four versions agree. -/
theorem C168_agree (v w : Version) (edges data : List K) (hl : Layout edges) (hd : data ≠ []) (prob dens : Bool) :
    specEdges v (some data) (some edges) prob dens (edges.length - 1) false =
      specEdges w (some data) (some edges) prob dens (edges.length - 1) false := by
  obtain ⟨a, e1, h1⟩ := C168_bars_partial v edges data hl hd prob dens
  obtain ⟨b, e2, h2⟩ := C168_bars_partial w edges data hl hd prob dens
  rw [e1, e2, isBars_unique h1 h2]

/-- **C168.** Probabilities sum to one, counts to the number of points, densities integrate to one. -/
theorem C168_total [IsStrictOrderedRing K] (v : Version) (edges data bars : List K) (hl : Layout edges) (hd : data ≠ []) (prob dens : Bool)
    (h : specEdges v (some data) (some edges) prob dens (edges.length - 1) false = some (some bars)) :
    if prob then bars.sum = 1 else if dens then integral bars edges = 1 else bars.sum = data.length := by
  obtain ⟨c, h1, h3, hs, h2⟩ := counts_open edges hl data
  have hN : (data.length : K) ≠ 0 := by
    have : data.length ≠ 0 := by simpa using hd
    exact_mod_cast this
  rw [C168_agree v .numpy edges data hl hd] at h
  cases prob with
  | true =>
    simp [specEdges, hd, probLog, h1] at h
    rw [if_pos rfl, ← h, sum_cast_div, hs, div_self hN]
  | false =>
    cases dens with
    | false =>
      simp [specEdges, hd, h1] at h
      simp only [Bool.false_eq_true, if_false]
      rw [← h, ← hs]
      exact (Nat.cast_list_sum c).symm
    | true =>
      have hw : (widths edges).length = c.length := by rw [length_widths, h3]
      simp [specEdges, hd, densLog, probLog, h1, bdiv, hw] at h
      simp only [Bool.false_eq_true, if_false, if_true]
      rw [← h, integral_eq, zip_div_mul _ _ (by simp [hw]) (widths_pos edges hl), sum_cast_div, hs, div_self hN]

/-- Non-vacuity: three bins, one point on an edge, one below and one above all edges. -/
example : Layout ([1, 2, 4, 8] : List ℚ) ∧
    specEdges .numexpr (some ([2, 0, 3, 20] : List ℚ)) (some [1, 2, 4, 8]) false true 3 false = some (some [1/2, 1/8, 1/16]) := by
  refine ⟨⟨by simp; norm_num, by simp⟩, by decide +kernel⟩

/-- **C168.** Without data or edges, or when the data are said to be negative, `None` is returned. -/
theorem C168_none (v : Version) (data edges : Option (List K)) (prob dens : Bool) (minl : Nat) (negative : Bool)
    (h : data = none ∨ edges = none ∨ data = some [] ∨ negative = true) :
    specEdges v data edges prob dens minl negative = some none := by
  unfold specEdges
  cases edges with
  | none => rfl
  | some e =>
    cases data with
    | none => rfl
    | some d =>
      rcases h with h | h | h | h
      · cases h
      · cases h
      · cases h; rfl
      · subst h; simp

/-- **C168 (refutation).** A point outside the edges is not left out: it is counted in an outer bin. -/
theorem C168_outside_wrong (v : Version) (edges data : List K) (hl : Layout edges) (hd : data ≠ []) (x : K) (hx : ∀ e ∈ edges, e < x)
    (hall : ∀ y ∈ data, y = x) :
    ∃ bars, specEdges v (some data) (some edges) false false (edges.length - 1) false = some (some bars) ∧
      bars[edges.length - 2]? = some (data.length : K) := by
  classical
  obtain ⟨bars, e, hb⟩ := C168_bars_partial v edges data hl hd false false
  refine ⟨bars, e, ?_⟩
  have hlen := hl.2
  rw [hb.2 _ _ _ _ (List.getElem?_eq_getElem (by omega)) (List.getElem?_eq_getElem (show edges.length - 2 + 1 < edges.length by omega))
    ⟨fun y => decide (InOpenBin edges (edges.length - 2) y), by simp, rfl⟩]
  simp only [Bool.false_eq_true, if_false, Option.some.injEq]
  congr 2
  rw [List.filter_eq_self]
  intro y hy
  rw [hall y hy, decide_eq_true_iff, inOpenBin_iff]
  exact ⟨by omega, Or.inr (hx _ (List.getElem_mem _)), Or.inl (by omega)⟩

/-- **C168 (refutation).** With the default number of bins the versions differ: if the last bin is empty and some bin but
the first is not, the density of the cython version is returned, the others raise an error. -/
theorem C168_default_wrong [IsStrictOrderedRing K] (edges data : List K) (hl : Layout edges) (hd : data ≠ []) (hc : ∀ x ∈ data, Covers edges x)
    (hlast : ∀ x ∈ data, ¬ InBin edges (edges.length - 2) x) (hocc : ∃ x ∈ data, ∃ i, 1 ≤ i ∧ InBin edges i x) :
    specEdges .numpy (some data) (some edges) false true 0 false = none ∧
    specEdges .blas (some data) (some edges) false true 0 false = none ∧
    specEdges .numexpr (some data) (some edges) false true 0 false = none ∧
    ∃ bars, specEdges .cython (some data) (some edges) false true 0 false = some (some bars) ∧ integral bars edges = 1 := by
  have hlen := hl.2
  have hn := C33_density_empty_last_bin_raises edges data 0 hl hc (by omega) hlast hocc
  obtain ⟨bars, e, hb⟩ := C33_cython_density_integrates_to_one edges data 0 hl hd hc (by omega)
  refine ⟨by simp [specEdges, hd, hn], by simp [specEdges, hd, hn], ?_, bars, by simp [specEdges, hd, e], hb⟩
  have : densNumexprEdges data edges 0 = none := by
    obtain ⟨c, e1, -, -⟩ := counts_length edges data 0 hl hc
    simp only [densLog, probLog, e1, Option.map_some, Option.bind_eq_bind, Option.bind_some] at hn
    simp only [densNumexprEdges, e1, Option.bind_eq_bind, Option.bind_some]
    unfold bdiv at hn ⊢
    simp only [List.length_map] at hn ⊢
    split_ifs at hn ⊢ with hq
    generalize hw : widths edges = w at *
    match c, w with
    | [], [] => rfl
    | [], [u] => simp at hn
    | [], u :: u' :: r => rfl
    | [a], _ => simp at hn
    | a :: b :: t, [] => rfl
    | a :: b :: t, [u] => simp at hn
    | a :: b :: t, u :: u' :: r => rfl
  simp [specEdges, hd, this]

example : specEdges .blas (some ([1, 3] : List ℚ)) (some [1, 2, 4, 8]) false true 0 false = none ∧
    specEdges .cython (some ([1, 3] : List ℚ)) (some [1, 2, 4, 8]) false true 0 false = some (some [1/2, 1/4]) := by
  constructor <;> decide +kernel

end Verif.Hist
