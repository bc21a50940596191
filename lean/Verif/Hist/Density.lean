import Verif.Hist.Props
/-!
# C33: probability and density histograms
-/
namespace Verif.Hist
open Verif Verif.Hist.Spec

variable {K : Type} [Field K] [LinearOrder K]

theorem sum_cast_div (c : List Nat) (N : K) : (c.map (fun (n : Nat) => (n : K) / N)).sum = (c.sum : K) / N := by
  induction c with
  | nil => simp
  | cons a t ih => simp [ih, add_div]

/-- C33: the probability histogram sums to one, for every layout covering a non-empty data set. -/
theorem C33_probability_sums_to_one [CharZero K] (edges data : List K) (minl : Nat) (hl : Layout edges)
    (hne : data ≠ []) (hd : ∀ x ∈ data, Covers edges x) :
    ∃ p, probLog data edges minl = some p ∧ p.sum = 1 := by
  obtain ⟨c, h1, h2, _⟩ := C32_counts_conserve_and_localise edges data minl hl hd
  refine ⟨_, by simp only [probLog, h1, Option.map_some]; rfl, ?_⟩
  rw [sum_cast_div, h2, div_self]
  have : data.length ≠ 0 := by simpa using hne
  exact_mod_cast this

theorem length_widths (edges : List K) : (widths edges).length = edges.length - 1 := by
  simp [widths]

theorem widths_pos (edges : List K) (hl : Layout edges) [IsStrictOrderedRing K] :
    ∀ w ∈ widths edges, w ≠ 0 := by
  intro w hw
  obtain ⟨i, hi, rfl⟩ := List.getElem_of_mem hw
  rw [length_widths] at hi
  simp only [widths, List.getElem_zipWith, List.getElem_tail, List.getElem_dropLast]
  have := layout_lt hl (i := i) (j := i + 1) (by omega) (by omega)
  exact sub_ne_zero.2 this.ne'

theorem integral_eq (d edges : List K) :
    integral d edges = (List.zipWith (· * ·) d (widths edges)).sum := by
  have : List.zipWith (fun (h : K) (p : K × K) => h * (p.2 - p.1)) d (edges.zip edges.tail)
      = List.zipWith (· * ·) d (widths edges) := by
    apply List.ext_getElem
    · simp [widths]
    · intro i h1 h2
      simp [widths]
  rw [integral, this]

/-- Dividing by the widths and multiplying again. -/
theorem zip_div_mul (p w : List K) (hle : p.length ≤ w.length) (hw : ∀ x ∈ w, x ≠ 0) :
    (List.zipWith (· * ·) (List.zipWith (· / ·) p w) w).sum = p.sum := by
  induction p generalizing w with
  | nil => simp
  | cons a t ih =>
    cases w with
    | nil => simp at hle
    | cons b u =>
      have := ih u (by simpa using hle) (fun x hx => hw x (List.mem_cons_of_mem _ hx))
      simp only [List.zipWith_cons_cons, List.sum_cons, this]
      rw [div_mul_cancel₀ _ (hw b List.mem_cons_self)]

theorem counts_length (edges data : List K) (minl : Nat) (hl : Layout edges)
    (hd : ∀ x ∈ data, Covers edges x) :
    ∃ c, histLogCounts data edges minl = some c ∧ c.sum = data.length ∧
      c.length = max minl (top (data.map (binLog edges))) := by
  obtain ⟨c, h1, h2, _, _, h4, _⟩ :=
    bincount_spec (data.map (binLog edges)) minl (edges.length - 1) (binLog_range edges hl data hd)
  exact ⟨c, h1, by simpa using h2, h4⟩

/-- C33: the density histogram integrates to one over the bins, provided the requested minimal number of
bins is the number of bins or the last bin is not empty. -/
theorem C33_density_integrates_to_one_partial [IsStrictOrderedRing K] (edges data : List K) (minl : Nat)
    (hl : Layout edges) (hne : data ≠ []) (hd : ∀ x ∈ data, Covers edges x)
    (hmin : minl ≤ edges.length - 1)
    (hfull : minl = edges.length - 1 ∨ ∃ x ∈ data, InBin edges (edges.length - 2) x) :
    ∃ d, densLog data edges minl = some d ∧ d.length = edges.length - 1 ∧ integral d edges = 1 := by
  obtain ⟨p, h1, h2⟩ := C33_probability_sums_to_one edges data minl hl hne hd
  obtain ⟨c, e1, _, e3⟩ := counts_length edges data minl hl hd
  have hple : p.length = c.length := by
    simp only [probLog, e1, Option.map_some, Option.some.injEq] at h1
    rw [← h1]; simp
  have htop := top_le (data.map (binLog edges)) (edges.length - 1)
    (fun i hi => by have := binLog_range edges hl data hd i hi; omega)
  have hlen : p.length = (widths edges).length := by
    rw [hple, e3, length_widths]
    rcases hfull with h | ⟨x, hx, hb⟩
    · omega
    · have := (binLog_iff edges hl x (hd x hx) _).2 hb
      have := top_gt (data.map (binLog edges)) (binLog edges x) (List.mem_map.2 ⟨x, hx, rfl⟩)
      have := hl.2
      omega
  refine ⟨_, by simp only [densLog, h1, Option.bind_eq_bind, Option.bind_some, bdiv, hlen, if_true]; rfl,
    ?_, ?_⟩
  · simp [hlen, length_widths]
  · rw [integral_eq, zip_div_mul _ _ hlen.le (widths_pos edges hl), h2]

/-- C33: the density loop of the cython version integrates to one without that proviso. -/
theorem C33_cython_density_integrates_to_one [IsStrictOrderedRing K] (edges data : List K) (minl : Nat)
    (hl : Layout edges) (hne : data ≠ []) (hd : ∀ x ∈ data, Covers edges x)
    (hmin : minl ≤ edges.length - 1) :
    ∃ d, densLogCython data edges minl = some d ∧ integral d edges = 1 := by
  obtain ⟨c, e1, e2, _, e4, _⟩ := C32_counts_conserve_and_localise edges data minl hl hd
  have hc : c.length ≤ edges.length - 1 := by omega
  have hN : (data.length : K) ≠ 0 := by
    have : data.length ≠ 0 := by simpa using hne
    exact_mod_cast this
  have hm : densLogCython data edges minl
      = some (List.zipWith (· / ·) (c.map (fun (n : Nat) => (n : K) / (data.length : K))) (widths edges)) := by
    simp only [densLogCython, e1, Option.bind_eq_bind, Option.bind_some]
    rw [mapM_total _ _ (fun i => (c.getD i 0 : K) / ((data.length : K) * (edges.getD (i+1) 0 - edges.getD i 0)))]
    · congr 1
      apply List.ext_getElem
      · simp [length_widths, hc]
      · intro i h1 h2
        have hi : i < c.length := by simpa using h1
        simp only [List.getElem_map, List.getElem_range, List.getElem_zipWith, widths, List.getElem_tail,
          List.getElem_dropLast]
        rw [List.getD, List.getD, List.getD, List.getElem?_eq_getElem hi,
          List.getElem?_eq_getElem (by omega), List.getElem?_eq_getElem (by omega)]
        simp [div_div]
    · intro i hi
      have hi : i < c.length := by simpa using hi
      rw [List.getD, List.getD, List.getD, List.getElem?_eq_getElem hi,
          List.getElem?_eq_getElem (by omega), List.getElem?_eq_getElem (by omega)]
      simp
  refine ⟨_, hm, ?_⟩
  rw [integral_eq, zip_div_mul _ _ (by simp [length_widths, hc]) (widths_pos edges hl), sum_cast_div, e2,
    div_self hN]

example : ∃ d, densLogCython ([1, 1, 2] : List ℚ) [1, 2, 4] 0 = some d ∧ integral d [1, 2, 4] = 1 :=
  C33_cython_density_integrates_to_one _ _ _ ⟨by simp; norm_num, by simp⟩ (by simp) (by
    intro x hx
    simp only [List.mem_cons, List.not_mem_nil, or_false] at hx
    refine ⟨⟨1, by simp, ?_⟩, ⟨4, by simp, ?_⟩⟩ <;> rcases hx with rfl | rfl | rfl <;> norm_num) (by simp)
example : densLog ([1, 1, 3, 4] : List ℚ) [1, 2, 4] 0 = some [1/2, 1/4] := by decide +kernel

/-- C33 (what fails): if all data fall in the first of `n` bins and the default minimal number of bins is
used, the "density" integrates to `n` instead of one. -/
theorem C33_density_first_bin_wrong [IsStrictOrderedRing K] (edges data : List K) (hl : Layout edges)
    (hne : data ≠ []) (hd : ∀ x ∈ data, InBin edges 0 x) :
    ∃ d, densLog data edges 0 = some d ∧ integral d edges = (edges.length - 1 : Nat) := by
  have hcov : ∀ x ∈ data, Covers edges x := by
    intro x hx
    obtain ⟨lo, hi, h1, h2, h⟩ := hd x hx
    have m1 : lo ∈ edges := List.mem_of_getElem? h1
    have m2 : hi ∈ edges := List.mem_of_getElem? h2
    have hlt : lo < hi := by
      obtain ⟨b, rfl⟩ := List.getElem?_eq_some_iff.1 h2
      obtain ⟨a, rfl⟩ := List.getElem?_eq_some_iff.1 h1
      exact layout_lt hl b (by omega)
    rcases h with h | h
    · exact ⟨⟨lo, m1, h.1.le⟩, ⟨hi, m2, h.2⟩⟩
    · exact ⟨⟨lo, m1, h.2.ge⟩, ⟨hi, m2, h.2 ▸ hlt.le⟩⟩
  obtain ⟨c, e1, e2, e3⟩ := counts_length edges data 0 hl hcov
  have htop : top (data.map (binLog edges)) = 1 := by
    apply le_antisymm
    · apply top_le
      intro i hi
      obtain ⟨x, hx, rfl⟩ := List.mem_map.1 hi
      rw [(binLog_iff edges hl x (hcov x hx) 0).2 (hd x hx)]; simp
    · obtain ⟨x, hx⟩ := List.exists_mem_of_ne_nil data hne
      have := top_gt (data.map (binLog edges)) (binLog edges x) (List.mem_map.2 ⟨x, hx, rfl⟩)
      omega
  have hN : (data.length : K) ≠ 0 := by
    have : data.length ≠ 0 := by simpa using hne
    exact_mod_cast this
  have hc1 : c.length = 1 := by rw [e3, htop]; rfl
  obtain ⟨m, rfl⟩ := List.length_eq_one_iff.1 hc1
  have hm : m = data.length := by simpa using e2
  subst hm
  have hdd : densLog data edges 0 = some ((widths edges).map (fun y => 1 / y)) := by
    simp only [densLog, probLog, e1, Option.map_some, Option.bind_eq_bind, Option.bind_some, List.map_cons,
      List.map_nil, div_self hN, bdiv]
    split_ifs with h
    · simp only [List.length_cons, List.length_nil] at h
      obtain ⟨w, hw⟩ := List.length_eq_one_iff.1 h.symm
      rw [hw]; simp
    · rfl
  refine ⟨_, hdd, ?_⟩
  rw [integral_eq, ← length_widths]
  have hw := widths_pos edges hl
  generalize widths edges = ws at hw
  induction ws with
  | nil => simp
  | cons a t ih =>
    simp only [List.map_cons, List.zipWith_cons_cons, List.sum_cons, List.length_cons, Nat.cast_add,
      Nat.cast_one]
    rw [ih (fun x hx => hw x (List.mem_cons_of_mem _ hx)), one_div_mul_cancel (hw a List.mem_cons_self)]
    ring

example : densLog ([1, 2, 2] : List ℚ) [1, 2, 4, 8] 0 = some [1, 1/2, 1/4] ∧
    integral [1, 1/2, 1/4] [1, 2, 4, (8 : ℚ)] = 3 := by
  constructor <;> decide +kernel

/-- C33 (what fails): if the last bin is empty, some later bin than the first is occupied and fewer than the
true number of bins are requested as minimum, the density computation raises a broadcasting error. -/
theorem C33_density_empty_last_bin_raises (edges data : List K) (minl : Nat) (hl : Layout edges)
    (hd : ∀ x ∈ data, Covers edges x) (hmin : minl < edges.length - 1)
    (hlast : ∀ x ∈ data, ¬ InBin edges (edges.length - 2) x)
    (hocc : ∃ x ∈ data, ∃ i, 1 ≤ i ∧ InBin edges i x) :
    densLog data edges minl = none := by
  obtain ⟨c, e1, e2, e3⟩ := counts_length edges data minl hl hd
  have hb : top (data.map (binLog edges)) ≤ edges.length - 2 := by
    apply top_le
    intro i hi
    obtain ⟨x, hx, rfl⟩ := List.mem_map.1 hi
    obtain ⟨j, h1, h2, _⟩ := C32_point_in_enclosing_bin edges hl x (hd x hx)
    obtain ⟨h, _⟩ := inBin_iff.1 h2
    have : j ≠ edges.length - 2 := fun h => hlast x hx (h ▸ h2)
    omega
  obtain ⟨x, hx, i, hi, hib⟩ := hocc
  have ht := top_gt (data.map (binLog edges)) (binLog edges x) (List.mem_map.2 ⟨x, hx, rfl⟩)
  rw [(binLog_iff edges hl x (hd x hx) i).2 hib] at ht
  have hcl : 2 ≤ c.length ∧ c.length < edges.length - 1 := by
    simp only [Int.toNat_natCast] at ht
    omega
  simp only [densLog, probLog, e1, Option.map_some, Option.bind_eq_bind, Option.bind_some, bdiv,
    List.length_map, length_widths]
  rw [if_neg (by omega)]
  have hwl := length_widths edges
  generalize hw : widths edges = w at *
  match c, w, hcl, hwl with
  | a :: b :: t, u :: v :: r, _, _ => rfl
  | a :: b :: t, [u], h1, h2 => simp at h1 h2; omega
  | a :: b :: t, [], h1, h2 => simp at h1 h2; omega
  | [a], _, h1, _ => simp at h1
  | [], _, h1, _ => simp at h1

example : densLog ([1, 3] : List ℚ) [1, 2, 4, 8] 0 = none := by decide +kernel

/-- C33 (what fails): the numexpr log-scale probability histogram divides by the length of the data
including NaNs, so with NaNs it sums to the fraction of valid points. -/
theorem C33_numexpr_nan_sum (edges : List K) (data : List (Option K)) (minl : Nat) (hl : Layout edges)
    (hd : ∀ x ∈ data.filterMap id, Covers edges x) :
    ∃ p, probNumexprLog data edges minl = some p ∧
      p.sum = ((data.filterMap id).length : K) / (data.length : K) := by
  obtain ⟨c, h1, h2, _⟩ := C32_counts_conserve_and_localise edges (data.filterMap id) minl hl hd
  refine ⟨_, by simp only [probNumexprLog, h1, Option.map_some]; rfl, ?_⟩
  rw [sum_cast_div, h2]

example : probNumexprLog ([some 1, none, some 3, none] : List (Option ℚ)) [1, 2, 4] 0 = some [1/4, 1/4] := by
  decide +kernel

/-- C33: the equal-width probability and density histograms are normalised whenever the counts sum to the
number of points (which C32 proves). -/
theorem C33_equal_width_normalised [CharZero K] (counts : List Nat) (n : Nat) (bw : K) (hn : n ≠ 0)
    (hbw : bw ≠ 0) (hs : counts.sum = n) :
    (probNumpy counts n : List K).sum = 1 ∧ ((densNumpy counts n bw).map (· * bw)).sum = 1 := by
  have hN : (n : K) ≠ 0 := by exact_mod_cast hn
  constructor
  · rw [probNumpy, sum_cast_div, hs, div_self hN]
  · have : (densNumpy counts n bw).map (· * bw) = counts.map (fun (c : Nat) => (c : K) / (n : K)) := by
      simp only [densNumpy, List.map_map]
      apply List.map_congr_left
      intro c _
      simp only [Function.comp]
      field_simp
    rw [this, sum_cast_div, hs, div_self hN]

example : ([1, 2] : List Nat).sum = 3 := rfl

end Verif.Hist
