import Verif.Jacky.Counts
import Mathlib.Data.List.Perm.Basic
import Mathlib.Tactic.Positivity
/-!
# The jackknife likelihood is the leave-one-out likelihood
-/
namespace Verif.Jacky
open Verif.Hist Verif.Hist.Spec X Spec
open Classical

theorem sum_tab_indicator (n k : Nat) (hk : k < n) (f : Nat → ℝ) :
    (tab n fun i => if i = k then f i else 0).sum = f k := by
  induction n with
  | zero => omega
  | succ n ih =>
    simp only [tab, List.range_succ, List.map_append, List.sum_append, List.map_cons, List.map_nil,
      List.sum_cons, List.sum_nil, add_zero] at ih ⊢
    by_cases h : k < n
    · rw [ih h, if_neg (by omega), add_zero]
    · have : k = n := by omega
      subst this
      rw [if_pos rfl]
      have : (List.range k).map (fun i => if i = k then f i else 0) = (List.range k).map fun _ => (0 : ℝ) := by
        apply List.map_congr_left
        intro i hi
        rw [if_neg (by have := List.mem_range.1 hi; omega)]
      rw [this]; simp

theorem sum_tab_add (n : Nat) (f g : Nat → ℝ) :
    (tab n fun i => f i + g i).sum = (tab n f).sum + (tab n g).sum := by
  induction n with
  | zero => simp [tab]
  | succ n ih =>
    simp only [tab, List.range_succ, List.map_append, List.sum_append, List.map_cons, List.map_nil,
      List.sum_cons, List.sum_nil, add_zero] at ih ⊢
    rw [ih]; ring

theorem sum_by_bin (idx : List Int) (n : Nat) (h : ∀ i ∈ idx, 0 ≤ i ∧ i < (n : Int)) (g : Int → ℝ) :
    (idx.map g).sum = (tab n fun i => (idx.count (i : Int) : ℝ) * g i).sum := by
  induction idx with
  | nil => simp [tab]
  | cons a t ih =>
    obtain ⟨h0, h1⟩ := h a (by simp)
    obtain ⟨k, rfl⟩ := Int.eq_ofNat_of_zero_le h0
    rw [List.map_cons, List.sum_cons, ih (fun i hi => h i (List.mem_cons_of_mem _ hi))]
    have : (tab n fun i => ((((k : Int) :: t).count (i : Int) : ℕ) : ℝ) * g i)
        = tab n fun i => (if i = k then g i else 0) + (t.count (i : Int) : ℝ) * g i := by
      apply tab_congr
      intro i _
      rw [List.count_cons]
      by_cases hik : i = k
      · subst hik; simp; ring
      · have : ¬ ((k : Int) == (i : Int)) = true := by simp; omega
        rw [if_neg this, if_neg hik]; simp
    rw [this, sum_tab_add, sum_tab_indicator n k (by omega) (fun i => g i)]

theorem tab_getD (d : List ℝ) (h : ℝ → ℝ) (f : Nat → ℝ) (hf : ∀ j, (hj : j < d.length) → f j = h d[j]) :
    tab d.length f = d.map h := by
  apply List.ext_getElem
  · simp [tab]
  · intro j h1 h2
    simp only [tab, List.getElem_map, List.getElem_range]
    exact hf j (by simpa [tab] using h1)

variable {d : List ℝ} {mn mx : ℝ} {n : Nat}

/-- Points of `d` that share the bin of a point of `d`. -/
theorem share_count (hr : Range d mn mx) (hn : 1 ≤ n) (x : ℝ) (hx : x ∈ d) :
    (fun y => decide (∃ i, InEqBin mn ((mx - mn) / n) n i x ∧ InEqBin mn ((mx - mn) / n) n i y)) x = true ∧
    ∃ k : Nat, adj mn ((mx - mn) / n) n x = k ∧
    d.countP (fun y => decide (∃ i, InEqBin mn ((mx - mn) / n) n i x ∧ InEqBin mn ((mx - mn) / n) n i y)) =
      binCount d mn mx n k := by
  have hiff : ∀ y ∈ d, ∀ i : Nat, adj mn ((mx - mn) / n) n y = (i : Int) ↔
      InEqBin mn ((mx - mn) / n) n i y := fun y hy i =>
    eqbin_iff mn _ (width_pos hr hn) n hn y (hr.2.2.1 y hy).1
      (by rw [width_mul hn]; exact (hr.2.2.1 y hy).2) i
  obtain ⟨h0, _⟩ := adj_range hr hn _ (List.mem_map.2 ⟨x, hx, rfl⟩)
  obtain ⟨k, hk⟩ := Int.eq_ofNat_of_zero_le h0
  have hkx := (hiff x hx k).1 hk
  refine ⟨by simpa using ⟨k, hkx⟩, k, hk, ?_⟩
  apply List.countP_congr
  intro y hy
  simp only [decide_eq_true_eq]
  constructor
  · rintro ⟨i, hi, hiy⟩
    have : (i : Int) = k := ((hiff x hx i).2 hi).symm.trans hk
    have : i = k := by exact_mod_cast this
    rwa [this] at hiy
  · intro h; exact ⟨k, hkx, h⟩

/-- The likelihood formula over the reals. -/
noncomputable def formula (d : List ℝ) (mn mx : ℝ) (k : ℝ) (c : ℝ × Nat) : ℝ :=
  (tab c.2 fun i => (binCount d mn mx c.2 i : ℝ) *
    Real.log (((binCount d mn mx c.2 i : ℝ) + c.1 - 1) / (k * ((mx - mn) / c.2)))).sum

/-- Hogg's formula with the factor of the number of points is the leave-one-out likelihood. -/
theorem formula_eq_leaveOneOut (hr : Range d mn mx) (hn : 1 ≤ n) (α : ℝ) :
    formula d mn mx (convNumpy d.length n α) (α, n) = leaveOneOut d mn mx α n := by
  rw [leaveOneOut, tab_getD d ((fun i : Int =>
    Real.log (((binCount d mn mx n i.toNat : ℝ) + α - 1) / (convNumpy d.length n α * ((mx - mn) / n)))) ∘
      adj mn ((mx - mn) / n) n)]
  · rw [← List.map_map]
    rw [sum_by_bin _ n (adj_range hr hn)]
    simp only [formula, Int.toNat_natCast]
    exact congrArg List.sum (tab_congr _ _ _ fun i _ => by rw [adj_count hr hn i])
  · intro j hj
    have hget : d.getD j 0 = d[j] := by simp [List.getD, hj]
    have hmem : d[j] ∈ d := List.getElem_mem hj
    obtain ⟨hp, k, hk, hc⟩ := share_count hr hn d[j] hmem
    have hperm := List.getElem_cons_eraseIdx_perm hj
    have hcnt := hperm.countP_eq (fun y => decide (∃ i, InEqBin mn ((mx - mn) / n) n i d[j] ∧
      InEqBin mn ((mx - mn) / n) n i y))
    rw [hc, List.countP_cons, if_pos hp] at hcnt
    have hlen : (d.eraseIdx j).length + 1 = d.length := by
      rw [List.length_eraseIdx_of_lt hj]; omega
    have hlen' : ((d.eraseIdx j).length : ℝ) = d.length - 1 := by rw [← hlen]; push_cast; ring
    have hk' : ((binCount d mn mx n k : Nat) : ℝ) = ((d.eraseIdx j).countP (fun y =>
      decide (∃ i, InEqBin mn ((mx - mn) / n) n i d[j] ∧ InEqBin mn ((mx - mn) / n) n i y)) : Nat) + 1 := by
      rw [← hcnt]; push_cast; ring
    simp only [Function.comp, hget, density, hk, Int.toNat_natCast, hk', hlen', convNumpy]
    congr 2
    ring

/-! ### The computed values -/

theorem term_pos {c : Nat} {w α k : ℝ} (hw : 0 < w) (hk : 0 < k) (h : 0 < (c : ℝ) + α - 1) :
    term c (fin w) α (fin k) = fin (c * Real.log ((c + α - 1) / (k * w))) := by
  rw [term, mul_fin, div_fin (mul_pos hk hw).ne', log_fin (div_pos h (mul_pos hk hw)), mul_fin]

theorem mul_zero_log {y : ℝ} (h : y ≤ 0) : mul (fin 0) (log (fin y)) = nan := by
  rcases lt_or_eq_of_le h with h | h
  · rw [log, if_pos h]; rfl
  · rw [log, if_neg (by rw [h]; exact lt_irrefl _), if_pos h]
    simp [mul, infOf]

theorem term_nan {w α k : ℝ} (hw : 0 < w) (hk : 0 < k) (h : α ≤ 1) : term 0 (fin w) α (fin k) = nan := by
  rw [term, mul_fin, div_fin (mul_pos hk hw).ne', Nat.cast_zero]
  exact mul_zero_log (div_nonpos_of_nonpos_of_nonneg (by linarith) (mul_pos hk hw).le)

theorem jackyBl_eq (cs : List Nat) {w k : ℝ} (α : ℝ) (hw : 0 < w) (hk : 0 < k) :
    jackyBl cs (fin w) α (fin k) = jacky cs (fin w) α (fin k) := by
  rw [jackyBl, jacky]
  congr 1
  apply List.map_congr_left
  intro c _
  have hkw := (mul_pos hk hw).ne'
  rw [term, mul_fin, div_fin hkw, div_fin hkw, mul_fin]
  congr 3
  rw [one_div, ← div_eq_inv_mul]; congr 1; ring

/-- The computed likelihood: the formula, or NaN when `α ≤ 1` and a bin is empty. -/
theorem jacky_eq {α k : ℝ} (hr : Range d mn mx) (hn : 1 ≤ n) (hα : 0 < α) (hk : 0 < k) :
    jacky (tab n (binCount d mn mx n)) (fin ((mx - mn) / n)) α (fin k) =
      if 1 < α ∨ ∀ i < n, binCount d mn mx n i ≠ 0 then fin (formula d mn mx k (α, n)) else nan := by
  have hw := width_pos hr hn
  split_ifs with h
  · have hpos : ∀ i < n, 0 < (binCount d mn mx n i : ℝ) + α - 1 := by
      intro i hi
      rcases h with h | h
      · have : (0 : ℝ) ≤ binCount d mn mx n i := Nat.cast_nonneg _
        linarith
      · have : (1 : ℝ) ≤ binCount d mn mx n i := by exact_mod_cast Nat.one_le_iff_ne_zero.2 (h i hi)
        linarith
    have : (tab n (binCount d mn mx n)).map (fun c => term c (fin ((mx - mn) / n)) α (fin k)) =
        (tab n fun i => (binCount d mn mx n i : ℝ) *
          Real.log (((binCount d mn mx n i : ℝ) + α - 1) / (k * ((mx - mn) / n)))).map fin := by
      simp only [tab, List.map_map]
      apply List.map_congr_left
      intro i hi
      exact term_pos hw hk (hpos i (List.mem_range.1 hi))
    rw [jacky, this, sum_fin]; rfl
  · push Not at h
    obtain ⟨h1, i, hi, h0⟩ := h
    apply sum_nan
    refine List.mem_map.2 ⟨0, List.mem_map.2 ⟨i, List.mem_range.2 hi, h0⟩, term_nan hw hk h1⟩

theorem one_le_length (hr : Range d mn mx) : 1 ≤ d.length := by
  have := List.length_pos_of_mem hr.1; omega

theorem convNumpy_pos {α : ℝ} (hr : Range d mn mx) (hn : 1 ≤ n) (hα : 0 < α) :
    0 < convNumpy d.length n α := by
  have h1 : (1 : ℝ) ≤ d.length := by exact_mod_cast one_le_length hr
  have h2 : (1 : ℝ) ≤ n := by exact_mod_cast hn
  have : 0 < (n : ℝ) * α := mul_pos (by linarith) hα
  rw [convNumpy]; linarith

theorem sum_counts_conv (hr : Range d mn mx) (hn : 1 ≤ n) (α : ℝ) :
    (((tab n (binCount d mn mx n)).map fun (c : Nat) => (c : ℝ)).map fun x => x + α).sum =
      d.length + n * α := by
  have h1 : (((tab n (binCount d mn mx n)).map fun (c : Nat) => (c : ℝ)).map fun x => x + α) =
      tab n fun i => (binCount d mn mx n i : ℝ) + (fun _ => α) i := by
    simp only [tab, List.map_map]; rfl
  rw [h1, sum_tab_add]
  congr 1
  · rw [← sum_binCount hr hn]
    simp only [tab, Nat.cast_list_sum, List.map_map]; rfl
  · simp [tab]

theorem conv_numexpr (hr : Range d mn mx) (hn : 1 ≤ n) (α : ℝ) :
    numexpr.conv (tab n (binCount d mn mx n)) α = fin (convNumpy d.length n α) := by
  simp only [numexpr, convNumexpr, convNumpy]
  rw [sum_counts_conv hr hn]; congr 1; ring

theorem conv_blas (hr : Range d mn mx) (hn : 1 ≤ n) {α : ℝ} (hα : 0 < α) :
    blas.conv (tab n (binCount d mn mx n)) α = fin (convNumpy d.length n α) := by
  simp only [blas, convBlas, convNumpy]
  have : (((tab n (binCount d mn mx n)).map fun (c : Nat) => (c : ℝ)).map fun x => |x + α|) =
      (((tab n (binCount d mn mx n)).map fun (c : Nat) => (c : ℝ)).map fun x => x + α) := by
    simp only [List.map_map]
    apply List.map_congr_left
    intro c _
    simp only [Function.comp]
    rw [abs_of_pos]
    have : (0 : ℝ) ≤ c := Nat.cast_nonneg _
    linarith
  rw [this, sum_counts_conv hr hn]; congr 1; ring

end Verif.Jacky
