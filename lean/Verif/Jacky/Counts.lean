import Verif.Jacky.Spec
/-!
# All counting functions give the specified counts
-/
namespace Verif.Jacky
open Verif.Hist Verif.Hist.Spec X Spec
open Classical

theorem foldl_min_le (l : List ℝ) (a : ℝ) : l.foldl min a ≤ a ∧ (∀ x ∈ l, l.foldl min a ≤ x) ∧
    (l.foldl min a = a ∨ l.foldl min a ∈ l) := by
  induction l generalizing a with
  | nil => simp
  | cons b t ih =>
    obtain ⟨h1, h2, h3⟩ := ih (min a b)
    refine ⟨h1.trans (min_le_left _ _), ?_, ?_⟩
    · intro x hx
      rcases List.mem_cons.1 hx with rfl | hx
      · exact h1.trans (min_le_right _ _)
      · exact h2 x hx
    · rcases h3 with h3 | h3
      · rcases min_choice a b with h | h
        · left; simp only [List.foldl_cons]; rw [h3, h]
        · right; simp only [List.foldl_cons]; rw [h3, h]; simp
      · right; simp [h3]

theorem foldl_max_ge (l : List ℝ) (a : ℝ) : a ≤ l.foldl max a ∧ (∀ x ∈ l, x ≤ l.foldl max a) ∧
    (l.foldl max a = a ∨ l.foldl max a ∈ l) := by
  induction l generalizing a with
  | nil => simp
  | cons b t ih =>
    obtain ⟨h1, h2, h3⟩ := ih (max a b)
    refine ⟨(le_max_left _ _).trans h1, ?_, ?_⟩
    · intro x hx
      rcases List.mem_cons.1 hx with rfl | hx
      · exact (le_max_right _ _).trans h1
      · exact h2 x hx
    · rcases h3 with h3 | h3
      · rcases max_choice a b with h | h
        · left; simp only [List.foldl_cons]; rw [h3, h]
        · right; simp only [List.foldl_cons]; rw [h3, h]; simp
      · right; simp [h3]

theorem amin_spec {d : List ℝ} (h : d ≠ []) : amin d ∈ d ∧ ∀ x ∈ d, amin d ≤ x := by
  obtain ⟨a, t, rfl⟩ := List.exists_cons_of_ne_nil h
  obtain ⟨_, h2, h3⟩ := foldl_min_le (a :: t) a
  refine ⟨?_, h2⟩
  rcases h3 with h3 | h3
  · rw [amin, List.headD_cons, h3]; simp
  · exact h3

theorem amax_spec {d : List ℝ} (h : d ≠ []) : amax d ∈ d ∧ ∀ x ∈ d, x ≤ amax d := by
  obtain ⟨a, t, rfl⟩ := List.exists_cons_of_ne_nil h
  obtain ⟨_, h2, h3⟩ := foldl_max_ge (a :: t) a
  refine ⟨?_, h2⟩
  rcases h3 with h3 | h3
  · rw [amax, List.headD_cons, h3]; simp
  · exact h3

theorem range_iff {d : List ℝ} {mn mx : ℝ} (h : Range d mn mx) : amin d = mn ∧ amax d = mx := by
  obtain ⟨h1, h2, h3, _⟩ := h
  have hne := List.ne_nil_of_mem h1
  obtain ⟨a1, a2⟩ := amin_spec hne
  obtain ⟨b1, b2⟩ := amax_spec hne
  exact ⟨le_antisymm (a2 _ h1) (h3 _ a1).1, le_antisymm (h3 _ b1).2 (b2 _ h2)⟩

/-- Every data set with two different values has a range. -/
theorem exists_range {d : List ℝ} (h : ∃ x ∈ d, ∃ y ∈ d, x ≠ y) : Range d (amin d) (amax d) := by
  obtain ⟨x, hx, y, hy, hxy⟩ := h
  have hne := List.ne_nil_of_mem hx
  obtain ⟨a1, a2⟩ := amin_spec hne
  obtain ⟨b1, b2⟩ := amax_spec hne
  refine ⟨a1, b1, fun z hz => ⟨a2 z hz, b2 z hz⟩, ?_⟩
  rcases lt_or_eq_of_le ((a2 x hx).trans (b2 x hx)) with h | h
  · exact h
  · exact absurd (le_antisymm ((b2 x hx).trans (h ▸ a2 y hy)) ((b2 y hy).trans (h ▸ a2 x hx))) hxy

variable {d : List ℝ} {mn mx : ℝ} {n : Nat}

theorem width_pos (hr : Range d mn mx) (hn : 1 ≤ n) : 0 < (mx - mn) / n :=
  div_pos (sub_pos.2 hr.2.2.2) (by exact_mod_cast hn)

theorem width_mul (hn : 1 ≤ n) : mn + n * ((mx - mn) / n) = mx := by
  have : (n : ℝ) ≠ 0 := by exact_mod_cast (by omega : n ≠ 0)
  field_simp; ring

theorem binWidth_eq (hr : Range d mn mx) (hn : 1 ≤ n) : binWidth (ptp d) n = fin ((mx - mn) / n) := by
  obtain ⟨h1, h2⟩ := range_iff hr
  rw [binWidth, ptp, h1, h2, div_fin]
  exact_mod_cast (by omega : n ≠ 0)

/-- The adjusted index of a point. -/
noncomputable def adj (mn w : ℝ) (n : Nat) (x : ℝ) : Int :=
  if ⌊(x - mn) / w⌋ = (n : Int) then (n : Int) - 1 else ⌊(x - mn) / w⌋

theorem adj_count (hr : Range d mn mx) (hn : 1 ≤ n) (i : Nat) :
    (d.map (adj mn ((mx - mn) / n) n)).count (i : Int) = binCount d mn mx n i := by
  apply count_eq_countP
  intro x hx
  exact eqbin_iff mn _ (width_pos hr hn) n hn x (hr.2.2.1 x hx).1
    (by rw [width_mul hn]; exact (hr.2.2.1 x hx).2) i

theorem adj_range (hr : Range d mn mx) (hn : 1 ≤ n) :
    ∀ i ∈ d.map (adj mn ((mx - mn) / n) n), 0 ≤ i ∧ i < (n : Int) := by
  intro i hi
  obtain ⟨x, hx, rfl⟩ := List.mem_map.1 hi
  exact eqbin_range mn _ (width_pos hr hn) n hn x (hr.2.2.1 x hx).1
    (by rw [width_mul hn]; exact (hr.2.2.1 x hx).2)

theorem adj_max (hr : Range d mn mx) (hn : 1 ≤ n) : ((n : Int) - 1) ∈ d.map (adj mn ((mx - mn) / n) n) := by
  refine List.mem_map.2 ⟨mx, hr.2.1, ?_⟩
  have hn' : (n : ℝ) ≠ 0 := by exact_mod_cast (by omega : n ≠ 0)
  have hd : mx - mn ≠ 0 := (sub_pos.2 hr.2.2.2).ne'
  have : (mx - mn) / ((mx - mn) / n) = (n : ℝ) := by field_simp
  rw [adj, this, Int.floor_natCast, if_pos rfl]

theorem tab_congr {A : Type} (n : Nat) (f g : Nat → A) (h : ∀ i < n, f i = g i) : tab n f = tab n g := by
  apply List.map_congr_left
  intro i hi
  exact h i (List.mem_range.1 hi)

/-- `np.histogram`. -/
theorem npHistogram_eq (hr : Range d mn mx) (hn : 1 ≤ n) :
    npHistogram (d.map some) n =
      .ok (tab n (binCount d mn mx n), tab (n + 1) fun i => mn + i * ((mx - mn) / n)) := by
  obtain ⟨h1, h2⟩ := range_iff hr
  have hne : ¬ (none ∈ d.map some ∨ n = 0) := by
    rintro (h | h)
    · simp at h
    · omega
  have hmm : mn ≠ mx := hr.2.2.2.ne
  rw [npHistogram, if_neg hne]
  have hf : (d.map some).filterMap id = d := by simp
  simp only [hf, h1, h2, if_neg hmm]
  have hidx : d.map (fun x => if ⌊(x - mn) * (n / (mx - mn))⌋ = (n : Int) then (n : Int) - 1
      else ⌊(x - mn) * (n / (mx - mn))⌋) = d.map (adj mn ((mx - mn) / n) n) := by
    apply List.map_congr_left
    intro x _
    have hn' : (n : ℝ) ≠ 0 := by exact_mod_cast (by omega : n ≠ 0)
    have hd : mx - mn ≠ 0 := (sub_pos.2 hr.2.2.2).ne'
    have : (x - mn) * (n / (mx - mn)) = (x - mn) / ((mx - mn) / n) := by field_simp
    rw [adj, this]
  rw [hidx]
  refine congrArg Except.ok (Prod.ext (tab_congr _ _ _ fun i _ => adj_count hr hn i) ?_)
  rw [linspace, if_neg (by omega)]

/-- The counts of the three modules at phase 0. -/
theorem counts_eq (B : Backend) (hB : B.idx = idxCy ∨ B.idx = idxNe ∨ B.idx = idxBl) (hr : Range d mn mx)
    (hn : 1 ≤ n) (checks : Bool) :
    counts B d (amin d) (fin ((mx - mn) / n)) (fin 0) n 0 checks = .ok (tab n (binCount d mn mx n)) := by
  have hw := width_pos hr hn
  obtain ⟨h1, h2⟩ := range_iff hr
  have hidx : ∀ x ∈ d, B.idx mn (fin ((mx - mn) / n)) (fin 0) x = ⌊(x - mn) / ((mx - mn) / n)⌋ := by
    intro x hx
    have h0 : 0 ≤ (x - mn) / ((mx - mn) / n) := div_nonneg (by linarith [(hr.2.2.1 x hx).1]) hw.le
    rcases hB with h | h | h
    · rw [h, idxCy, div_fin hw.ne', sub_fin, toInt, sub_zero]
    · rw [h, idxNe, div_fin hw.ne', sub_fin, toInt, sub_zero, if_pos h0]
    · rw [h, idxBl, div_fin hw.ne', mul_fin, add_fin, toInt, add_zero]
      congr 1
      rw [one_div, ← div_eq_inv_mul]
  have hcw : countsWith (B.idx mn (fin ((mx - mn) / n)) (fin 0)) d n 0 checks (B.forgiven d) =
      some (tab n (binCount d mn mx n)) := by
    by_cases hn1 : n = 1
    · subst hn1
      rw [countsWith, if_pos rfl]
      have := adj_count hr (le_refl 1) 0
      have hall : ∀ x ∈ d.map (adj mn ((mx - mn) / (1 : ℕ)) 1), ((0 : Nat) : Int) = x := by
        intro x hx
        have := adj_range hr (le_refl 1) x hx
        omega
      rw [List.count_eq_length.2 hall, List.length_map] at this
      rw [this]; rfl
    · have hmap : d.map (fun x => let b := B.idx mn (fin ((mx - mn) / n)) (fin 0) x
          if b = (n : Int) then (n : Int) - 1 else b) = d.map (adj mn ((mx - mn) / n) n) := by
        apply List.map_congr_left
        intro x hx
        simp only [hidx x hx, adj]
      have hrng := adj_range hr hn
      rw [countsWith, if_neg hn1, hmap]
      have hnn : (d.map (adj mn ((mx - mn) / n) n)).any (fun i => decide (i < 0)) = false := by
        rw [List.any_eq_false]; intro i hi; have := hrng i hi; simp; omega
      simp only [hnn, Bool.and_false, Bool.false_eq_true, if_false]
      rw [bincount, hnn]
      simp only [Bool.false_eq_true, if_false]
      have htop : max 0 (top (d.map (adj mn ((mx - mn) / n) n))) = n := by
        have a := top_gt _ _ (adj_max hr hn)
        have b := top_le (d.map (adj mn ((mx - mn) / n) n)) n
          (fun i hi => by have := hrng i hi; omega)
        omega
      rw [htop]
      exact congrArg some (tab_congr _ _ _ fun i _ => adj_count hr hn i)
  rw [counts, h1, hcw]

/-- The counts sum to the number of points. -/
theorem sum_binCount (hr : Range d mn mx) (hn : 1 ≤ n) : (tab n (binCount d mn mx n)).sum = d.length := by
  have := sum_tab_count (d.map (adj mn ((mx - mn) / n) n)) n (adj_range hr hn)
  rw [List.length_map] at this
  rw [← this]
  exact congrArg List.sum (tab_congr _ _ _ fun i _ => (adj_count hr hn i).symm)

end Verif.Jacky
