import Verif.Round.Basic
import Verif.NumInt.Props
/-!
# Rounded sums: loops and OpenMP reductions
-/
namespace Verif.Round
open Verif.NumInt Finset

variable {R : Rnd}

/-- A loop that adds terms. -/
theorem err_foldl {K : ℕ} (t : ℕ → FP R) (y Y : ℕ → ℝ) : ∀ (l : List ℕ), (∀ i ∈ l, Err R K (t i).val (y i) (Y i)) →
    ∀ {m : ℕ} {a : FP R} {x A : ℝ}, K ≤ m → Err R m a.val x A →
    Err R (m + l.length) (l.foldl (fun a k => a + t k) a).val (x + (l.map y).sum) (A + (l.map Y).sum) := by
  intro l
  induction l with
  | nil => intro _ m a x A _ h; simpa using h
  | cons i l ih =>
    intro h m a x A hm ha
    have := ih (fun j hj => h j (List.mem_cons_of_mem _ hj)) (Nat.le_succ_of_le hm) (ha.add ((h i List.mem_cons_self).mono hm))
    simp only [List.foldl_cons, List.length_cons, List.map_cons, List.sum_cons]
    rw [← add_assoc x, ← add_assoc A, show m + (l.length + 1) = m + 1 + l.length by omega]
    exact this

theorem sum_map_range (f : ℕ → ℝ) (n : ℕ) : ((List.range n).map f).sum = ∑ i ∈ range n, f i := by
  induction n with
  | zero => simp
  | succ n ih => rw [List.range_succ, List.map_append, List.sum_append, ih, sum_range_succ]; simp

/-- The loop `for (i = lo; i < hi; i++) acc += t(i)`. -/
theorem err_forUp {K m : ℕ} (lo hi : ℤ) (a : FP R) (t : ℕ → FP R) (y Y : ℕ → ℝ) {x A : ℝ}
    (ht : ∀ k : ℕ, lo + k < hi → Err R K (t k).val (y k) (Y k)) (hm : K ≤ m) (ha : Err R m a.val x A) :
    ∃ r : FP R, (∀ body : ℤ → FP R → Option (FP R), (∀ k : ℕ, lo + k < hi → ∀ a, body (lo + k) a = some (a + t k)) →
        forUp lo hi a body = some r) ∧
      Err R (m + (hi - lo).toNat) r.val (x + ∑ k ∈ range (hi - lo).toNat, y k) (A + ∑ k ∈ range (hi - lo).toNat, Y k) := by
  refine ⟨_, fun body hb => forUp_some lo hi a body (fun k a => a + t k) hb, ?_⟩
  have := err_foldl (R := R) t y Y (List.range (hi - lo).toNat) (fun i hi' => ht i (by rw [List.mem_range] at hi'; omega)) hm ha
  rwa [List.length_range, sum_map_range, sum_map_range] at this

/-- The private sum of a thread. -/
theorem err_private {K : ℕ} (g : ℕ → Option (FP R)) (t : ℕ → FP R) (y Y : ℕ → ℝ) (its : List ℕ)
    (hg : ∀ i ∈ its, g i = some (t i)) (ht : ∀ i ∈ its, Err R K (t i).val (y i) (Y i)) :
    ∃ r, privateSum g its = some r ∧ Err R (K + its.length) r.val (its.map y).sum (its.map Y).sum := by
  refine ⟨its.foldl (fun a k => a + t k) ((0 : ℕ) : FP R), ?_, ?_⟩
  · unfold privateSum
    apply foldlM_some
    intro k hk a
    rw [hg k hk]
    rfl
  · have h0 : Err R K (((0 : ℕ) : FP R)).val 0 0 := by
      simpa using (Err.nat (R := R) 0).mono (Nat.zero_le K)
    have := err_foldl (R := R) t y Y its ht le_rfl h0
    simpa using this

/-- A reduction over threads, whatever thread executes what in whatever order, as long as no thread has more than `L` iterations. -/
theorem err_reduction {K L : ℕ} (g : ℕ → Option (FP R)) (t : ℕ → FP R) (y Y : ℕ → ℝ) : ∀ (sched : List (List ℕ)),
    (∀ its ∈ sched, its.length ≤ L) → (∀ i ∈ sched.flatten, g i = some (t i)) →
    (∀ i ∈ sched.flatten, Err R K (t i).val (y i) (Y i)) →
    ∀ {m : ℕ} {a : FP R} {x A : ℝ}, K + L ≤ m → Err R m a.val x A →
    ∃ r, reduction sched a g = some r ∧
      Err R (m + sched.length) r.val (x + (sched.flatten.map y).sum) (A + (sched.flatten.map Y).sum) := by
  intro sched
  induction sched with
  | nil => intro _ _ _ m a x A _ h; exact ⟨a, rfl, by simpa using h⟩
  | cons its sched ih =>
    intro hL hg ht m a x A hm ha
    simp only [List.flatten_cons, List.mem_append] at hg ht
    obtain ⟨p, hp, ep⟩ := err_private g t y Y its (fun i hi => hg i (.inl hi)) (fun i hi => ht i (.inl hi))
    have hlen := hL its List.mem_cons_self
    have e1 := ha.add (ep.mono (by omega : K + its.length ≤ m))
    obtain ⟨r, hr, er⟩ := ih (fun i hi => hL i (List.mem_cons_of_mem _ hi)) (fun i hi => hg i (.inr hi)) (fun i hi => ht i (.inr hi))
      (m := m + 1) (by omega) e1
    refine ⟨r, ?_, ?_⟩
    · unfold reduction at hr ⊢
      rw [List.foldlM_cons, hp]
      exact hr
    · rw [List.flatten_cons, List.map_append, List.map_append, List.sum_append, List.sum_append, List.length_cons, ← add_assoc x,
        ← add_assoc A, show m + (sched.length + 1) = m + 1 + sched.length by omega]
      exact er

theorem sched_sum {sched : List (List ℕ)} {lo hi : ℕ} (h : IsSchedule sched lo hi) (y : ℕ → ℝ) :
    (sched.flatten.map y).sum = ∑ k ∈ range (hi - lo), y (lo + k) := by
  rw [(h.map y).sum_eq, List.range'_eq_map_range, List.map_map, sum_map_range]
  rfl

theorem sched_mem {sched : List (List ℕ)} {lo hi i : ℕ} (h : IsSchedule sched lo hi) (hi' : i ∈ sched.flatten) : lo ≤ i ∧ i < hi := by
  have := h.mem_iff.1 hi'
  rw [List.mem_range'_1] at this
  omega

end Verif.Round
