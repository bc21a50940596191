import Verif.NumInt.Props
import Mathlib.Data.List.Perm.Subperm
import Mathlib.Tactic.Ring
/-!
# C07: the unequal-spacing loop under every schedule

The parallel loop over an uneven grid shares its two temporaries (see `Parallel.lean`).  Here: the exact set of interleavings
for which the result is right for all data, and that every schedule with two busy threads has an interleaving outside of it.
-/
namespace Verif.NumInt
open Verif Verif.NumInt.Spec Finset

/-! ### Specification -/

/-- For each addition of the execution `tr`, in order: the iteration whose increment and the iteration whose integrand sum
are in the shared variables at that moment (`none`: not yet set). -/
def Spec.usedBy : Option Nat → Option Nat → List (Nat × Stmt) → List (Option Nat × Option Nat)
  | _, _, [] => []
  | _, b, (_, .setInc i) :: r => Spec.usedBy (some i) b r
  | a, _, (_, .setSum i) :: r => Spec.usedBy a (some i) r
  | a, b, (_, .addRes) :: r => (a, b) :: Spec.usedBy a b r

/-- No iteration overlaps with another one: the threads execute whole loop bodies, `order` is the sequence of pairs of a
thread and an iteration. -/
def Spec.wholeBodies (order : List (Nat × Nat)) : List (Nat × Stmt) :=
  order.flatMap fun e => [(e.1, .setInc e.2), (e.1, .setSum e.2), (e.1, .addRes)]

/-! ### Proofs -/

section
variable {K : Type} [Field K]

/-- Value of the shared increment. -/
def incV (x : Nat → K) (d : K) : Option Nat → K
  | none => d
  | some i => x i - x (i - 1)

/-- Value of the shared sum. -/
def sumV (f : Nat → K) (d : K) : Option Nat → K
  | none => d
  | some i => (f i + f (i - 1)) / ((2 : Nat) : K)

theorem foldl_priv (T : Nat) (p : Nat → K) (c : K) : (List.range T).foldl (fun acc t => acc + p t) c = c + ∑ t ∈ range T, p t := by
  induction T with
  | zero => simp
  | succ T ih => rw [List.range_succ, List.foldl_append, ih, sum_range_succ]; simp [add_assoc]

theorem race_total (x f : Nat → K) (d1 d2 : K) (T : Nat) (tr : List (Nat × Stmt)) (hT : ∀ e ∈ tr, e.1 < T) :
    ∀ (a b : Option Nat) (s : RaceState K), s.local_increment = incV x d1 a → s.local_integrand_sum = sumV f d2 b →
      ∑ t ∈ range T, (tr.foldl (raceStep x f) s).priv t =
        (∑ t ∈ range T, s.priv t) + ((Spec.usedBy a b tr).map fun p => incV x d1 p.1 * sumV f d2 p.2).sum := by
  induction tr with
  | nil => intro a b s _ _; simp [Spec.usedBy]
  | cons e r ih =>
    intro a b s h1 h2
    have hT' : ∀ e ∈ r, e.1 < T := fun e he => hT e (List.mem_cons_of_mem _ he)
    obtain ⟨t, st⟩ := e
    cases st with
    | setInc i =>
      rw [List.foldl_cons, ih hT' (some i) b (raceStep x f s (t, .setInc i)) rfl h2]
      rfl
    | setSum i =>
      rw [List.foldl_cons, ih hT' a (some i) (raceStep x f s (t, .setSum i)) h1 rfl]
      rfl
    | addRes =>
      rw [List.foldl_cons, ih hT' a b (raceStep x f s (t, .addRes)) h1 h2]
      have ht : t ∈ range T := mem_range.2 (hT (t, .addRes) List.mem_cons_self)
      simp only [raceStep, Spec.usedBy, List.map_cons, List.sum_cons]
      rw [← sum_erase_add _ _ ht, ← sum_erase_add _ s.priv ht, if_pos rfl, h1, h2]
      rw [sum_congr rfl (g := s.priv)]
      · ring
      · intro u hu
        rw [if_neg (ne_of_mem_erase hu)]

/-- The result is the sum of the products of what the additions read. -/
theorem race_result (x f : Nat → K) (d1 d2 : K) (T : Nat) (tr : List (Nat × Stmt)) (hT : ∀ e ∈ tr, e.1 < T) :
    trapzParallelUneven x f d1 d2 T tr = ((Spec.usedBy none none tr).map fun p => incV x d1 p.1 * sumV f d2 p.2).sum := by
  unfold trapzParallelUneven
  simp only []
  rw [foldl_priv, race_total x f d1 d2 T tr hT none none _ rfl rfl]
  simp

theorem used_mem (P : Nat → Prop) (tr : List (Nat × Stmt)) (h : ∀ t i, ((t, Stmt.setInc i) ∈ tr ∨ (t, Stmt.setSum i) ∈ tr) → P i) :
    ∀ (a b : Option Nat), (∀ i, a = some i → P i) → (∀ i, b = some i → P i) → ∀ p ∈ Spec.usedBy a b tr,
      (∀ i, p.1 = some i → P i) ∧ (∀ i, p.2 = some i → P i) := by
  induction tr with
  | nil => intro a b _ _ p hp; simp [Spec.usedBy] at hp
  | cons e r ih =>
    intro a b ha hb p hp
    have ih := ih fun t i hh => h t i (hh.imp (List.mem_cons_of_mem _) (List.mem_cons_of_mem _))
    obtain ⟨t, st⟩ := e
    cases st with
    | setInc i =>
      refine ih (some i) b ?_ hb p hp
      rintro j ⟨⟩
      exact h t i (Or.inl List.mem_cons_self)
    | setSum i =>
      refine ih a (some i) ha ?_ p hp
      rintro j ⟨⟩
      exact h t i (Or.inr List.mem_cons_self)
    | addRes =>
      rcases List.mem_cons.1 hp with rfl | hp
      · exact ⟨ha, hb⟩
      · exact ih a b ha hb p hp

theorem mem_threadProg {its : List Nat} {i : Nat} (h : Stmt.setInc i ∈ threadProg its ∨ Stmt.setSum i ∈ threadProg its) : i ∈ its := by
  rcases h with h | h <;> · simp [threadProg, bodyStmts] at h; exact h

theorem interleaving_index {sched : List (List Nat)} {n : Nat} (hs : IsSchedule sched 1 n) {tr : List (Nat × Stmt)}
    (ht : IsInterleaving sched tr) (t i : Nat) (h : (t, Stmt.setInc i) ∈ tr ∨ (t, Stmt.setSum i) ∈ tr) : 1 ≤ i ∧ i < n := by
  have ht0 : t < sched.length := by rcases h with h | h <;> exact ht.1 _ h
  have h1 := ht.2 t ht0
  have hi : i ∈ sched[t] := by
    apply mem_threadProg
    rw [← h1]
    rcases h with h | h
    · exact Or.inl (List.mem_map.2 ⟨_, List.mem_filter.2 ⟨h, by simp⟩, rfl⟩)
    · exact Or.inr (List.mem_map.2 ⟨_, List.mem_filter.2 ⟨h, by simp⟩, rfl⟩)
  have : i ∈ sched.flatten := List.mem_flatten.2 ⟨_, List.getElem_mem _, hi⟩
  have := (List.Perm.mem_iff hs).1 this
  simp [List.mem_range'_1] at this
  omega

theorem sum_diag (x f : Nat → K) (d1 d2 : K) (n : Nat) :
    (((List.range' 1 (n - 1)).map fun i => (some i, some i)).map fun p : Option Nat × Option Nat => incV x d1 p.1 * sumV f d2 p.2).sum
      = trapSum n x f := by
  unfold trapSum
  generalize n - 1 = m
  induction m with
  | zero => simp
  | succ m ih =>
    rw [List.range'_concat, List.map_append, List.map_append, List.sum_append, ih, sum_range_succ]
    have : 1 + 1 * m = m + 1 := by omega
    simp only [this, incV, sumV, List.map_cons, List.map_nil, List.sum_cons, List.sum_nil, add_zero, Nat.add_sub_cancel]
    push_cast
    ring

end

theorem sum_indicator {β : Type} [DecidableEq β] [BEq β] [LawfulBEq β] (l : List β) (q : β) : (l.map fun p => if p = q then (1 : ℚ) else 0).sum = (l.count q : ℚ) := by
  induction l with
  | nil => simp
  | cons a t ih =>
    rw [List.map_cons, List.sum_cons, ih, List.count_cons]
    by_cases h : a = q
    · simp [h]; ring
    · simp [h]

/-- Increments that are one in one iteration. -/
theorem exists_inc (a : Option Nat) (ha : ∀ i, a = some i → 1 ≤ i) : ∃ (x : Nat → ℚ) (d : ℚ), ∀ p : Option Nat, (∀ i, p = some i → 1 ≤ i) →
    incV x d p = if p = a then 1 else 0 := by
  cases a with
  | none =>
    refine ⟨fun _ => 0, 1, ?_⟩
    intro p _
    cases p <;> simp [incV]
  | some k =>
    refine ⟨fun i => if k ≤ i then 1 else 0, 0, ?_⟩
    intro p hp
    cases p with
    | none => simp [incV]
    | some i =>
      have h1 := hp i rfl
      have h2 := ha k rfl
      simp only [incV, Option.some.injEq]
      by_cases e : i = k
      · subst e; rw [if_pos (le_refl _), if_neg (by omega), if_pos rfl]; norm_num
      · by_cases g : k ≤ i
        · rw [if_pos g, if_pos (by omega), if_neg e]; norm_num
        · rw [if_neg g, if_neg (by omega), if_neg e]; norm_num

/-- Integrand sums that are one in one iteration. -/
theorem exists_sum (a : Option Nat) (ha : ∀ i, a = some i → 1 ≤ i) : ∃ (f : Nat → ℚ) (d : ℚ), ∀ p : Option Nat, (∀ i, p = some i → 1 ≤ i) →
    sumV f d p = if p = a then 1 else 0 := by
  cases a with
  | none =>
    refine ⟨fun _ => 0, 1, ?_⟩
    intro p _
    cases p <;> simp [sumV]
  | some k =>
    refine ⟨fun i => if k ≤ i then 2 * (-1) ^ (i - k) else 0, 0, ?_⟩
    intro p hp
    cases p with
    | none => simp [sumV]
    | some i =>
      have h1 := hp i rfl
      have h2 := ha k rfl
      simp only [sumV, Option.some.injEq]
      by_cases e : i = k
      · subst e; rw [if_pos (le_refl _), if_neg (by omega), if_pos rfl]; norm_num
      · by_cases g : k ≤ i
        · obtain ⟨m, rfl⟩ : ∃ m, i = k + m + 1 := ⟨i - k - 1, by omega⟩
          rw [if_pos g, if_pos (by omega), if_neg e, show k + m + 1 - k = m + 1 by omega, show k + m + 1 - 1 - k = m by omega, pow_succ]
          push_cast; ring
        · rw [if_neg g, if_neg (by omega), if_neg e]; norm_num

/-- **C07.** The loop over an uneven grid gives the trapezoid sum for all data exactly if every addition uses the increment
and the integrand sum of one and the same iteration, and each iteration once. -/
theorem C07_uneven_exact (n : Nat) (sched : List (List Nat)) (hs : IsSchedule sched 1 n) (tr : List (Nat × Stmt))
    (ht : IsInterleaving sched tr) :
    (∀ (x f : Nat → ℚ) (d1 d2 : ℚ), trapzParallelUneven x f d1 d2 sched.length tr = trapSum n x f) ↔
      (Spec.usedBy none none tr).Perm ((List.range' 1 (n - 1)).map fun i => (some i, some i)) := by
  have hm := used_mem (fun i => 1 ≤ i) tr (fun t i h => (interleaving_index hs ht t i h).1) none none (by simp) (by simp)
  constructor
  · intro h
    rw [List.perm_iff_count]
    rintro ⟨a, b⟩
    by_cases ha : ∀ i, a = some i → 1 ≤ i
    · by_cases hb : ∀ i, b = some i → 1 ≤ i
      · obtain ⟨x, d1, hx⟩ := exists_inc a ha
        obtain ⟨f, d2, hf⟩ := exists_sum b hb
        have e := h x f d1 d2
        rw [race_result x f d1 d2 _ tr ht.1, ← sum_diag x f d1 d2 n] at e
        have key : ∀ l : List (Option Nat × Option Nat), (∀ p ∈ l, (∀ i, p.1 = some i → 1 ≤ i) ∧ (∀ i, p.2 = some i → 1 ≤ i)) →
            (l.map fun p => incV x d1 p.1 * sumV f d2 p.2).sum = (l.count (a, b) : ℚ) := by
          intro l hl
          rw [← sum_indicator l (a, b)]
          congr 1
          apply List.map_congr_left
          intro p hp
          rw [hx _ (hl p hp).1, hf _ (hl p hp).2]
          obtain ⟨u, v⟩ := p
          by_cases h1 : u = a <;> by_cases h2 : v = b <;> simp [h1, h2]
        rw [key _ hm, key] at e
        · exact_mod_cast e
        · intro p hp
          obtain ⟨i, hi, rfl⟩ := List.mem_map.1 hp
          have : 1 ≤ i := by simp [List.mem_range'_1] at hi; omega
          exact ⟨by rintro j ⟨⟩; exact this, by rintro j ⟨⟩; exact this⟩
      · push Not at hb
        obtain ⟨i, rfl, hi⟩ := hb
        rw [List.count_eq_zero_of_not_mem, List.count_eq_zero_of_not_mem]
        · intro hp
          obtain ⟨j, hj, e⟩ := List.mem_map.1 hp
          cases e
          simp [List.mem_range'_1] at hj; omega
        · intro hp
          have := (hm _ hp).2 i rfl; omega
    · push Not at ha
      obtain ⟨i, rfl, hi⟩ := ha
      rw [List.count_eq_zero_of_not_mem, List.count_eq_zero_of_not_mem]
      · intro hp
        obtain ⟨j, hj, e⟩ := List.mem_map.1 hp
        cases e
        simp [List.mem_range'_1] at hj; omega
      · intro hp
        have := (hm _ hp).1 i rfl; omega
  · intro h x f d1 d2
    rw [race_result x f d1 d2 _ tr ht.1, (h.map _).sum_eq, sum_diag]

theorem used_wholeBodies (order : List (Nat × Nat)) : ∀ a b, Spec.usedBy a b (Spec.wholeBodies order) = order.map fun e => (some e.2, some e.2) := by
  induction order with
  | nil => intro a b; rfl
  | cons e r ih =>
    intro a b
    have : Spec.wholeBodies (e :: r) = (e.1, .setInc e.2) :: (e.1, .setSum e.2) :: (e.1, .addRes) :: Spec.wholeBodies r := rfl
    rw [this]
    simp only [Spec.usedBy, List.map_cons, ih]

/-- **C07.** If the bodies of the loop do not overlap, the result is right, whichever thread executes which iteration and
in whichever order. -/
theorem C07_uneven_no_overlap {K : Type} [Field K] (n T : Nat) (order : List (Nat × Nat)) (hT : ∀ e ∈ order, e.1 < T)
    (ho : (order.map Prod.snd).Perm (List.range' 1 (n - 1))) (x f : Nat → K) (d1 d2 : K) :
    trapzParallelUneven x f d1 d2 T (Spec.wholeBodies order) = trapSum n x f := by
  rw [race_result, used_wholeBodies, ← sum_diag x f d1 d2 n]
  · have := (ho.map fun i => ((some i, some i) : Option Nat × Option Nat))
    rw [List.map_map] at this
    exact (this.map _).sum_eq
  · intro e he
    obtain ⟨p, hp, he⟩ := List.mem_flatMap.1 he
    have := hT p hp
    simp at he
    rcases he with rfl | rfl | rfl <;> exact this

/-! ### Every schedule with two busy threads has a wrong execution -/

/-- What the threads of a list of programs do, one thread after the other, numbered from `k`. -/
def oneByOne : Nat → List (List Stmt) → List (Nat × Stmt)
  | _, [] => []
  | k, p :: r => p.map (fun s => (k, s)) ++ oneByOne (k + 1) r

theorem oneByOne_id (ps : List (List Stmt)) : ∀ k, ∀ e ∈ oneByOne k ps, k ≤ e.1 ∧ e.1 < k + ps.length := by
  induction ps with
  | nil => intro k e he; simp [oneByOne] at he
  | cons p r ih =>
    intro k e he
    rcases List.mem_append.1 he with he | he
    · obtain ⟨s, _, rfl⟩ := List.mem_map.1 he
      simp
    · have := ih (k + 1) e he
      simp; omega

theorem oneByOne_filter (ps : List (List Stmt)) : ∀ k t, ((oneByOne k ps).filter fun e => e.1 == k + t).map Prod.snd = ps.getD t [] := by
  induction ps with
  | nil => intro k t; simp [oneByOne]
  | cons p r ih =>
    intro k t
    rw [oneByOne, List.filter_append, List.map_append]
    cases t with
    | zero =>
      have h1 : (p.map fun s => (k, s)).filter (fun e => e.1 == k + 0) = p.map fun s => (k, s) := by
        apply List.filter_eq_self.2
        intro e he
        obtain ⟨s, _, rfl⟩ := List.mem_map.1 he
        simp
      have h2 : (oneByOne (k + 1) r).filter (fun e => e.1 == k + 0) = [] := by
        rw [List.filter_eq_nil_iff]
        intro e he
        have := oneByOne_id r (k + 1) e he
        simp; omega
      rw [h1, h2]
      simp [List.map_map, Function.comp_def]
    | succ t =>
      have h1 : (p.map fun s => (k, s)).filter (fun e => e.1 == k + (t + 1)) = [] := by
        rw [List.filter_eq_nil_iff]
        intro e he
        obtain ⟨s, _, rfl⟩ := List.mem_map.1 he
        simp
      have h2 := ih (k + 1) t
      rw [show k + 1 + t = k + (t + 1) by omega] at h2
      rw [h1, h2]
      simp

/-- **C07 (refutation).** Every schedule with work for two threads has an interleaving, and data, with a wrong result. -/
theorem C07_uneven_every_schedule_wrong (n : Nat) (sched : List (List Nat)) (hs : IsSchedule sched 1 n) (t u : Nat) (htu : t ≠ u)
    (ht : t < sched.length) (hu : u < sched.length) (h1 : sched[t] ≠ []) (h2 : sched[u] ≠ []) :
    ∃ tr, IsInterleaving sched tr ∧ ∃ (x f : Nat → ℚ) (d1 d2 : ℚ), trapzParallelUneven x f d1 d2 sched.length tr ≠ trapSum n x f := by
  obtain ⟨i, ri, ei⟩ := List.exists_cons_of_ne_nil h1
  obtain ⟨j, rj, ej⟩ := List.exists_cons_of_ne_nil h2
  have hij : i ≠ j := by
    intro e
    have hnd : sched.flatten.Nodup := (List.Perm.nodup_iff hs).2 (List.nodup_range' ..)
    have hd := (List.nodup_flatten.1 hnd).2
    have hdis : ∀ a b (ha : a < sched.length) (hb : b < sched.length), a < b → List.Disjoint sched[a] sched[b] :=
      fun a b ha hb hab => List.pairwise_iff_getElem.1 hd a b ha hb hab
    rcases Nat.lt_or_gt_of_ne htu with h | h
    · exact (hdis t u ht hu h) (show i ∈ sched[t] by simp [ei]) (by simp [ej, e])
    · exact (hdis u t hu ht h) (show i ∈ sched[u] by simp [ej, e]) (by simp [ei])
  -- after `setInc i`, `setSum i` of the one and `setInc j` of the other, one addition uses `j` and `i`
  let rest' : List (List Stmt) := (List.range sched.length).map fun v =>
    if v = t then threadProg ri else if v = u then .setSum j :: .addRes :: threadProg rj else threadProg (sched.getD v [])
  have hI : IsInterleaving sched ((t, .setInc i) :: (t, .setSum i) :: (u, .setInc j) :: (t, .addRes) :: oneByOne 0 rest') := by
    constructor
    · intro e he
      simp only [List.mem_cons] at he
      rcases he with rfl | rfl | rfl | rfl | he
      · exact ht
      · exact ht
      · exact hu
      · exact ht
      · have := oneByOne_id rest' 0 e he
        simp [rest'] at this
        exact this
    · intro v hv
      have e := oneByOne_filter rest' 0 v
      rw [Nat.zero_add] at e
      have hr : rest'.getD v [] = if v = t then threadProg ri else if v = u then .setSum j :: .addRes :: threadProg rj
          else threadProg (sched.getD v []) := by
        simp [rest', List.getD, hv]
      rw [hr] at e
      simp only [List.filter_cons]
      by_cases a : v = t
      · subst a
        simp only [beq_self_eq_true, if_true, htu, List.map_cons, ei, e]
        rw [if_neg (by simpa using Ne.symm htu)]
        simp [e, threadProg, bodyStmts]
      · by_cases b : v = u
        · subst b
          rw [if_neg (by simpa using htu), if_neg (by simpa using htu), if_pos (by simp), if_neg (by simpa using htu)]
          simp [a] at e
          simp [e, ej, threadProg, bodyStmts]
        · rw [if_neg (by simpa using Ne.symm a), if_neg (by simpa using Ne.symm a), if_neg (by simpa using Ne.symm b), if_neg (by simpa using Ne.symm a)]
          simp [a, b] at e
          simp [e, hv]
  refine ⟨_, hI, ?_⟩
  · by_contra hcon
    push Not at hcon
    have hp := (C07_uneven_exact n sched hs _ hI).1 hcon
    have hmem : ((some j, some i) : Option Nat × Option Nat) ∈
        Spec.usedBy none none ((t, .setInc i) :: (t, .setSum i) :: (u, .setInc j) :: (t, .addRes) :: oneByOne 0 rest') := by
      simp [Spec.usedBy]
    obtain ⟨k, _, hk⟩ := List.mem_map.1 (hp.mem_iff.1 hmem)
    cases hk
    exact hij rfl

/-- Non-vacuity: a schedule with two busy threads, with an execution without overlap and one with overlap. -/
example : IsSchedule [[3, 1], [2]] 1 4 ∧ IsInterleaving [[3, 1], [2]] (Spec.wholeBodies [(0, 3), (1, 2), (0, 1)]) ∧
    IsInterleaving [[3, 1], [2]] [(0, .setInc 3), (1, .setInc 2), (0, .setSum 3), (0, .addRes), (1, .setSum 2), (1, .addRes),
      (0, .setInc 1), (0, .setSum 1), (0, .addRes)] := by
  refine ⟨by show List.Perm _ _; decide, ⟨by decide, ?_⟩, by decide, ?_⟩ <;>
  · intro t ht
    have : t = 0 ∨ t = 1 := by simp at ht; omega
    rcases this with rfl | rfl <;> rfl

end Verif.NumInt
