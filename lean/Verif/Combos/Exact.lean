import Verif.Combos.Props
/-!
# C22: exactly the iteration orders for which the symmetric product is right
-/
namespace Verif.Combos
variable {α : Type} [DecidableEq α]

theorem mem_comb2_idx (u : List α) (hu : u.Nodup) (x y : α) : (x, y) ∈ comb2 u ↔ x ∈ u ∧ y ∈ u ∧ u.idxOf x < u.idxOf y := by
  apply comb2_increasing
  unfold Increasing
  rw [List.pairwise_iff_getElem]
  intro i j hi hj hij
  show u.idxOf u[i] < u.idxOf u[j]
  rw [hu.idxOf_getElem, hu.idxOf_getElem]
  exact hij

theorem increasing_of_sublist {l u : List α} (hu : u.Nodup) (h : l.Sublist u) : Increasing (fun x => u.idxOf x) l := by
  have : Increasing (fun x => u.idxOf x) u := by
    unfold Increasing
    rw [List.pairwise_iff_getElem]
    intro i j hi hj hij
    show u.idxOf u[i] < u.idxOf u[j]
    rw [hu.idxOf_getElem, hu.idxOf_getElem]
    exact hij
  exact List.Pairwise.sublist h this

omit [DecidableEq α] in
theorem pairwise_of_comb2 (R : α → α → Prop) (l : List α) (h : ∀ x y, (x, y) ∈ comb2 l → R x y) : l.Pairwise R := by
  induction l with
  | nil => exact List.Pairwise.nil
  | cons a t ih =>
    refine List.pairwise_cons.2 ⟨?_, ih ?_⟩
    · intro b hb
      exact h a b (by simp only [comb2, List.mem_append, List.mem_map]; exact Or.inl ⟨b, hb, rfl⟩)
    · intro x y hxy
      exact h x y (by simp only [comb2, List.mem_append]; exact Or.inr hxy)

theorem sublist_of_comb2 {l u : List α} (hl : l.Nodup) (hu : u.Nodup) (hm : ∀ x ∈ l, x ∈ u)
    (h : ∀ x y, (x, y) ∈ comb2 l → (x, y) ∈ comb2 u) : l.Sublist u := by
  have e : l = u.filter (fun x => decide (x ∈ l)) := by
    apply List.Perm.eq_of_pairwise (le := fun x y => u.idxOf x < u.idxOf y)
    · intro a b _ _ h1 h2
      omega
    · exact pairwise_of_comb2 _ _ fun x y hxy => ((mem_comb2_idx u hu x y).1 (h x y hxy)).2.2
    · exact List.Pairwise.sublist List.filter_sublist (increasing_of_sublist hu (List.Sublist.refl _))
    · rw [List.perm_ext_iff_of_nodup hl (hu.filter _)]
      intro x
      simp only [List.mem_filter, decide_eq_true_eq]
      exact ⟨fun hx => ⟨hm x hx, hx⟩, fun hx => hx.2⟩
  rw [e]
  exact List.filter_sublist

theorem comb2_or (l : List α) (hl : l.Nodup) {x y : α} (hx : x ∈ l) (hy : y ∈ l) (hxy : x ≠ y) : (x, y) ∈ comb2 l ∨ (y, x) ∈ comb2 l := by
  rw [mem_comb2_idx l hl, mem_comb2_idx l hl]
  have : l.idxOf x ≠ l.idxOf y := fun e => hxy ((List.idxOf_inj hx).1 e)
  rcases Nat.lt_or_gt_of_ne this with h | h
  · exact Or.inl ⟨hx, hy, h⟩
  · exact Or.inr ⟨hy, hx, h⟩

theorem comb2_not (l : List α) (hl : l.Nodup) {x y : α} (h : (x, y) ∈ comb2 l) : (y, x) ∉ comb2 l := by
  rw [mem_comb2_idx l hl] at h ⊢
  omega

/-- **C22.** The symmetric product lists each unordered pair with one value in A and the other in B once, and no other pair,
exactly if the two inputs and their differences are iterated in the order of their union. -/
theorem C22_exact (A B : List α) (hA : A.Nodup) (hB : B.Nodup) (it : Iter α) (hv : it.Valid A B) (d : Bool) :
    (∀ x y, x ≠ y → (symmetricProduct A B it d).l.count (x, y) + (symmetricProduct A B it d).l.count (y, x) =
        if (x ∈ A ∧ y ∈ B) ∨ (x ∈ B ∧ y ∈ A) then 1 else 0) ↔
      A.Sublist it.union ∧ B.Sublist it.union ∧ it.aMinB.Sublist it.union ∧ it.bMinA.Sublist it.union := by
  have hv0 := hv
  obtain ⟨⟨n1, v1⟩, ⟨n2, v2⟩, ⟨n3, v3⟩, ⟨n4, v4⟩⟩ := hv
  constructor
  · intro h
    -- membership in the set of pairs
    have cT : ∀ x y, x ≠ y → (symmetricProduct A B it d).l.count (x, y) = if (x, y) ∈ symSet A B it then 1 else 0 := by
      intro x y hxy
      unfold symmetricProduct
      simp only [List.count_append]
      have : (if d then it.inter.map (fun w => (w, w)) else []).count (x, y) = 0 := by
        rw [List.count_eq_zero]
        intro hm
        cases d with
        | false => simp at hm
        | true =>
          obtain ⟨w, _, e⟩ := List.mem_map.1 (by simpa using hm : (x, y) ∈ it.inter.map (fun w => (w, w)))
          obtain ⟨rfl, rfl⟩ := Prod.mk.inj e
          exact hxy rfl
      rw [this]
      split
      · rename_i hh
        rw [List.count_eq_one_of_mem (Finset.nodup_toList _) (Finset.mem_toList.2 hh)]
      · rename_i hh
        rw [List.count_eq_zero.2 fun h' => hh (Finset.mem_toList.1 h')]
    have hset : ∀ x y, (x, y) ∈ symSet A B it ↔
        (((x, y) ∈ comb2 it.union ∧ ¬ ((x, y) ∈ comb2 A ∨ (x, y) ∈ comb2 B)) ∨ ((x, y) ∈ comb2 A ∧ (x, y) ∉ comb2 it.aMinB)) ∨
          ((x, y) ∈ comb2 B ∧ (x, y) ∉ comb2 it.bMinA) := by
      intro x y
      simp only [symSet, Finset.mem_union, Finset.mem_sdiff, List.mem_toFinset]
    -- a pair is listed in at most one way, and not at all if both are in one set only
    have hone : ∀ x y, x ≠ y → ¬ ((x, y) ∈ symSet A B it ∧ (y, x) ∈ symSet A B it) := by
      rintro x y hxy ⟨p, q⟩
      have := h x y hxy
      rw [cT x y hxy, cT y x hxy.symm, if_pos p, if_pos q] at this
      split at this <;> omega
    have hnone : ∀ x y, x ≠ y → ¬ ((x ∈ A ∧ y ∈ B) ∨ (x ∈ B ∧ y ∈ A)) → (x, y) ∉ symSet A B it ∧ (y, x) ∉ symSet A B it := by
      intro x y hxy hn
      have := h x y hxy
      rw [cT x y hxy, cT y x hxy.symm, if_neg hn] at this
      constructor
      · intro p; rw [if_pos p] at this; omega
      · intro p; rw [if_pos p] at this; omega
    have ne_of : ∀ (l : List α) (_ : l.Nodup) x y, (x, y) ∈ comb2 l → x ≠ y := by
      intro l hl x y hxy e
      subst e
      exact comb2_not l hl hxy hxy
    have mem_of : ∀ (l : List α) x y, (x, y) ∈ comb2 l → x ∈ l ∧ y ∈ l := fun l x y hxy => comb2_mem l (x, y) hxy
    have inAB : ∀ x y, (x, y) ∈ comb2 it.aMinB → (x ∈ A ∧ x ∉ B) ∧ y ∈ A ∧ y ∉ B := fun x y hxy =>
      ⟨(v2 x).1 (mem_of _ _ _ hxy).1, (v2 y).1 (mem_of _ _ _ hxy).2⟩
    have inBA : ∀ x y, (x, y) ∈ comb2 it.bMinA → (x ∈ B ∧ x ∉ A) ∧ y ∈ B ∧ y ∉ A := fun x y hxy =>
      ⟨(v3 x).1 (mem_of _ _ _ hxy).1, (v3 y).1 (mem_of _ _ _ hxy).2⟩
    have k1 : ∀ x y, (x, y) ∈ comb2 A → (x, y) ∈ comb2 it.union := by
      intro x y hxy
      by_contra hn
      have hne := ne_of A hA x y hxy
      obtain ⟨mx, my⟩ := mem_of A x y hxy
      have hU := (comb2_or it.union n1 ((v1 x).2 (Or.inl mx)) ((v1 y).2 (Or.inl my)) hne).resolve_left hn
      have hA' := comb2_not A hA hxy
      by_cases hBx : x ∈ B ∨ y ∈ B
      · have p : (x, y) ∈ symSet A B it := (hset x y).2 (Or.inl (Or.inr ⟨hxy, fun c => by have := inAB x y c; tauto⟩))
        have q : (y, x) ∈ symSet A B it := by
          rw [hset]
          by_cases hb : (y, x) ∈ comb2 B
          · exact Or.inr ⟨hb, fun c => by have := inBA y x c; tauto⟩
          · exact Or.inl (Or.inl ⟨hU, by tauto⟩)
        exact hone x y hne ⟨p, q⟩
      · have hb : (y, x) ∉ comb2 B := fun c => by have := mem_of B y x c; tauto
        exact (hnone x y hne (by tauto)).2 ((hset y x).2 (Or.inl (Or.inl ⟨hU, by tauto⟩)))
    have k2 : ∀ x y, (x, y) ∈ comb2 B → (x, y) ∈ comb2 it.union := by
      intro x y hxy
      by_contra hn
      have hne := ne_of B hB x y hxy
      obtain ⟨mx, my⟩ := mem_of B x y hxy
      have hU := (comb2_or it.union n1 ((v1 x).2 (Or.inr mx)) ((v1 y).2 (Or.inr my)) hne).resolve_left hn
      have hB' := comb2_not B hB hxy
      by_cases hAx : x ∈ A ∨ y ∈ A
      · have p : (x, y) ∈ symSet A B it := (hset x y).2 (Or.inr ⟨hxy, fun c => by have := inBA x y c; tauto⟩)
        have q : (y, x) ∈ symSet A B it := by
          rw [hset]
          by_cases hb : (y, x) ∈ comb2 A
          · exact Or.inl (Or.inr ⟨hb, fun c => by have := inAB y x c; tauto⟩)
          · exact Or.inl (Or.inl ⟨hU, by tauto⟩)
        exact hone x y hne ⟨p, q⟩
      · have hb : (y, x) ∉ comb2 A := fun c => by have := mem_of A y x c; tauto
        exact (hnone x y hne (by tauto)).2 ((hset y x).2 (Or.inl (Or.inl ⟨hU, by tauto⟩)))
    have k3 : ∀ x y, (x, y) ∈ comb2 it.aMinB → (x, y) ∈ comb2 it.union := by
      intro x y hxy
      have hne := ne_of _ n2 x y hxy
      obtain ⟨⟨a1, b1⟩, a2, b2⟩ := inAB x y hxy
      rcases comb2_or A hA a1 a2 hne with g | g
      · exact k1 x y g
      · exact absurd ((hset y x).2 (Or.inl (Or.inr ⟨g, comb2_not _ n2 hxy⟩))) (hnone x y hne (by tauto)).2
    have k4 : ∀ x y, (x, y) ∈ comb2 it.bMinA → (x, y) ∈ comb2 it.union := by
      intro x y hxy
      have hne := ne_of _ n3 x y hxy
      obtain ⟨⟨a1, b1⟩, a2, b2⟩ := inBA x y hxy
      rcases comb2_or B hB a1 a2 hne with g | g
      · exact k2 x y g
      · exact absurd ((hset y x).2 (Or.inr ⟨g, comb2_not _ n3 hxy⟩)) (hnone x y hne (by tauto)).2
    exact ⟨sublist_of_comb2 hA n1 (fun x hx => (v1 x).2 (Or.inl hx)) k1, sublist_of_comb2 hB n1 (fun x hx => (v1 x).2 (Or.inr hx)) k2,
      sublist_of_comb2 n2 n1 (fun x hx => (v1 x).2 (Or.inl ((v2 x).1 hx).1)) k3,
      sublist_of_comb2 n3 n1 (fun x hx => (v1 x).2 (Or.inr ((v3 x).1 hx).1)) k4⟩
  · rintro ⟨s1, s2, s3, s4⟩
    exact (C22_symmetric_product_partial (fun x => it.union.idxOf x) A B it hv0 (increasing_of_sublist n1 s1) (increasing_of_sublist n1 s2)
      (increasing_of_sublist n1 (List.Sublist.refl _)) (increasing_of_sublist n1 s3) (increasing_of_sublist n1 s4) d).1

/-- Non-vacuity: orders that agree and are not increasing, and orders that do not agree. -/
example : (⟨[3, 1, 2], [3, 1], [], [2]⟩ : Iter Nat).Valid [3, 1, 2] [2] ∧ [3, 1, 2].Sublist [3, 1, 2] ∧
    (⟨[1, 3, 2], [3, 1], [], [2]⟩ : Iter Nat).Valid [3, 1, 2] [2] ∧ ¬ [3, 1, 2].Sublist [1, 3, 2] := by
  refine ⟨⟨⟨by decide, ?_⟩, ⟨by decide, ?_⟩, ⟨by decide, ?_⟩, ⟨by decide, ?_⟩⟩, by decide,
    ⟨⟨by decide, ?_⟩, ⟨by decide, ?_⟩, ⟨by decide, ?_⟩, ⟨by decide, ?_⟩⟩, by decide⟩ <;>
      (intro x; simp; omega)

end Verif.Combos
