import Verif.Combos.Model
import Mathlib.Data.List.Sort
import Mathlib.Tactic.Linarith
import Mathlib.Tactic.Ring
import Mathlib.Tactic.Tauto
/-!
# Properties C20–C22: combinations
-/
namespace Verif.Combos
variable {α : Type}

theorem comb2_length (l : List α) : (comb2 l).length = Nat.choose l.length 2 := by
  induction l with
  | nil => rfl
  | cons x xs ih =>
    simp only [comb2, List.length_append, List.length_map, ih, List.length_cons]
    rw [Nat.choose_succ_succ' xs.length 1, Nat.choose_one_right]

theorem comb2_mem (l : List α) (p : α × α) (h : p ∈ comb2 l) : p.1 ∈ l ∧ p.2 ∈ l := by
  induction l with
  | nil => simp [comb2] at h
  | cons x xs ih =>
    simp only [comb2, List.mem_append, List.mem_map] at h
    rcases h with ⟨y, hy, rfl⟩ | h
    · exact ⟨by simp, by simp [hy]⟩
    · have := ih h; exact ⟨by simp [this.1], by simp [this.2]⟩

section
variable [DecidableEq α]

/-! ## C20 -/

/-- C20: for distinct values every unordered pair of different elements occurs exactly once (in one of
its two orientations). -/
theorem C20_each_pair_once (l : List α) (hl : l.Nodup) (x y : α) (hx : x ∈ l) (hy : y ∈ l)
    (hxy : x ≠ y) : (singleSet l).l.count (x, y) + (singleSet l).l.count (y, x) = 1 := by
  unfold singleSet
  simp only
  induction l with
  | nil => simp at hx
  | cons z zs ih =>
    have hz := List.nodup_cons.1 hl
    have cnt : ∀ a b : α, (zs.map (fun w => (z, w))).count (a, b) = if a = z then zs.count b else 0 := by
      intro a b
      split
      · rename_i e; subst e
        have hinj : Function.Injective (fun w : α => (a, w)) := by
          intro u v h; exact (Prod.mk.inj h).2
        have := List.count_map_of_injective zs (fun w : α => (a, w)) hinj b
        exact this
      · rename_i e
        rw [List.count_eq_zero]
        intro h
        rw [List.mem_map] at h
        obtain ⟨w, _, hw⟩ := h
        exact e (Prod.mk.inj hw).1.symm
    have c0 : ∀ a b : α, a ∉ zs → (comb2 zs).count (a, b) = 0 ∧ (comb2 zs).count (b, a) = 0 := by
      intro a b ha
      constructor
      · rw [List.count_eq_zero]; intro h; exact ha (comb2_mem _ _ h).1
      · rw [List.count_eq_zero]; intro h; exact ha (comb2_mem _ _ h).2
    simp only [comb2, List.count_append, cnt]
    by_cases e1 : x = z
    · subst e1
      have hy' : y ∈ zs := by
        rcases List.mem_cons.1 hy with h | h
        · exact absurd h.symm hxy
        · exact h
      rw [if_pos rfl, if_neg (Ne.symm hxy), (c0 x y hz.1).1, (c0 x y hz.1).2,
        List.count_eq_one_of_mem hz.2 hy']
    · have hx' : x ∈ zs := by
        rcases List.mem_cons.1 hx with h | h
        · exact absurd h e1
        · exact h
      by_cases e2 : y = z
      · subst e2
        rw [if_neg e1, if_pos rfl, (c0 y x hz.1).2, (c0 y x hz.1).1,
          List.count_eq_one_of_mem hz.2 hx']
      · have hy' : y ∈ zs := by
          rcases List.mem_cons.1 hy with h | h
          · exact absurd h e2
          · exact h
        rw [if_neg e1, if_neg e2, zero_add, zero_add]
        exact ih hz.2 hx' hy'

end

/-- C20: nothing else is in the list: entries come from the set and are never equal. -/
theorem C20_only_pairs (l : List α) (hl : l.Nodup) (p : α × α) (hp : p ∈ (singleSet l).l) :
    p.1 ∈ l ∧ p.2 ∈ l ∧ p.1 ≠ p.2 := by
  have hm := comb2_mem l p hp
  refine ⟨hm.1, hm.2, ?_⟩
  unfold singleSet at hp
  simp only at hp
  induction l with
  | nil => simp [comb2] at hp
  | cons x xs ih =>
    have hz := List.nodup_cons.1 hl
    simp only [comb2, List.mem_append, List.mem_map] at hp
    rcases hp with ⟨y, hy, rfl⟩ | h
    · intro e; simp only at e; subst e; exact hz.1 hy
    · exact ih hz.2 h (comb2_mem _ _ h)

/-- C20: the reported count is the length of the list (for any list). -/
theorem C20_count (l : List α) : (singleSet l).c = (singleSet l).l.length := by
  simp [singleSet, comb2_length]

example : (singleSet [3, 1, 2]).l = [(3, 1), (3, 2), (1, 2)] ∧ [3, 1, 2].Nodup := by decide

/-! ## C21 -/

/-- C21: each ordered pair occurs once per occurrence of its entries in the inputs. -/
theorem C21_product_multiplicity [DecidableEq α] (a b : List α) (x y : α) :
    (cartesian a b).l.count (x, y) = a.count x * b.count y := by
  unfold cartesian product
  simp only
  induction a with
  | nil => simp
  | cons z zs ih =>
    rw [List.flatMap_cons, List.count_append, ih, List.count_cons]
    by_cases e : z = x
    · subst e
      have hinj : Function.Injective (fun w : α => (z, w)) := by
        intro u v h; exact (Prod.mk.inj h).2
      have h1 : (b.map (fun w => (z, w))).count (z, y) = b.count y :=
        List.count_map_of_injective b (fun w : α => (z, w)) hinj y
      rw [h1]
      simp
      ring
    · have h1 : (b.map (fun w => (z, w))).count (x, y) = 0 := by
        rw [List.count_eq_zero]
        intro h
        rw [List.mem_map] at h
        obtain ⟨w, _, hw⟩ := h
        exact e (Prod.mk.inj hw).1
      rw [h1]
      simp [e]

/-- C21: the reported count is the length of the list. -/
theorem C21_count (a b : List α) : (cartesian a b).c = (cartesian a b).l.length := by
  unfold cartesian product
  simp only
  congr 1
  induction a with
  | nil => simp
  | cons z zs ih =>
    rw [List.flatMap_cons, List.length_append, List.length_cons, ← ih, List.length_map]
    ring

example : (cartesian [1, 1] [2, 3]).l = [(1, 2), (1, 3), (1, 2), (1, 3)] := by decide

/-! ## C22 -/

/-- An order is consistent with a ranking when it is strictly increasing in rank. -/
def Increasing (r : α → Nat) (l : List α) : Prop := l.Pairwise (fun x y => r x < r y)

theorem comb2_increasing (r : α → Nat) (l : List α) (h : Increasing r l) (x y : α) :
    (x, y) ∈ comb2 l ↔ x ∈ l ∧ y ∈ l ∧ r x < r y := by
  induction l with
  | nil => simp [comb2]
  | cons z zs ih =>
    obtain ⟨h1, h2⟩ := List.pairwise_cons.1 h
    simp only [comb2, List.mem_append, List.mem_map, ih h2, List.mem_cons, Prod.mk.injEq]
    constructor
    · rintro (⟨w, hw, rfl, rfl⟩ | ⟨a, b, c⟩)
      · exact ⟨Or.inl rfl, Or.inr hw, h1 _ hw⟩
      · exact ⟨Or.inr a, Or.inr b, c⟩
    · rintro ⟨rfl | a, rfl | b, c⟩
      · omega
      · exact Or.inl ⟨y, b, rfl, rfl⟩
      · have := h1 _ a; omega
      · exact Or.inr ⟨a, b, c⟩

theorem comb2_nodup (r : α → Nat) (l : List α) (h : Increasing r l) : (comb2 l).Nodup := by
  induction l with
  | nil => exact List.nodup_nil
  | cons z zs ih =>
    obtain ⟨h1, h2⟩ := List.pairwise_cons.1 h
    simp only [comb2]
    rw [List.nodup_append]
    refine ⟨?_, ih h2, ?_⟩
    · apply List.Nodup.map
      · intro u v e; exact (Prod.mk.inj e).2
      · exact List.Pairwise.imp (fun {a b} hab => by intro e; subst e; omega) h2
    · intro p hp q hq e
      subst e
      rw [List.mem_map] at hp
      obtain ⟨w, hw, rfl⟩ := hp
      have h3 : z ∈ zs := (comb2_mem _ _ hq).1
      have := h1 _ h3
      omega

section
variable [DecidableEq α]

theorem symSet_mem (r : α → Nat) (A B : List α) (it : Iter α) (hv : it.Valid A B)
    (hA : Increasing r A) (hB : Increasing r B) (hU : Increasing r it.union)
    (hAB : Increasing r it.aMinB) (hBA : Increasing r it.bMinA) (x y : α) :
    (x, y) ∈ symSet A B it ↔ r x < r y ∧ ((x ∈ A ∧ y ∈ B) ∨ (x ∈ B ∧ y ∈ A)) := by
  obtain ⟨⟨-, v1⟩, ⟨-, v2⟩, ⟨-, v3⟩, -⟩ := hv
  simp only [symSet, Finset.mem_union, Finset.mem_sdiff, List.mem_toFinset,
    comb2_increasing r _ hA, comb2_increasing r _ hB, comb2_increasing r _ hU,
    comb2_increasing r _ hAB, comb2_increasing r _ hBA, v1, v2, v3]
  tauto

theorem symSet_card (r : α → Nat) (A B : List α) (it : Iter α) (hv : it.Valid A B)
    (hA : Increasing r A) (hB : Increasing r B) (hU : Increasing r it.union)
    (hAB : Increasing r it.aMinB) (hBA : Increasing r it.bMinA) :
    ((symSet A B it).card : Int) = symCard A B := by
  have hset : symSet A B it = (comb2 it.union).toFinset \
      ((comb2 it.aMinB).toFinset ∪ (comb2 it.bMinA).toFinset) := by
    ext ⟨x, y⟩
    rw [symSet_mem r A B it hv hA hB hU hAB hBA]
    obtain ⟨⟨-, v1⟩, ⟨-, v2⟩, ⟨-, v3⟩, -⟩ := hv
    simp only [Finset.mem_union, Finset.mem_sdiff, List.mem_toFinset,
      comb2_increasing r _ hU, comb2_increasing r _ hAB, comb2_increasing r _ hBA, v1, v2, v3]
    tauto
  have hsub : (comb2 it.aMinB).toFinset ∪ (comb2 it.bMinA).toFinset ⊆ (comb2 it.union).toFinset := by
    intro ⟨x, y⟩
    obtain ⟨⟨-, v1⟩, ⟨-, v2⟩, ⟨-, v3⟩, -⟩ := hv
    simp only [Finset.mem_union, List.mem_toFinset,
      comb2_increasing r _ hU, comb2_increasing r _ hAB, comb2_increasing r _ hBA, v1, v2, v3]
    tauto
  have hdisj : Disjoint (comb2 it.aMinB).toFinset (comb2 it.bMinA).toFinset := by
    rw [Finset.disjoint_left]
    intro ⟨x, y⟩
    obtain ⟨⟨-, v1⟩, ⟨-, v2⟩, ⟨-, v3⟩, -⟩ := hv
    simp only [List.mem_toFinset, comb2_increasing r _ hAB, comb2_increasing r _ hBA, v2, v3]
    tauto
  have card_of : ∀ l : List α, Increasing r l → (comb2 l).toFinset.card = Nat.choose l.length 2 := by
    intro l hl
    rw [List.toFinset_card_of_nodup (comb2_nodup r l hl), comb2_length]
  have len : ∀ (l : List α) (s : Finset α), l.Nodup → (∀ x, x ∈ l ↔ x ∈ s) → l.length = s.card := by
    intro l s hn hm
    rw [← List.toFinset_card_of_nodup hn]
    congr 1
    ext x; rw [List.mem_toFinset, hm]
  obtain ⟨⟨n1, v1⟩, ⟨n2, v2⟩, ⟨n3, v3⟩, -⟩ := hv
  have l1 : it.union.length = (A.toFinset ∪ B.toFinset).card := len _ _ n1 (by intro x; simp [v1])
  have l2 : it.aMinB.length = (A.toFinset \ B.toFinset).card := len _ _ n2 (by intro x; simp [v2])
  have l3 : it.bMinA.length = (B.toFinset \ A.toFinset).card := len _ _ n3 (by intro x; simp [v3])
  have c1 := Finset.card_union_add_card_inter A.toFinset B.toFinset
  have c2 := Finset.card_sdiff_add_card_inter A.toFinset B.toFinset
  have c3 := Finset.card_sdiff_add_card_inter B.toFinset A.toFinset
  rw [Finset.inter_comm B.toFinset A.toFinset] at c3
  have e1 : A.toFinset.card + B.toFinset.card - (A.toFinset ∩ B.toFinset).card = it.union.length := by omega
  have e2 : A.toFinset.card - (A.toFinset ∩ B.toFinset).card = it.aMinB.length := by omega
  have e3 : B.toFinset.card - (A.toFinset ∩ B.toFinset).card = it.bMinA.length := by omega
  unfold symCard
  simp only
  rw [e1, e2, e3, hset, Finset.card_sdiff_of_subset hsub, Finset.card_union_of_disjoint hdisj,
    card_of _ hU, card_of _ hAB, card_of _ hBA]
  have hle := Finset.card_le_card hsub
  rw [Finset.card_union_of_disjoint hdisj, card_of _ hU, card_of _ hAB, card_of _ hBA] at hle
  omega

/-- C22 partial: if the two inputs and the sets are all iterated in an order that increases with one
common ranking of the values, then every unordered pair of different values occurs exactly once when one
value is in A and the other in B, and never otherwise; the diagonal `(x, x)` occurs exactly once for `x` in
A∩B when requested and never otherwise; and the reported count is the length.
Missing: other iteration orders, where the claim is false (`C22_orientation_wrong`). -/
theorem C22_symmetric_product_partial (r : α → Nat) (A B : List α) (it : Iter α)
    (hv : it.Valid A B) (hA : Increasing r A) (hB : Increasing r B) (hU : Increasing r it.union)
    (hAB : Increasing r it.aMinB) (hBA : Increasing r it.bMinA) (d : Bool) :
    (∀ x y, x ≠ y → (symmetricProduct A B it d).l.count (x, y) +
        (symmetricProduct A B it d).l.count (y, x) =
        if (x ∈ A ∧ y ∈ B) ∨ (x ∈ B ∧ y ∈ A) then 1 else 0) ∧
    (∀ x, (symmetricProduct A B it d).l.count (x, x) = if d = true ∧ x ∈ A ∧ x ∈ B then 1 else 0) ∧
    (symmetricProduct A B it d).c = (symmetricProduct A B it d).l.length := by
  have mem := symSet_mem r A B it hv hA hB hU hAB hBA
  have card := symSet_card r A B it hv hA hB hU hAB hBA
  obtain ⟨⟨n1, v1⟩, -, -, ⟨n4, v4⟩⟩ := hv
  have rinj : ∀ x y, (x ∈ A ∨ x ∈ B) → (y ∈ A ∨ y ∈ B) → x ≠ y → r x ≠ r y := by
    intro x y hx hy hne he
    have hp : it.union.Pairwise (fun a b => r a ≠ r b) := hU.imp (fun h => by omega)
    haveI : Std.Symm (fun a b : α => r a ≠ r b) := ⟨fun a b h e => h e.symm⟩
    have := hp.forall ((v1 x).2 hx) ((v1 y).2 hy) hne
    exact this he
  have cT : ∀ p, (symSet A B it).toList.count p = if p ∈ symSet A B it then 1 else 0 := by
    intro p
    split
    · rename_i h
      exact List.count_eq_one_of_mem (Finset.nodup_toList _) (Finset.mem_toList.2 h)
    · rename_i h
      rw [List.count_eq_zero]; intro h'; exact h (Finset.mem_toList.1 h')
  have hinj : Function.Injective (fun w : α => (w, w)) := fun u v e => (Prod.mk.inj e).1
  have cD : ∀ x y, (if d then it.inter.map (fun w => (w, w)) else []).count (x, y) =
      if d = true ∧ x = y ∧ x ∈ A ∧ x ∈ B then 1 else 0 := by
    intro x y
    cases d with
    | false => simp
    | true =>
      simp only [if_true, true_and]
      split
      · rename_i h
        obtain ⟨rfl, h2⟩ := h
        apply List.count_eq_one_of_mem (n4.map hinj)
        exact List.mem_map.2 ⟨x, (v4 x).2 h2, rfl⟩
      · rename_i h
        rw [List.count_eq_zero]
        intro hm
        rw [List.mem_map] at hm
        obtain ⟨w, hw, e⟩ := hm
        obtain ⟨e1, e2⟩ := Prod.mk.inj e
        subst e1
        exact h ⟨e2, (v4 w).1 hw⟩
  unfold symmetricProduct
  simp only [List.count_append, cT, cD, mem]
  refine ⟨?_, ?_, ?_⟩
  · intro x y hxy
    have hyx : y ≠ x := Ne.symm hxy
    simp only [hxy, hyx, false_and, and_false, if_false, add_zero]
    by_cases hc : (x ∈ A ∧ y ∈ B) ∨ (x ∈ B ∧ y ∈ A)
    · have hne := rinj x y (by tauto) (by tauto) hxy
      have hc' : (y ∈ A ∧ x ∈ B) ∨ (y ∈ B ∧ x ∈ A) := by tauto
      rcases Nat.lt_or_gt_of_ne hne with h | h
      · simp [hc, hc', h, Nat.not_lt.2 h.le]
      · have h' : r y < r x := h
        simp [hc, hc', h', Nat.not_lt.2 h'.le]
    · have hc' : ¬ ((y ∈ A ∧ x ∈ B) ∨ (y ∈ B ∧ x ∈ A)) := by tauto
      simp [hc, hc']
  · intro x
    simp
  · rw [List.length_append, Finset.length_toList]
    push_cast
    rw [card]
    have hl : it.inter.length = (A.toFinset ∩ B.toFinset).card := by
      rw [← List.toFinset_card_of_nodup n4]
      congr 1
      ext x; simp [v4]
    cases d with
    | false => simp
    | true => simp [hl]

end

/-- C22 is FALSE in general: with A = [2, 1], B = [3] and sets iterated in increasing order, the pair
(2, 1) – both in A, none in B – is listed, and the list is longer than the reported count. -/
theorem C22_orientation_wrong : ∃ (A B : List Nat) (it : Iter Nat), it.Valid A B ∧
    A.Nodup ∧ B.Nodup ∧ (2, 1) ∈ (symmetricProduct A B it false).l ∧ 2 ∉ B ∧ 1 ∉ B ∧
    (symmetricProduct A B it false).c < (symmetricProduct A B it false).l.length := by
  refine ⟨[2, 1], [3], ⟨[1, 2, 3], [1, 2], [3], []⟩, ?_, by decide, by decide, ?_, by decide,
    by decide, ?_⟩
  · refine ⟨⟨by decide, ?_⟩, ⟨by decide, ?_⟩, ⟨by decide, ?_⟩, ⟨by decide, ?_⟩⟩ <;>
      (intro x; simp; omega)
  · have : (2, 1) ∈ symSet [2, 1] [3] ⟨[1, 2, 3], [1, 2], [3], []⟩ := by decide
    simp [symmetricProduct, this]
  · have h1 : (symSet [2, 1] [3] ⟨[1, 2, 3], [1, 2], [3], []⟩).card = 4 := by decide
    have h2 : symCard [2, 1] [3] = 2 := by decide
    simp only [symmetricProduct, List.length_append, Finset.length_toList, h1, h2]
    decide

/-- Non-vacuity of C22: overlapping sets iterated in increasing order. -/
example : ∃ (it : Iter Nat), it.Valid [1, 2, 4] [2, 3] ∧ Increasing id [1, 2, 4] ∧ Increasing id [2, 3] ∧
    Increasing id it.union ∧ Increasing id it.aMinB ∧ Increasing id it.bMinA := by
  refine ⟨⟨[1, 2, 3, 4], [1, 4], [3], [2]⟩, ?_, ?_, ?_, ?_, ?_, ?_⟩
  · refine ⟨⟨by decide, ?_⟩, ⟨by decide, ?_⟩, ⟨by decide, ?_⟩, ⟨by decide, ?_⟩⟩ <;>
      (intro x; simp; omega)
  all_goals (unfold Increasing; decide)

end Verif.Combos
