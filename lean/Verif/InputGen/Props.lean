import Verif.InputGen.Model
import Verif.Combos.Props
import Mathlib.Tactic.Ring
import Mathlib.Tactic.FieldSimp
import Mathlib.Tactic.NormNum
/-! # C28: generated mode combinations -/
namespace Verif.InputGen
open Verif.Combos

/-! ## Lemmas -/

theorem mem_pyRange (lo hi x : Int) : x ∈ pyRange lo hi ↔ lo ≤ x ∧ x ≤ hi := by
  simp only [pyRange, List.mem_map, List.mem_range]
  constructor
  · rintro ⟨k, hk, rfl⟩; omega
  · rintro ⟨h1, h2⟩; exact ⟨(x - lo).toNat, by omega, by omega⟩

theorem pyRange_sorted (lo hi : Int) : (pyRange lo hi).Pairwise (· < ·) := by
  unfold pyRange
  rw [List.pairwise_map]
  exact List.pairwise_lt_range.imp (fun h => by omega)

theorem pyRange_nodup (lo hi : Int) : (pyRange lo hi).Nodup :=
  (pyRange_sorted lo hi).imp (fun h => by omega)

theorem length_pyRange (lo hi : Int) : (pyRange lo hi).length = (hi + 1 - lo).toNat := by
  simp [pyRange]

theorem count_triples (D : List Int) (P : List (Int × Int)) (d x y : Int) :
    (triples D P).count [d, x, y] = D.count d * P.count (x, y) := by
  unfold triples
  induction D with
  | nil => simp
  | cons z zs ih =>
    rw [List.flatMap_cons, List.count_append, ih, List.count_cons]
    have : (P.map (fun p => [z, p.1, p.2])).count [d, x, y] = if z = d then P.count (x, y) else 0 := by
      clear ih
      induction P with
      | nil => simp
      | cons p P ihP =>
        obtain ⟨a, b⟩ := p
        rw [List.map_cons, List.count_cons, ihP, List.count_cons]
        by_cases hz : z = d
        · subst hz; simp
        · simp [hz]
    rw [this]
    by_cases hz : z = d
    · subst hz; simp; ring
    · simp [hz]

theorem length_triples (D : List Int) (P : List (Int × Int)) :
    (triples D P).length = D.length * P.length := by
  unfold triples
  induction D with
  | nil => simp
  | cons z zs ih => rw [List.flatMap_cons, List.length_append, ih]; simp; ring

theorem triples_form (D : List Int) (P : List (Int × Int)) (t : List Int) (h : t ∈ triples D P) :
    ∃ d x y, t = [d, x, y] ∧ d ∈ D ∧ (x, y) ∈ P := by
  unfold triples at h
  simp only [List.mem_flatMap, List.mem_map] at h
  obtain ⟨d, hd, ⟨x, y⟩, hp, rfl⟩ := h
  exact ⟨d, x, y, rfl, hd, hp⟩

theorem comb2_sorted (l : List Int) (h : l.Pairwise (· < ·)) (x y : Int) :
    (x, y) ∈ comb2 l ↔ x ∈ l ∧ y ∈ l ∧ x < y := by
  induction l with
  | nil => simp [comb2]
  | cons z zs ih =>
    obtain ⟨h1, h2⟩ := List.pairwise_cons.1 h
    simp only [comb2, List.mem_append, List.mem_map, ih h2, List.mem_cons, Prod.mk.injEq]
    constructor
    · rintro (⟨w, hw, rfl, rfl⟩ | ⟨a, b, c⟩)
      · exact ⟨Or.inl rfl, Or.inr hw, h1 _ hw⟩
      · exact ⟨Or.inr a, Or.inr b, c⟩
    · rintro ⟨rfl | a, rfl | b, c⟩
      · omega
      · exact Or.inl ⟨y, b, rfl, rfl⟩
      · have := h1 _ a; omega
      · exact Or.inr ⟨a, b, c⟩

theorem count_range (lo hi d : Int) :
    (pyRange lo hi).count d = if lo ≤ d ∧ d ≤ hi then 1 else 0 := by
  split
  · rename_i h
    exact List.count_eq_one_of_mem (pyRange_nodup lo hi) ((mem_pyRange lo hi d).2 h)
  · rename_i h
    rw [List.count_eq_zero]; intro h'; exact h ((mem_pyRange lo hi d).1 h')

/-! ## Statistics -/

/-- **C28** (statistics): whatever the ranges, the mean-order and Wu-statistic lists are parallel to the
list of triples, and for the entry `[d, x, y]` they hold `(d+x+y)/3` and `d - |x - y|`. -/
theorem C28_statistics (dlo dhi lo1 hi1 : Int) (lo2 hi2 : Option Int) (it : Iter Int) :
    let g := gen dlo dhi lo1 hi1 lo2 hi2 it
    g.avg.length = g.combos.length ∧ g.wu.length = g.combos.length ∧
    ∀ (i : Nat) (d x y : Int), g.combos[i]? = some [d, x, y] →
      g.avg[i]? = some (((d : ℚ) + x + y) / 3) ∧ g.wu[i]? = some (d - |x - y|) := by
  have key : ∀ c : List (List Int), (c.map mean).length = c.length ∧ (c.map wu).length = c.length ∧
      ∀ (i : Nat) (d x y : Int), c[i]? = some [d, x, y] →
        (c.map mean)[i]? = some (((d : ℚ) + x + y) / 3) ∧ (c.map wu)[i]? = some (d - |x - y|) := by
    intro c
    refine ⟨by simp, by simp, ?_⟩
    intro i d x y h
    rw [List.getElem?_map, List.getElem?_map, h]
    constructor
    · simp only [Option.map_some, mean, List.sum_cons, List.sum_nil, List.length_cons,
        List.length_nil]
      congr 1
      push_cast
      ring
    · rfl
  intro g
  cases lo2 <;> cases hi2 <;> exact key _

/-! ## One damped range -/

/-- **C28** (one damped range): for all ranges, the triple `[d, x, y]` is listed exactly once if the driven
order is in its inclusive range and `x < y` are two orders of the damped range, and never otherwise;
nothing but such triples is listed; their number is `#driven · (#damped choose 2)`. -/
theorem C28_single_range (dlo dhi lo1 hi1 : Int) (it : Iter Int) :
    let g := gen dlo dhi lo1 hi1 none none it
    (∀ d x y, g.combos.count [d, x, y] =
      if (dlo ≤ d ∧ d ≤ dhi) ∧ (lo1 ≤ x ∧ x < y ∧ y ≤ hi1) then 1 else 0) ∧
    (∀ t ∈ g.combos, ∃ d x y, t = [d, x, y]) ∧
    g.combos.length = (dhi + 1 - dlo).toNat * Nat.choose (hi1 + 1 - lo1).toNat 2 := by
  intro g
  have hg : g.combos = triples (pyRange dlo dhi) (comb2 (pyRange lo1 hi1)) := rfl
  rw [hg]
  refine ⟨?_, ?_, ?_⟩
  · intro d x y
    rw [count_triples, count_range]
    have hm := comb2_sorted _ (pyRange_sorted lo1 hi1) x y
    rw [mem_pyRange, mem_pyRange] at hm
    by_cases h : lo1 ≤ x ∧ x < y ∧ y ≤ hi1
    · have hx : x ∈ pyRange lo1 hi1 := (mem_pyRange _ _ _).2 (by omega)
      have hy : y ∈ pyRange lo1 hi1 := (mem_pyRange _ _ _).2 (by omega)
      have h1 := C20_each_pair_once _ (pyRange_nodup lo1 hi1) x y hx hy (by omega)
      have h2 : (comb2 (pyRange lo1 hi1)).count (y, x) = 0 := by
        rw [List.count_eq_zero, comb2_sorted _ (pyRange_sorted lo1 hi1)]
        omega
      simp only [singleSet, h2, add_zero] at h1
      rw [h1]; simp [h]
    · have : (comb2 (pyRange lo1 hi1)).count (x, y) = 0 := by
        rw [List.count_eq_zero, hm]; omega
      rw [this]; simp [h]
  · intro t ht
    obtain ⟨d, x, y, rfl, -⟩ := triples_form _ _ _ ht
    exact ⟨d, x, y, rfl⟩
  · rw [length_triples, comb2_length, length_pyRange, length_pyRange]

example : (gen 1 2 5 7 none none ⟨[], [], [], []⟩).combos =
    [[1, 5, 6], [1, 5, 7], [1, 6, 7], [2, 5, 6], [2, 5, 7], [2, 6, 7]] := by decide

/-! ## Two damped ranges -/

/-- **C28** (two damped ranges; partial): if the sets of radial orders happen to be iterated in increasing
order, then for every driven order in its inclusive range, each unordered pair of different orders, one from
each damped range, is listed exactly once (in one of its two orientations), and so is `[d, x, x]` for `x` in
both ranges; nothing else is listed.  Missing: other iteration orders (`C28_two_ranges_wrong`). -/
theorem C28_two_ranges_partial (dlo dhi lo1 hi1 lo2 hi2 : Int) (it : Iter Int)
    (hv : it.Valid (pyRange lo1 hi1) (pyRange lo2 hi2)) (hU : it.union.Pairwise (· < ·))
    (hAB : it.aMinB.Pairwise (· < ·)) (hBA : it.bMinA.Pairwise (· < ·)) :
    let g := gen dlo dhi lo1 hi1 (some lo2) (some hi2) it
    (∀ d x y, x ≠ y → g.combos.count [d, x, y] + g.combos.count [d, y, x] =
      if (dlo ≤ d ∧ d ≤ dhi) ∧ (((lo1 ≤ x ∧ x ≤ hi1) ∧ (lo2 ≤ y ∧ y ≤ hi2)) ∨
        ((lo2 ≤ x ∧ x ≤ hi2) ∧ (lo1 ≤ y ∧ y ≤ hi1))) then 1 else 0) ∧
    (∀ d x, g.combos.count [d, x, x] =
      if (dlo ≤ d ∧ d ≤ dhi) ∧ (lo1 ≤ x ∧ x ≤ hi1) ∧ (lo2 ≤ x ∧ x ≤ hi2) then 1 else 0) ∧
    (∀ t ∈ g.combos, ∃ d x y, t = [d, x, y]) := by
  intro g
  let P := (symmetricProduct (pyRange lo1 hi1) (pyRange lo2 hi2) it true).l
  have hg : g.combos = triples (pyRange dlo dhi) P := rfl
  let r : Int → Nat := fun x => (x - min lo1 lo2).toNat
  have hinc : ∀ l : List Int, (∀ x ∈ l, min lo1 lo2 ≤ x) → l.Pairwise (· < ·) → Increasing r l := by
    intro l hl hp
    refine List.Pairwise.imp_of_mem ?_ hp
    intro a b ha hb hab
    have := hl a ha
    show (a - min lo1 lo2).toNat < (b - min lo1 lo2).toNat
    omega
  have b1 : ∀ x ∈ pyRange lo1 hi1, min lo1 lo2 ≤ x := fun x hx => by
    have := (mem_pyRange _ _ _).1 hx; omega
  have b2 : ∀ x ∈ pyRange lo2 hi2, min lo1 lo2 ≤ x := fun x hx => by
    have := (mem_pyRange _ _ _).1 hx; omega
  obtain ⟨h1, h2, -⟩ := C22_symmetric_product_partial r (pyRange lo1 hi1) (pyRange lo2 hi2) it hv
    (hinc _ b1 (pyRange_sorted _ _)) (hinc _ b2 (pyRange_sorted _ _))
    (hinc _ (fun x hx => by
      rcases (hv.1.2 x).1 hx with h | h
      · exact b1 x h
      · exact b2 x h) hU)
    (hinc _ (fun x hx => b1 x ((hv.2.1.2 x).1 hx).1) hAB)
    (hinc _ (fun x hx => b2 x ((hv.2.2.1.2 x).1 hx).1) hBA) true
  simp only [mem_pyRange] at h1 h2
  rw [hg]
  refine ⟨?_, ?_, ?_⟩
  · intro d x y hxy
    rw [count_triples, count_triples, ← Nat.mul_add, h1 x y hxy, count_range]
    split_ifs <;> simp_all
  · intro d x
    rw [count_triples, h2, count_range]
    split_ifs <;> simp_all
  · intro t ht
    obtain ⟨d, x, y, rfl, -⟩ := triples_form _ _ _ ht
    exact ⟨d, x, y, rfl⟩

/-- The increasing iteration orders meet the hypotheses of `C28_two_ranges_partial`. -/
example : (⟨[5, 6, 7], [5], [7], [6]⟩ : Iter Int).Valid (pyRange 5 6) (pyRange 6 7) ∧
    ([5, 6, 7] : List Int).Pairwise (· < ·) := by
  refine ⟨⟨⟨by decide, ?_⟩, ⟨by decide, ?_⟩, ⟨by decide, ?_⟩, ⟨by decide, ?_⟩⟩, by decide⟩ <;>
    (intro x; simp [mem_pyRange]; omega)

/-- **C28 fails** in general: damped ranges 7..8 and 9..9.  CPython iterates the set `{7, 8, 9}` as
`8, 9, 7` (slots `n mod 8`); then the triple `[1, 8, 7]` is listed although neither 8 nor 7 is in the second
range. -/
theorem C28_two_ranges_wrong :
    (⟨[8, 9, 7], [8, 7], [9], []⟩ : Iter Int).Valid (pyRange 7 8) (pyRange 9 9) ∧
    [1, 8, 7] ∈ (gen 1 1 7 8 (some 9) (some 9) ⟨[8, 9, 7], [8, 7], [9], []⟩).combos := by
  constructor
  · refine ⟨⟨by decide, ?_⟩, ⟨by decide, ?_⟩, ⟨by decide, ?_⟩, ⟨by decide, ?_⟩⟩ <;>
      (intro x; simp [mem_pyRange]; try omega)
  · have h : ((8, 7) : Int × Int) ∈ symSet (pyRange 7 8) (pyRange 9 9) ⟨[8, 9, 7], [8, 7], [9], []⟩ := by
      decide
    show [1, 8, 7] ∈ triples (pyRange 1 1) _
    unfold triples
    simp only [List.mem_flatMap, List.mem_map]
    refine ⟨1, by decide, (8, 7), ?_, rfl⟩
    simp [symmetricProduct, h]

end Verif.InputGen
