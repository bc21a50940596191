import Verif.InputGen.Props
import Verif.Combos.Exact
/-! # C28: the exact condition for two damped ranges -/
namespace Verif.InputGen
open Verif.Combos

/-- **C28, exact condition for two damped ranges.**  If there is a driven order, every driven order is combined with every
unordered pair of damped orders (one of each range) exactly once, and with no other pair, exactly if both ranges and their
differences are iterated in the order of their union; with the order of the hash table of CPython this fails
(`C28_two_ranges_wrong`). -/
theorem C28_two_ranges_exact (dlo dhi lo1 hi1 lo2 hi2 : Int) (hd : dlo ≤ dhi) (it : Iter Int)
    (hv : it.Valid (pyRange lo1 hi1) (pyRange lo2 hi2)) :
    (∀ d x y, x ≠ y → (gen dlo dhi lo1 hi1 (some lo2) (some hi2) it).combos.count [d, x, y] +
        (gen dlo dhi lo1 hi1 (some lo2) (some hi2) it).combos.count [d, y, x] =
      if (dlo ≤ d ∧ d ≤ dhi) ∧ (((lo1 ≤ x ∧ x ≤ hi1) ∧ (lo2 ≤ y ∧ y ≤ hi2)) ∨
        ((lo2 ≤ x ∧ x ≤ hi2) ∧ (lo1 ≤ y ∧ y ≤ hi1))) then 1 else 0) ↔
    (pyRange lo1 hi1).Sublist it.union ∧ (pyRange lo2 hi2).Sublist it.union ∧ it.aMinB.Sublist it.union ∧
      it.bMinA.Sublist it.union := by
  have hg : (gen dlo dhi lo1 hi1 (some lo2) (some hi2) it).combos =
      triples (pyRange dlo dhi) (symmetricProduct (pyRange lo1 hi1) (pyRange lo2 hi2) it true).l := rfl
  have hn := fun a b => (pyRange_sorted a b).imp (fun h => ne_of_lt h)
  have key := C22_exact (pyRange lo1 hi1) (pyRange lo2 hi2) (hn _ _) (hn _ _) it hv true
  simp only [mem_pyRange] at key
  rw [← key, hg]
  constructor
  · intro h x y hxy
    have := h dlo x y hxy
    rw [count_triples, count_triples, ← Nat.mul_add, count_range, if_pos ⟨le_refl _, hd⟩, one_mul] at this
    rw [this]
    simp only [le_refl, hd, and_self, true_and]
  · intro h d x y hxy
    rw [count_triples, count_triples, ← Nat.mul_add, h x y hxy, count_range]
    split_ifs <;> simp_all

end Verif.InputGen
