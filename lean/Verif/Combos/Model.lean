import Mathlib.Data.Finset.Basic
import Mathlib.Data.Finset.Union
import Mathlib.Data.Finset.Dedup
import Mathlib.Data.Nat.Choose.Basic
import Mathlib.Data.Finset.Card
import Mathlib.Data.Int.Basic
import Mathlib.Data.Nat.Cast.Basic
/-!
# Model of `py-combinations/py_combinations`

A Python list is a `List`; a Python set is a `Finset`, and the order in which a set is iterated is an
arbitrary duplicate-free enumeration supplied as a parameter (`Iter`).
-/
namespace Verif.Combos
variable {α : Type}

/-- `itertools.combinations(l, 2)`: the pairs `(l[i], l[j])`, `i < j`, in lexicographic index order. -/
def comb2 : List α → List (α × α)
  | [] => []
  | x :: xs => xs.map (fun y => (x, y)) ++ comb2 xs

/-- `itertools.product(a, b)`. -/
def product (a b : List α) : List (α × α) := a.flatMap (fun x => b.map (fun y => (x, y)))

/-- What the classes expose: property `l` (generic_combination_class.py:28-37) and property `c` (17-26). -/
structure Combo (α : Type) where
  l : List (α × α)
  c : Int

/-- `SingleSetCombos(my_set)`, single_set_combinations.py:25-41 (`my_set` in iteration order). -/
def singleSet (s : List α) : Combo α := { l := comb2 s, c := (Nat.choose s.length 2 : Nat) }

/-- `CartesianCombos(set_A, set_B)`, cartesian_combinations.py:27-44. -/
def cartesian (a b : List α) : Combo α := { l := product a b, c := (a.length * b.length : Nat) }

/-- Iteration orders of the sets that `SymmetricProductCombos` iterates over. -/
structure Iter (α : Type) where
  union : List α
  aMinB : List α
  bMinA : List α
  inter : List α

/-- The orders enumerate `A | B`, `A - B`, `B - A` and `A & B` without repetition. -/
def Iter.Valid (it : Iter α) (A B : List α) : Prop :=
  (it.union.Nodup ∧ ∀ x, x ∈ it.union ↔ x ∈ A ∨ x ∈ B) ∧
  (it.aMinB.Nodup ∧ ∀ x, x ∈ it.aMinB ↔ x ∈ A ∧ x ∉ B) ∧
  (it.bMinA.Nodup ∧ ∀ x, x ∈ it.bMinA ↔ x ∈ B ∧ x ∉ A) ∧
  (it.inter.Nodup ∧ ∀ x, x ∈ it.inter ↔ x ∈ A ∧ x ∈ B)

variable [DecidableEq α]

/-- The set assembled by `_compute_combinations`, symmetric_product.py:51-52 and 62-75. -/
def symSet (A B : List α) (it : Iter α) : Finset (α × α) :=
  let A_combs := (comb2 A).toFinset
  let B_combs := (comb2 B).toFinset
  let A_union_B_combs := (comb2 it.union).toFinset
  let A_min_B := (comb2 it.aMinB).toFinset
  let B_min_A := (comb2 it.bMinA).toFinset
  let first_term := A_union_B_combs \ (A_combs ∪ B_combs)
  let second_term := A_combs \ A_min_B
  let third_term := B_combs \ B_min_A
  (first_term ∪ second_term) ∪ third_term

/-- `_compute_cardinality`, symmetric_product.py:77-89 (`A`, `B` as sets).  `math.comb` is
`Nat.choose`; its arguments are nonnegative because the intersection is inside both sets. -/
def symCard (A B : List α) : Int :=
  let d := (A.toFinset ∩ B.toFinset).card
  let cA := A.toFinset.card
  let cB := B.toFinset.card
  (Nat.choose (cA + cB - d) 2 : Nat) - (Nat.choose (cA - d) 2 : Nat) - (Nat.choose (cB - d) 2 : Nat)

/-- `SymmetricProductCombos(A, B, include_diagonal)`, symmetric_product.py:39-100.  `list(set)` is some
enumeration of the set. -/
noncomputable def symmetricProduct (A B : List α) (it : Iter α) (include_diagonal : Bool) : Combo α :=
  { l := (symSet A B it).toList ++
      (if include_diagonal then it.inter.map (fun x => (x, x)) else [])
    c := symCard A B + (if include_diagonal then ((A.toFinset ∩ B.toFinset).card : Int) else 0) }

end Verif.Combos
