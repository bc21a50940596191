import Verif.Common
/-!
# Model of `cpp-ld-funcs/ld_funcs/ld_functions.cpp`

Memory is a heap of buffers addressed by a buffer number, so that the two pointers handed to the
class may or may not name the same buffer.  Scalars are uninterpreted (`1.5` is `3/2`, exact in IEEE).
-/
namespace Verif.Ld
variable {α : Type} [Add α] [Mul α] [Div α] [NatCast α]

/-- Memory: buffer number ↦ contents. -/
abbrev Heap (α : Type) := Nat → List α

/-- Replace the contents of buffer `b`. -/
def Heap.put (h : Heap α) (b : Nat) (c : List α) : Heap α := fun r => if r = b then c else h r

/-- The loop body of `eddington()` and `eddington_parallel()`, ld_functions.cpp:50 and 62:
`ld_funcs[k] = 1.0 + (1.5 * muvals[k])`. -/
def eddingtonBody (mus lds : Nat) (h : Heap α) (k : Nat) : Option (Heap α) := do
  let m ← rd (h mus) (k : Int)
  let b ← wr (h lds) (k : Int)
    (((1 : Nat) : α) + (((3 : Nat) : α) / ((2 : Nat) : α)) * m)
  pure (h.put lds b)

/-- `eddington()`, ld_functions.cpp:47-52. -/
def eddington (muvalsize mus lds : Nat) (h : Heap α) : Option (Heap α) :=
  (List.range muvalsize).foldlM (eddingtonBody mus lds) h

/-- `eddington_parallel()`, ld_functions.cpp:58-64: the iterations run in the order `order`, which
theorems let range over all permutations of the iteration space.  Simplification: an iteration is
one atomic step; iterations touch pairwise different elements, so finer interleavings add nothing. -/
def eddingtonParallel (order : List Nat) (mus lds : Nat) (h : Heap α) : Option (Heap α) :=
  order.foldlM (eddingtonBody mus lds) h

/-- `enum LDOptions { eddington }`, ld_functions.cpp:14-16. -/
def optEddington : Nat := 0

/-- Process-wide `my_string_mapper`, ld_functions.cpp:19-21. -/
abbrev Mapper := List (String × Nat)
/-- Initial map, ld_functions.cpp:19-21. -/
def mapper0 : Mapper := [("eddington", optEddington)]
/-- `my_string_mapper[selectionvar]`, ld_functions.cpp:36: inserts 0 when the key is absent. -/
def mapperIndex (m : Mapper) (s : String) : Nat × Mapper :=
  match m.lookup s with
  | some v => (v, m)
  | none => (0, (s, 0) :: m)
/-- The map after earlier constructor calls with the given selection strings. -/
def mapperAfter (history : List String) : Mapper :=
  history.foldl (fun m s => (mapperIndex m s).2) mapper0

/-- `if (paral) eddington_parallel(); else eddington();`, ld_functions.cpp:76-80 and 83-87. -/
def branch (paral : Bool) (order : List Nat) (n mus lds : Nat) (h : Heap α) : Option (Heap α) :=
  if paral then eddingtonParallel order mus lds h else eddington n mus lds h

/-- `compute()`, ld_functions.cpp:73-90.  There is no `break` after the first case, so control
falls through into `default` and the law is evaluated a second time.  `o1`, `o2` are the iteration
orders of the first and the second evaluation when parallel. -/
def compute (function_selection : Nat) (paral : Bool) (o1 o2 : List Nat) (n mus lds : Nat)
    (h : Heap α) : Option (Heap α) := do
  let h1 ← if function_selection = optEddington then branch paral o1 n mus lds h else pure h
  branch paral o2 n mus lds h1

/-- Python-level `compute(kap, res, myselvar, num_threads, paral)`, libcpp_ld_funcs.pyx:11-37, with
the constructor ld_functions.cpp:28-42: the size is the length of the first array (contiguous views
assumed; `num_threads` only limits which orders can occur). -/
def ldCompute (m : Mapper) (s : String) (paral : Bool) (o1 o2 : List Nat) (kap res : Nat)
    (h : Heap α) : Option (Heap α) :=
  compute (mapperIndex m s).1 paral o1 o2 (h kap).length kap res h

end Verif.Ld
