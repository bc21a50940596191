import Mathlib.Algebra.Order.Ring.Rat
import Mathlib.Algebra.Order.Ring.Abs
/-!
# Model of `pytest-util-tools/pytest_util_functions/comparison.py` (CO) and `assertion_checker.py` (AS)

The comparisons every test of the repository relies on.  Simplifications: numbers are finite and exact (no NaN, infinities or
overflow); arrays have one dimension; the elements of lists and tuples are atoms (no nested containers); a comparison of an array
with something that is no array is not modelled (`none`).
-/
namespace Verif.Cmp

/-- `type(x)` of a real number. -/
inductive NumTy where
  | int | float | bool
deriving DecidableEq

/-- A Python function: the object and its `__code__.co_code` (bytes; constants and names are not part of it). -/
structure Fn where
  ident : ℕ
  code : List ℕ
deriving DecidableEq

/-- Values that are no containers, and strings. -/
inductive Atom where
  | num (ty : NumTy) (x : ℚ)
  | none
  | cplx (re im : ℚ)
  | fn (f : Fn)
  | str (s : List Char)
deriving DecidableEq

inductive SeqTy where
  | list | tuple
deriving DecidableEq

/-- A value of a dictionary. -/
inductive Val where
  | atom (a : Atom)
  | seq (k : SeqTy) (l : List Atom)
  | arr (dtype : String) (data : List ℚ)

/-- `math.isclose(a, b)` with the default tolerances (`rel_tol=1e-9`, `abs_tol=0.0`). -/
def isclose (a b : ℚ) : Bool :=
  decide (|a - b| ≤ 1 / 1000000000 * |b|) || decide (|a - b| ≤ 1 / 1000000000 * |a|) || decide (|a - b| ≤ 0)

/-- `np.allclose(a, b)` with the default tolerances on arrays of one dimension, which are broadcast; arrays that cannot be broadcast
raise, which CO:68-70 turns into `False`. -/
def allclose (a b : List ℚ) : Bool :=
  let close (x y : ℚ) : Bool := decide (|x - y| ≤ 1 / 100000000 + 1 / 100000 * |y|)
  match a, b with
  | [x], b => b.all fun y => close x y
  | a, [y] => a.all fun x => close x y
  | a, b => if a.length = b.length then (a.zip b).all fun p => close p.1 p.2 else false

/-- `a == b` for atoms: numbers by value, functions by identity. -/
def pyEq (a b : Atom) : Bool := match a, b with
  | .num _ x, .num _ y => decide (x = y)
  | .num _ x, .cplx re im => decide (x = re ∧ im = 0)
  | .cplx re im, .num _ x => decide (x = re ∧ im = 0)
  | .cplx re im, .cplx re' im' => decide (re = re' ∧ im = im')
  | .none, .none => true
  | .fn f, .fn g => decide (f.ident = g.ident)
  | .str s, .str t => decide (s = t)
  | _, _ => false

/-- `first == second` (CO:58) for strings, lists and tuples. -/
def valEq (a b : Val) : Bool := match a, b with
  | .atom a, .atom b => pyEq a b
  | .seq k l, .seq k' l' => decide (k = k') && decide (l.length = l'.length) && (l.zip l').all fun p => pyEq p.1 p.2
  | _, _ => false

/-- What `len` and iteration give; `none` if `len` raises `TypeError`. -/
def elems (v : Val) : Option (List Atom) := match v with
  | .atom (.str s) => some (s.map fun c => .str [c])
  | .seq _ l => some l
  | _ => none

/-- The loop CO:50-54: the product of the comparisons, and whether an element without `__code__` ended it. -/
def codeLoop : List Atom → List Atom → Bool × Bool
  | .fn f :: l, .fn g :: l' => let r := codeLoop l l'; (decide (f.code = g.code) && r.1, r.2)
  | _ :: _, _ :: _ => (true, true)
  | _, _ => (true, false)

/-- `value_comparison` (CO:13-72). -/
def valueComparison (a b : Val) : Option Bool := match a, b with
  | .arr d x, .arr d' y => some (decide (d = d') && allclose x y)
  | .arr _ _, _ => none
  | _, .arr _ _ => none
  | .atom (.num t x), .atom (.num t' y) => some (isclose x y && decide (t = t'))
  | .atom (.fn f), .atom (.fn g) => some (decide (f.code = g.code))
  | a, b => match elems a, elems b with
    | some l, some l' =>
      let r := codeLoop l l'
      some (decide (l.length = l'.length) && r.1 && (if r.2 then valEq a b else true))
    | _, _ => some false

/-- A dictionary with string keys, in insertion order. -/
abbrev Dict := List (String × Val)

/-- `compare_elements` for dictionaries (CO:92-99): a missing key raises `KeyError`, which gives `False` (CO:107-109). -/
def compareElements (first second : Dict) : Option Bool := match first with
  | [] => some true
  | (k, v) :: rest => match second.lookup k with
    | none => some false
    | some w => match valueComparison v w, compareElements rest second with
      | some b, some r => some (b && r)
      | _, _ => none

/-- `compare_elements` for lists (CO:100-106). -/
def compareLists (first second : List Val) : Option Bool :=
  ((first.zip second).mapM fun p => valueComparison p.1 p.2).map fun bs => decide (first.length = second.length) && bs.all id

/-- `compare_dicts` (CO:114-140). -/
def compareDicts (first second : Dict) (lenEnforced : Bool) : Option Bool :=
  if lenEnforced && decide (first.length ≠ second.length) then some false else compareElements first second

/-! ### `check_assertions` -/

/-- A value as `check_assertions` sees it: its types (`isinstance`), its length (if `len` works) and its elements. -/
structure Obj where
  types : List String
  len : Option ℕ

/-- `isinstance` with an optional type, only if one is given (AS:35-36, 43-44). -/
def typeOk (o : Obj) (ty : Option String) : Bool := match ty with
  | none => true
  | some t => o.types.contains t

/-- The length is compared if it is given and truthy (AS:38-39, 45-46); `len` of something without length raises. -/
def lenOk (o : Obj) (n : Option ℕ) : Bool := match n with
  | none => true
  | some 0 => true
  | some (n + 1) => o.len == some (n + 1)

/-- `check_assertions` (AS:10-46) on a value that can be iterated: whether it returns without raising. -/
def checkAssertions (o : Obj) (els : List Obj) (topType : Option String) (topLen : Option ℕ) (elType : Option String)
    (elLen : Option ℕ) : Bool :=
  typeOk o topType && lenOk o topLen &&
    (if elType.isSome || elLen.isSome then els.all fun e => typeOk e elType && lenOk e elLen else true)

end Verif.Cmp
