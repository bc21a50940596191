import Verif.Store.Names
/-!
# Model of the selection and loading of model files, and of the names of the TAR tables

`SubSelectorFiles`, `MESAProfileSubSelector`, `GYREDetailSubSelector`, `PolytropeModelSubSelector`,
`PolytropeOscillationModelSubSelector` (model_handling/subselection_classes.py), `ModelReader.data_file_reader`
(model_handling/read_models.py 236-287), `ModelLoader.read_data_files` (model_handling/load_models.py 495-727: the
selection, not the unit conversion), `GyreLambdas` (gyre-tools/lam_tar_gyre/lam_tar_gyre.py).
-/
namespace Verif.Select
open Verif.Inlist (Str)
open Verif.Store (dec)

/-- The characters matched by `\d`, with the digit that `int` reads for each: the ASCII digits; the other characters are left
open. -/
structure Digits where
  val : Char → Option ℕ
  ascii : ∀ c : Char, c.toNat < 128 → val c = if c.isDigit then some (c.toNat - 48) else none

/-- A character matched by `\d`. -/
def Digits.is (d : Digits) (c : Char) : Bool := (d.val c).isSome
/-- `int` of a string of digits. Python refuses more than 4300 digits; file names are shorter. -/
def Digits.int (d : Digits) (s : Str) : ℕ := s.foldl (fun a c => 10 * a + (d.val c).getD 0) 0

/-- A greedy `.*` at the start, followed by what `k` matches: the longest newline-free prefix is tried first. -/
def greedyStar {β : Type} (k : Str → Option β) : Str → Option β
  | [] => k []
  | x :: xs => match (if x = '\n' then none else greedyStar k xs) with
    | some b => some b
    | none => k (x :: xs)

/-- A greedy `.+` at the start. -/
def greedyPlus {β : Type} (k : Str → Option β) : Str → Option β
  | [] => none
  | x :: xs => if x = '\n' then none else greedyStar k xs

/-- `(\d+)` and `.*`: the digits, as many as there are. -/
def digitsAt (d : Digits) (s : Str) : Option ℕ := if s.takeWhile d.is = [] then none else some (d.int (s.takeWhile d.is))

/-- `l(\d+).*` (subselection_classes.py 231, 474). -/
def lAt (d : Digits) (s : Str) : Option ℤ := match s with
  | 'l' :: r => (digitsAt d r).map Nat.cast
  | _ => none
/-- `m([\+|-])(\d+).*` (subselection_classes.py 232, 475) and the number with its sign (395-405): the class of characters contains
plus, bar and minus. -/
def mAt (d : Digits) (s : Str) : Option ℤ := match s with
  | 'm' :: c :: r => if c = '+' then (digitsAt d r).map Nat.cast else if c = '|' ∨ c = '-' then (digitsAt d r).map (fun n : ℕ => (-1) * (n : ℤ)) else none
  | _ => none
/-- `n\+(\d+).*` (subselection_classes.py 233, 476). -/
def nAt (d : Digits) (s : Str) : Option ℤ := match s with
  | 'n' :: '+' :: r => (digitsAt d r).map Nat.cast
  | _ => none
/-- `(g_mode).*` or `(p_mode).*` (subselection_classes.py 234-236, 477-479). -/
def modeAt (g : Bool) (s : Str) : Option Unit :=
  if (if g then ['g', '_', 'm', 'o', 'd', 'e'] else ['p', '_', 'm', 'o', 'd', 'e']) <+: s then some () else none

/-- What is given as additional substring. -/
inductive Extra where
  | none
  | str (s : Str)
  | list (l : List Str)
  | tuple (l : List Str)

/-- The numbers that are searched for, by mode (subselection_classes.py 219-229). -/
structure Request where
  l : List ℤ
  m : List ℤ
  n : List ℤ

/-- The test of one key: false without a match, otherwise comparison with the element of the list; `none` is the IndexError
(subselection_classes.py 393-423). -/
def check (v : Option ℤ) (want : List ℤ) (i : ℕ) : Option Bool := match v with
  | none => some false
  | some v => match want[i]? with
    | none => none
    | some w => some (v == w)

/-- The loop over 'l', 'm', 'n' and 'mode' (subselection_classes.py 310-318): the first test that fails ends it. -/
def checks (d : Digits) (R : Request) (name : Str) (i : ℕ) (g : Bool) : Option Bool := do
  if ← check (greedyStar (lAt d) name) R.l i then
    if ← check (greedyStar (mAt d) name) R.m i then
      if ← check (greedyStar (nAt d) name) R.n i then
        pure (greedyStar (modeAt g) name).isSome
      else pure false
    else pure false
  else pure false

/-- `subselect` of the mode files (subselection_classes.py 241-364, 484-599); `i` is the mode number minus 1. -/
def modeSelect (d : Digits) (R : Request) (name : Str) (extra : Extra) (i : ℕ) (g : Bool) : Option Bool := match extra with
  | .none => checks d R name i g
  | .str s => if s <:+: name then checks d R name i g else some false
  | .list l => match l[i]? with
    | none => none
    | some s => if s <:+: name then checks d R name i g else some false
  | .tuple l => if ∀ s ∈ l, s <:+: name then checks d R name i g else some false

/-! ## Structure files -/

/-- `\.(suffix)` with `match`, for a suffix without special characters: the rest of the name is not looked at. -/
def suffixAt (suf : Str) (s : Str) : Option Unit := if '.' :: suf <+: s then some () else none
/-- `(gyre|GYRE).*`. -/
def gyreAt (s : Str) : Option Unit :=
  if ['g', 'y', 'r', 'e'] <+: s ∨ ['G', 'Y', 'R', 'E'] <+: s then some () else none

/-- The additional substrings of the superclass; `none` for a plain string: no method is registered for
it, so that NotImplementedError is raised (subselection_classes.py 67-130). -/
def extraOk (name : Str) : Extra → Option Bool
  | .none => some true
  | .str _ => none
  | .list l => some (decide (∀ s ∈ l, s <:+: name))
  | .tuple l => some (decide (∀ s ∈ l, s <:+: name))

/-- `MESAProfileSubSelector(...).subselect` (subselection_classes.py 45-64, 133-168, 182-193): the group of a match of the
suffix is the suffix; a match of `not_gyre` gives false. -/
def mesaSelect (suf name : Str) (extra : Extra) : Option Bool := (extraOk name extra).map fun b =>
  b && (greedyPlus (suffixAt suf) name).isSome && (greedyPlus gyreAt name).isNone

/-- `PolytropeModelSubSelector(...).subselect` (subselection_classes.py 427-444). -/
def polySelect (suf name : Str) (extra : Extra) : Option Bool := (extraOk name extra).map fun b =>
  b && (greedyPlus (suffixAt suf) name).isSome

/-! ## Loading -/

/-- An entry of a directory. -/
structure Entry (D : Type) where
  name : Str
  isFile : Bool
  data : D

/-- `str.rsplit('.', 1)[1]` (read_models.py 91-93); `none` is the IndexError. -/
def fileSuffix (name : Str) : Option Str :=
  if '.' ∈ name then some (name.reverse.takeWhile (· ≠ '.')).reverse else none

/-- A suffix for which there is a reader (enumeration_read.py 37-40, 62-68), letters in any case; `upper` is `str.upper`. -/
def readable (upper : Str → Str) (suf : Str) : Bool :=
  upper suf ∈ [['H', '5'], ['H', 'D', 'F', '5'], ['T', 'X', 'T'], ['D', 'A', 'T']]

/-- `data_file_reader` (read_models.py 268-287); `none` when an exception is raised or the program exits. Reading
the contents of a file is not modelled: the result is the data of the entry. -/
def readDir {D : Type} (upper : Str → Str) (sel : Str → Option Bool) : List (Entry D) → Option (List D)
  | [] => some []
  | e :: es =>
    if e.isFile then
      match sel e.name with
      | none => none
      | some false => readDir upper sel es
      | some true => match fileSuffix e.name with
        | none => none
        | some s => if readable upper s then (readDir upper sel es).map (e.data :: ·) else none
    else readDir upper sel es

/-- The list over the modes from mode `i` on: a mode is kept only if exactly one file is selected for it
(load_models.py 540-574, 672-706). -/
def readModes {D : Type} (readOne : ℕ → Option (List D)) : ℕ → ℕ → Option (List D)
  | _, 0 => some []
  | i, n + 1 => match readOne i with
    | none => none
    | some [x] => (readModes readOne (i + 1) n).map (x :: ·)
    | some _ => readModes readOne (i + 1) n

/-- The files for mode `i` (load_models.py 544-553); `none` also when there is no element of the list of mode types. -/
def readOneMode {D : Type} (d : Digits) (upper : Str → Str) (R : Request) (extra : Extra) (gModes : List Bool) (dir : List (Entry D)) (i : ℕ) :
    Option (List D) :=
  (gModes[i]?).bind fun g => readDir upper (fun name => modeSelect d R name extra i g) dir

/-- Loading the files of all modes (load_models.py 535-580, 667-712); `none` also when the program exits because
files are missing. The number of modes is the length of the list of degrees (line 228). -/
def loadModes {D : Type} (d : Digits) (upper : Str → Str) (R : Request) (extra : Extra) (gModes : List Bool) (dir : List (Entry D)) :
    Option (List D) :=
  match readModes (readOneMode d upper R extra gModes dir) 0 R.l.length with
  | none => none
  | some ds => if ds.length = R.l.length then some ds else none

/-- Loading the MESA profile (load_models.py 599-618): exactly one file. -/
def loadMesa {D : Type} (upper : Str → Str) (suf : Str) (extra : Extra) (dir : List (Entry D)) : Option D :=
  match readDir upper (fun name => mesaSelect suf name extra) dir with
  | some [x] => some x
  | _ => none

/-! ## TAR tables -/

/-- `_sgnval` (lam_tar_gyre.py 96-109). -/
def sgnval (n : ℤ) : Str := if 0 ≤ n then '+' :: dec n else '-' :: dec n
/-- `get_k` (lam_tar_gyre.py 112-131). -/
def getK (l m : ℤ) : ℤ := l - |m|
/-- The path in `_retrieve_name_gyre_file` (lam_tar_gyre.py 148-154). -/
def tarPath (base : Str) (l m : ℤ) : Str :=
  base ++ "/data/tar/tar_fit.m".toList ++ sgnval m ++ ".k".toList ++ sgnval (getK l m) ++ ".h5".toList

/-- `_retrieve_name_gyre_file`: the path if there is such a file, otherwise the program exits (lam_tar_gyre.py 156-160). -/
def retrieveTar (isFile : Str → Bool) (base : Str) (l m : ℤ) : Option Str :=
  if isFile (tarPath base l m) then some (tarPath base l m) else none

/-- `get_lambda` for lists (lam_tar_gyre.py 190-214); `table` is the interpolation of a table, which is not modelled. The
lists are zipped. -/
def getLambdas {α β : Type} (isFile : Str → Bool) (table : Str → α → β) (base : Str) (l m : List ℤ) (ν : List α) : Option (List β) :=
  (l.zip (m.zip ν)).mapM fun p => (retrieveTar isFile base p.1 p.2.1).map fun f => table f p.2.2

end Verif.Select
