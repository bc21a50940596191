import Verif.Inlist.Model
/-!
# Model of the TOML inlist post-processing and of the option lookup

`util-tools/inlist_handler/toml_inlist_handler.py` and
`util-tools/generic_parser/generic_parser.py`.  A raised exception is `none`.  The TOML reader
itself (`tomllib.load`) is not modelled: documents are arbitrary nested tables.
-/
namespace Verif.Opts
open Verif.Inlist (Str contains)

/-- Values in a parsed document.  Numbers, dates and so on are opaque `num`s; `num 0` is the falsy
one. -/
inductive Val where
  | none
  | bool (b : Bool)
  | num (n : Int)
  | str (s : Str)
  | arr (l : List Val)
  | tbl (es : List (Str × Val))

/-- A table in insertion order. -/
abbrev Tbl := List (Str × Val)

/-- `ha_dict[key]` for a present key. -/
def find (k : Str) (t : Tbl) : Option Val := (t.find? (fun e => e.1 == k)).map (·.2)

mutual
/-- What `_adjust_for_none` stores for a value (toml_inlist_handler.py 43-48): an empty table becomes
`None`, any other table is adjusted recursively, all else (including arrays) is left. -/
def adjV : Val → Val
  | .tbl [] => .none
  | .tbl (e :: es) => .tbl (adjust (e :: es))
  | .none => .none
  | .bool b => .bool b
  | .num n => .num n
  | .str s => .str s
  | .arr l => .arr l
/-- `_adjust_for_none` (toml_inlist_handler.py 33-48). -/
def adjust : List (Str × Val) → List (Str × Val)
  | [] => []
  | (k, v) :: es => (k, adjV v) :: adjust es
end

/-- The values equal to the string `k` inside a list (`first_key in ha_dict` for a list). -/
def isStr (k : Str) : Val → Bool
  | .str s => s == k
  | _ => false

/-- `get_ha` with a list of keys (generic_parser.py 505-533).  With no keys `index_val[0]` raises
`IndexError` and `ha_dict[[]]` raises `TypeError`.  For a value that is not a table, `in` tests
substrings (strings), membership (lists) or raises (everything else), and subscripting with a string
raises. -/
def getHa : Val → List Str → Option Val
  | _, [] => Option.none
  | .tbl t, k :: r =>
    match find k t with
    | Option.none => some .none                                  -- 522-524
    | some v => if r = [] then some v else getHa v r              -- 525-530
  | .str s, k :: _ => if contains k s then Option.none else some .none
  | .arr l, k :: _ => if l.any (isStr k) then Option.none else some .none
  | _, _ :: _ => Option.none

/-- `get_ha` with a string instead of a list (generic_parser.py 505-533): the string is indexed
character by character; the empty string is used as a key itself. -/
def getHaStr (d : Val) (s : Str) : Option Val :=
  match s with
  | [] =>
    match d with
    | .tbl t => find [] t
    | _ => Option.none
  | _ => getHa d (s.map fun c => [c])

/-- Truth value of a Python value. -/
def truthy : Val → Bool
  | .none => false
  | .bool b => b
  | .num n => n != 0
  | .str s => !s.isEmpty
  | .arr l => !l.isEmpty
  | .tbl t => !t.isEmpty

/-- `not v if neg else v`. -/
def negIf (neg : Bool) (v : Val) : Val := if neg then .bool (!truthy v) else v

/-- `d[k] = v`. -/
def setKey (d : Tbl) (k : Str) (v : Val) : Tbl :=
  if d.any (fun e => e.1 == k) then d.map (fun e => if e.1 == k then (k, v) else e) else d ++ [(k, v)]

/-- Outcome of the first loop of `read_in_to_dict`: finished, `ValueError` (a tuple of the wrong
length; the entries stored so far are kept), or another exception. -/
inductive Loop where
  | done (d : Tbl)
  | valueError (d : Tbl)
  | raise

/-- An element of the argument of `read_in_to_dict`: key, path and, in 3-tuples, the negation flag. -/
structure Item where
  key : Str
  path : List Str
  neg : Option Bool

/-- The loop over 3-tuples (generic_parser.py 463-466). -/
def loop3 (doc : Val) : Tbl → List Item → Loop
  | d, [] => .done d
  | d, i :: is =>
    match i.neg with
    | Option.none => .valueError d
    | some ng =>
      match getHa doc i.path with
      | Option.none => .raise
      | some v => loop3 doc (setKey d i.key (negIf ng v)) is

/-- The loop over 2-tuples (generic_parser.py 467-471). -/
def loop2 (doc : Val) : Tbl → List Item → Option Tbl
  | d, [] => some d
  | d, i :: is =>
    match i.neg with
    | some _ => Option.none
    | Option.none => (getHa doc i.path).bind fun v => loop2 doc (setKey d i.key v) is

/-- `read_in_to_dict` (generic_parser.py 445-473). -/
def readDict (doc : Val) (items : List Item) : Option Tbl :=
  match loop3 doc [] items with
  | .done d => some d
  | .valueError d => loop2 doc d items
  | .raise => Option.none

/-- An element of the argument of `read_in_to_list`: a path, or a pair of a path and a flag. -/
inductive Arg where
  | path (p : List Str)
  | pair (p : List Str) (neg : Bool)

/-- First attempt of `read_in_to_list` on one element (generic_parser.py 493-498): a path of two
keys is unpacked as if it were a (name, flag) pair; the outer `none` is the `ValueError`, the inner
one another exception. -/
def listElem (doc : Val) : Arg → Option (Option Val)
  | .pair p ng => some ((getHa doc p).map (negIf ng))
  | .path [a, b] => some ((getHaStr doc a).map (negIf (!b.isEmpty)))
  | .path _ => Option.none

/-- The list comprehension of the first attempt: `none` for `ValueError`, `some none` for another
exception. -/
def listLoop (doc : Val) : List Arg → Option (Option (List Val))
  | [] => some (some [])
  | a :: as =>
    match listElem doc a with
    | Option.none => Option.none
    | some Option.none => some Option.none
    | some (some v) => (listLoop doc as).map (fun o => o.map (v :: ·))

/-- One element of the fallback (generic_parser.py 499-503): the element itself is the index.  A
(path, flag) tuple as index has a list as first key, which is not hashable: it raises. -/
def fallbackElem (doc : Val) : Arg → Option Val
  | .path p => getHa doc p
  | .pair _ _ => Option.none

/-- `read_in_to_list` (generic_parser.py 475-503). -/
def readList (doc : Val) (args : List Arg) : Option (List Val) :=
  match listLoop doc args with
  | some r => r
  | Option.none => args.mapM (fallbackElem doc)

/-! ## Finding the inlist -/

/-- `name.split('.')[0]` and `[-1]` (generic_parser.py 192-195). -/
def firstPart (n : Str) : Str := n.takeWhile (· ≠ '.')
def lastPart (n : Str) : Str := (n.reverse.takeWhile (· ≠ '.')).reverse

/-- The search for the base directory: the nearest parent whose name contains the given name
(generic_parser.py 202-215).  A path is its list of directory names from the root; the result is the
base directory and the directories below it. -/
def findBase (name : Str) : List Str → Option (List Str × List Str)
  | dirs =>
    match dirs.reverse.findIdx? (contains name) with
    | some i => some (dirs.take (dirs.length - i), dirs.drop (dirs.length - i))
    | Option.none => Option.none

/-- What the two initialisation modes store (generic_parser.py 101-283). -/
structure PathInfo where
  base : List Str
  dir : List Str
  name : Str
  suffix : Str

/-- `_initialization_mode_1` (generic_parser.py 162-250) for a `Path` with at least one component. -/
def mode1 (baseName : Str) (dirs : List Str) (file : Str) : Option PathInfo :=
  (findBase baseName dirs).map fun b => ⟨b.1, b.2, firstPart file, lastPart file⟩

/-- The default inlist path `{base}/{dir}/{name}.{suffix}` (generic_parser.py 368-371), as directories
and file name. -/
def PathInfo.path (i : PathInfo) : List Str × Str := (i.base ++ i.dir, i.name ++ '.' :: i.suffix)

/-- The three ways of reading the options. -/
inductive Format where
  | commandLine
  | toml
  | custom
deriving DecidableEq

/-- `_prepare_to_read_args` (generic_parser.py 412-443): the file that is read (the `--inlist_name`
argument, or the default path) and the format it is read in, which depends on the stored suffix. -/
def prepare (noInlist : Bool) (i : PathInfo) (cli : Option (List Str × Str)) : Format × (List Str × Str) :=
  (if noInlist then .commandLine else if i.suffix = "toml".toList then .toml else .custom,
   cli.getD i.path)

end Verif.Opts
