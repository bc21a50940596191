import Mathlib.Data.Rat.Defs
import Mathlib.Algebra.Order.Field.Rat
import Mathlib.Algebra.Field.Rat
/-!
# Model of the inlist handler

`util-tools/inlist_handler/inlist_handler.py`.  Strings are lists of characters, a raised
exception is `none`.  The Python standard library pieces used by the file (`shlex.shlex` in
non-POSIX mode, `re`, `ast.literal_eval`, `int`, `str.strip`) are modelled here from their
documented behaviour as far as the handler uses them.
-/
namespace Verif.Inlist

/-- A Python string. -/
abbrev Str := List Char

/-- The values an inlist can hold (inlist_handler.py 89-144).  Floats are exact rationals (no
rounding); everything `literal_eval` may return besides decimal numbers is an opaque `other`. -/
inductive PyVal where
  | str (s : Str)
  | bool (b : Bool)
  | none
  | int (z : Int)
  | float (q : ℚ)
  | other (n : Nat)
deriving DecidableEq, Repr

/-- `sub in s` for strings (inlist_handler.py 47-54). -/
def contains (sub : Str) : Str → Bool
  | [] => sub.isEmpty
  | c :: cs => sub.isPrefixOf (c :: cs) || contains sub cs

/-- `str.strip(q)` for a single character `q` (inlist_handler.py 109). -/
def strip (q : Char) (s : Str) : Str :=
  ((s.dropWhile (· == q)).reverse.dropWhile (· == q)).reverse

/-- Decimal digits. -/
def isDig (c : Char) : Bool := '0' ≤ c && c ≤ '9'

/-- Value of a digit. -/
def digVal (c : Char) : Nat := c.toNat - '0'.toNat

/-- Value of a digit string. -/
def digsVal (s : Str) : Nat := s.foldl (fun a c => 10 * a + digVal c) 0

/-- The non-decimal part of the Python evaluators, left open: what `ast.literal_eval` and `int`
return on strings that are not plain decimal literals (lists, tuples, underscores, hex, …). -/
structure Ext where
  lit : Str → Option PyVal
  int : Str → Option PyVal

/-- Power of ten with integer exponent. -/
def pow10 (e : Int) : ℚ := if 0 ≤ e then 10 ^ e.toNat else 1 / 10 ^ (-e).toNat

/-- The exponent part of a Python float literal, `[eE][+-]?digits`, at the end of the literal. -/
def parseExp : Str → Option Int
  | c :: r =>
    if c = 'e' ∨ c = 'E' then
      match r with
      | '-' :: ds => if ds ≠ [] ∧ ds.all isDig then some (-(digsVal ds : Int)) else none
      | '+' :: ds => if ds ≠ [] ∧ ds.all isDig then some (digsVal ds : Int) else none
      | ds => if ds ≠ [] ∧ ds.all isDig then some (digsVal ds : Int) else none
    else none
  | [] => none

/-- An unsigned decimal Python literal: `digits`, `digits.digits`, optionally with exponent. A
pure integer must not have a leading zero unless it is zero. -/
def parseUnsigned (s : Str) : Option PyVal :=
  let ip := s.takeWhile isDig
  match s.dropWhile isDig with
  | [] =>
    if ip = [] then Option.none
    else if ip.head? = some '0' ∧ ip.any (· ≠ '0') then Option.none
    else some (.int (digsVal ip))
  | '.' :: r =>
    let fp := r.takeWhile isDig
    if ip = [] ∧ fp = [] then Option.none
    else
      match r.dropWhile isDig with
      | [] => some (.float ((digsVal (ip ++ fp) : ℚ) * pow10 (-(fp.length : Int))))
      | r2 => (parseExp r2).map fun e => .float ((digsVal (ip ++ fp) : ℚ) * pow10 (e - fp.length))
  | r =>
    if ip = [] then Option.none
    else (parseExp r).map fun e => .float ((digsVal ip : ℚ) * pow10 e)

/-- Negate a number. -/
def neg : PyVal → PyVal
  | .int z => .int (-z)
  | .float q => .float (-q)
  | v => v

/-- A decimal literal with at most one leading minus sign. -/
def parseSigned (s : Str) : Option PyVal :=
  match s with
  | '-' :: r => (parseUnsigned r).map neg
  | _ => parseUnsigned s

/-- `ast.literal_eval` on decimal literals with at most one leading minus sign; other strings go to
the open part (inlist_handler.py 105, 129, 133, 139). -/
def literalEval (E : Ext) (s : Str) : Option PyVal :=
  match parseSigned s with
  | some v => some v
  | Option.none => E.lit s

/-- `int(s)` on plain digit strings with an optional minus sign (leading zeros allowed); other
strings go to the open part (inlist_handler.py 143). -/
def pyInt (E : Ext) (s : Str) : Option PyVal :=
  match s with
  | '-' :: r => if r ≠ [] ∧ r.all isDig then some (.int (-(digsVal r : Int))) else E.int s
  | _ => if s ≠ [] ∧ s.all isDig then some (.int (digsVal s)) else E.int s

/-- `compiled_float_regex.match`: does a prefix of `s` match `\d+[eE]-*\d+`
(inlist_handler.py 86, 136-137).  The first digit run is maximal (a shorter one is followed by a
digit, not by `e`), the run of minus signs likewise. -/
def floatRegex (s : Str) : Bool :=
  !(s.takeWhile isDig).isEmpty &&
  match s.dropWhile isDig with
  | c :: r =>
    (c == 'e' || c == 'E') &&
    (match r.dropWhile (· == '-') with
     | d :: _ => isDig d
     | [] => false)
  | [] => false

/-- `_typer` (inlist_handler.py 88-144) with the checks of lines 58-82 in order. -/
def typer (E : Ext) (s : Str) : Option PyVal :=
  if contains ['\''] s || contains ['"'] s then                                   -- 102
    if contains ['['] s && contains [']'] s then literalEval E s                    -- 103-105
    else some (.str (strip '\'' (strip '"' s)))                                   -- 106-112
  else if contains "False".toList s || contains "FALSE".toList s
      || contains "True".toList s || contains "TRUE".toList s then                 -- 114
    if contains "False".toList s || contains "FALSE".toList s then some (.bool false)
    else some (.bool true)                                                         -- 116-119
  else if contains "None".toList s then some .none                                 -- 121-123
  else if contains ['['] s && contains [']'] s then literalEval E s                 -- 125-127
  else if contains ['('] s && contains [')'] s then literalEval E s                 -- 129-131
  else if contains ['.'] s || floatRegex s then literalEval E s                     -- 133-138
  else pyInt E s                                                                   -- 140-142

/-- Characters of words: the `shlex` default `wordchars` (ASCII letters, digits, underscore) plus
the ones added at inlist_handler.py 171-183. -/
def isWord (c : Char) : Bool :=
  ('a' ≤ c && c ≤ 'z') || ('A' ≤ c && c ≤ 'Z') || isDig c || c == '_' ||
  c == '.' || c == '-' || c == '[' || c == ']' || c == ',' || c == '(' || c == ')'

/-- `shlex` whitespace. -/
def isWs (c : Char) : Bool := c == ' ' || c == '\t' || c == '\r' || c == '\n'

/-- Quote characters (inlist_handler.py 185). -/
def isQuote (c : Char) : Bool := c == '\'' || c == '"'

/-- States of the non-POSIX `shlex` tokenizer. -/
inductive LState where
  | idle
  | word (acc : Str)
  | quote (q : Char) (acc : Str)

/-- The token stream of the non-POSIX `shlex` tokenizer with comment character `%`
(inlist_handler.py 165-190); the flag says that the rest of a comment line is being skipped.
A comment does not end the word it follows.  An unclosed quote raises.  Simplified: tokenization
is eager, so an unclosed quote raises before, not after, the preceding entries are typed; both
raise `ValueError`. -/
def lexGo : LState → Bool → Str → Option (List Str)
  | .idle, _, [] => some []
  | .word acc, _, [] => some [acc]
  | .quote _ _, _, [] => none
  | st, true, c :: cs => if c = '\n' then lexGo st false cs else lexGo st true cs
  | .idle, false, c :: cs =>
    if isWs c then lexGo .idle false cs
    else if c = '%' then lexGo .idle true cs
    else if isWord c then lexGo (.word [c]) false cs
    else if isQuote c then lexGo (.quote c [c]) false cs
    else (lexGo .idle false cs).map ([c] :: ·)
  | .word acc, false, c :: cs =>
    if isWs c then (lexGo .idle false cs).map (acc :: ·)
    else if c = '%' then lexGo (.word acc) true cs
    else if isWord c || isQuote c then lexGo (.word (acc ++ [c])) false cs
    else (lexGo .idle false cs).map (acc :: [c] :: ·)
  | .quote q acc, false, c :: cs =>
    if c = q then (lexGo .idle false cs).map ((acc ++ [c]) :: ·)
    else lexGo (.quote q (acc ++ [c])) false cs

/-- `'\n'.join(_inlist.readlines())` (inlist_handler.py 167): every line break that is followed by
more text is doubled. -/
def joinLines : Str → Str
  | [] => []
  | c :: cs => if c = '\n' ∧ cs ≠ [] then '\n' :: '\n' :: joinLines cs else c :: joinLines cs

/-- A Python dictionary with string keys, in insertion order. -/
abbrev Dict := List (Str × PyVal)

/-- Dictionary lookup. -/
def Dict.get (d : Dict) (k : Str) : Option PyVal := (d.find? (·.1 == k)).map (·.2)

/-- `d[k] = v` (inlist_handler.py 197). -/
def Dict.set (d : Dict) (k : Str) (v : PyVal) : Dict :=
  if d.any (·.1 == k) then d.map (fun e => if e.1 == k then (k, v) else e) else d ++ [(k, v)]

/-- The loop of `_parse_inlist` over the tokens: keyword, one token dropped, value
(inlist_handler.py 190-197).  At the end of the input `get_token` returns the empty string. -/
def parseToks (E : Ext) : Dict → List Str → Option Dict
  | d, [] => some d
  | d, k :: _ :: v :: r => (typer E v).bind fun x => parseToks E (d.set k x) r
  | d, [k, _] => (typer E []).bind fun x => some (d.set k x)
  | d, [k] => (typer E []).bind fun x => some (d.set k x)

/-- `_parse_inlist` (inlist_handler.py 146-203) on the contents of a file. -/
def parseInlist (E : Ext) (content : Str) (d : Dict) : Option Dict :=
  (lexGo .idle false (joinLines content)).bind (parseToks E d)

/-- One greedy `.*` followed by the literal character `c`: the longest newline-free prefix first
(backtracking regular-expression semantics). -/
def greedyTo {β : Type} (c : Char) (k : Str → Str → Option β) : Str → Str → Option β
  | _, [] => none
  | acc, x :: xs =>
    match (if x = '\n' then none else greedyTo c k (acc ++ [x]) xs) with
    | some b => some b
    | none => if x = c then k acc xs else none

/-- `compiled_regex_defaults.match(path)` with `(.*)\/.*\/(.*)\..*`: groups 1 and 2
(inlist_handler.py 84, 224). -/
def regexDefaults (path : Str) : Option (Str × Str) :=
  greedyTo '/' (fun g1 r => greedyTo '/' (fun _ r2 => greedyTo '.' (fun g2 _ => some (g1, g2)) [] r2)
    [] r) [] path

/-- The path of the defaults inlist; `none` is the `NameError` (inlist_handler.py 224-233). -/
def defaultsPath (path : Str) : Option Str :=
  (regexDefaults path).map fun g => g.1 ++ "/defaults/".toList ++ g.2 ++ ".defaults".toList

/-- `get_inlist_values` (inlist_handler.py 235-261): parse the defaults file, then the user's file
into the same dictionary.  `fs` is the file system; a missing file raises. -/
def getInlistValues (E : Ext) (fs : Str → Option Str) (path : Str) : Option Dict := do
  let dp ← defaultsPath path
  let dc ← fs dp
  let d ← parseInlist E dc []
  let uc ← fs path
  parseInlist E uc d

end Verif.Inlist
