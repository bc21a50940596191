import Verif.Inlist.Model
/-!
# What an inlist is, independently of the tokenizer

An inlist is a sequence of lines: blank lines, comment lines and assignments
`key = value`, each possibly followed by a `%` comment.
-/
namespace Verif.Inlist

/-- Blank space inside a line. -/
def Blank (s : Str) : Prop := ∀ c ∈ s, c = ' ' ∨ c = '\t'

/-- Text inside a line. -/
def OneLine (s : Str) : Prop := '\n' ∉ s

/-- A value as written: an unquoted word (which may contain quotes after its first character, as in
`['a','b']`), or a quoted string. -/
def IsValue (t : Str) : Prop :=
  (∃ c r, t = c :: r ∧ isWord c = true ∧ ∀ x ∈ r, isWord x = true ∨ isQuote x = true) ∨
  (∃ q body, isQuote q = true ∧ q ∉ body ∧ OneLine body ∧ t = q :: (body ++ [q]))

/-- A line of an inlist. -/
inductive Line where
  | blank (ws : Str)
  | comment (ws text : Str)
  | assign (pre key s1 s2 value post : Str) (cmt : Option Str)

/-- Well-formed lines. -/
def Line.Wf : Line → Prop
  | .blank ws => Blank ws
  | .comment ws t => Blank ws ∧ OneLine t
  | .assign pre key s1 s2 value post cmt =>
    Blank pre ∧ Blank s1 ∧ Blank s2 ∧ Blank post ∧ key ≠ [] ∧ (∀ c ∈ key, isWord c = true) ∧
    IsValue value ∧ (∀ t, cmt = some t → OneLine t)

/-- An optional comment. -/
def cmtText : Option Str → Str
  | none => []
  | some t => '%' :: t

/-- The text of a line, with its line break. -/
def Line.render : Line → Str
  | .blank ws => ws ++ ['\n']
  | .comment ws t => ws ++ '%' :: (t ++ ['\n'])
  | .assign pre key s1 s2 value post cmt =>
    pre ++ (key ++ (s1 ++ '=' :: (s2 ++ (value ++ (post ++
      (cmtText cmt ++ ['\n']))))))

/-- The text of an inlist. -/
def render (ls : List Line) : Str := (ls.map Line.render).flatten

/-- The assignment made by a line, if any. -/
def Line.entry : Line → Option (Str × Str)
  | .assign _ key _ _ value _ _ => some (key, value)
  | _ => none

/-- The assignments of an inlist in order. -/
def entries (ls : List Line) : List (Str × Str) := ls.filterMap Line.entry

/-- The value written in the last assignment to `k`. -/
def lastAssign (k : Str) (es : List (Str × Str)) : Option Str :=
  (es.reverse.find? (fun e => e.1 == k)).map (·.2)

/-- A decimal number as a mathematical object: sign, integer digits, optional fractional digits,
optional exponent (negative?, digits). -/
structure Lit where
  neg : Bool
  ip : Str
  frac : Option Str
  exp : Option (Bool × Str)

/-- Some digits before or after the point, all digits are digits, exponents are not empty. -/
def Lit.Wf (l : Lit) : Prop :=
  (∀ c ∈ l.ip, isDig c = true) ∧ (∀ f, l.frac = some f → ∀ c ∈ f, isDig c = true) ∧
  (∀ b e, l.exp = some (b, e) → e ≠ [] ∧ ∀ c ∈ e, isDig c = true) ∧
  (l.ip ≠ [] ∨ ∃ f, l.frac = some f ∧ f ≠ [])

/-- The text of the number; `E` is the exponent letter. -/
def Lit.render (l : Lit) (ex : Char) : Str :=
  (if l.neg then ['-'] else []) ++ (l.ip ++
    ((match l.frac with | none => [] | some f => '.' :: f) ++
     (match l.exp with | none => [] | some (b, e) => ex :: ((if b then ['-'] else []) ++ e))))

/-- The number denoted by a digit string, most significant digit first. -/
def natOf : Str → Nat
  | [] => 0
  | c :: cs => digVal c * 10 ^ cs.length + natOf cs

/-- The number. -/
def Lit.value (l : Lit) : ℚ :=
  (if l.neg then -1 else 1) *
  ((natOf l.ip : ℚ) + (match l.frac with | none => 0 | some f => (natOf f : ℚ) / 10 ^ f.length)) *
  (match l.exp with
   | none => 1
   | some (true, e) => 1 / 10 ^ natOf e
   | some (false, e) => 10 ^ natOf e)

/-- The number a Python value is. -/
def PyVal.num : PyVal → Option ℚ
  | .int z => some z
  | .float q => some q
  | _ => Option.none

end Verif.Inlist
