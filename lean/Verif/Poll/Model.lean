import Mathlib.Data.List.Basic
import Mathlib.Data.Int.Basic
import Mathlib.Tactic.Common
/-!
# Model of the interactive choice of a combination of radial orders

`aesolver/aesolver/solver/profile_helper_classes/input_user/user_poller.py`.  What the user does is a list of events; the
package `simple_poller`, which asks for the confirmation, is not part of the repository: its answer is part of the event.
-/
namespace Verif.Poll

/-- What is typed at one prompt, and the answer to the question whether the combination is right (asked only when the text is the
number of a combination). -/
structure Event where
  line : List Char
  accept : Bool

/-- White space that `int` strips (ASCII; other white space of Unicode is not modelled). -/
def blank (c : Char) : Bool := c = ' ' || c = '\t' || c = '\n' || c = '\r' || c = '\x0b' || c = '\x0c'

def strip (s : List Char) : List Char := ((s.dropWhile blank).reverse.dropWhile blank).reverse

/-- A run of decimal digits (ASCII; other digits of Unicode are not modelled). -/
def digits (s : List Char) : Option ℕ :=
  if s = [] ∨ s.any (fun c => !c.isDigit) then none else some (s.foldl (fun n c => 10 * n + (c.toNat - 48)) 0)

/-- The digits with single underscores between them. -/
def number (s : List Char) : Option ℕ :=
  if ((s.splitOn '_').any (· = [])) then none else digits (s.filter (· ≠ '_'))

/-- `int(line)`; `none` is ValueError. -/
def pyInt (s : List Char) : Option ℤ :=
  match strip s with
  | '-' :: r => (number r).map fun n : ℕ => -(n : ℤ)
  | '+' :: r => (number r).map fun n : ℕ => (n : ℤ)
  | r => (number r).map fun n : ℕ => (n : ℤ)

/-- `l[k]` of a Python list; `none` is IndexError. -/
def pyGet {C : Type} (l : List C) (k : ℤ) : Option C :=
  if 0 ≤ k then l[k.toNat]? else if -(l.length : ℤ) ≤ k then l[(l.length + k).toNat]? else none

/-- What is printed: the text of the choice (lines 76-78) and the request for a valid integer (84-86, 88-90). -/
inductive Msg (C : Type) where
  | selected (k : ℤ) (c : C)
  | unknown (k : ℤ)
deriving DecidableEq

/-- How the function ends: with a number, with UnboundLocalError (`my_rad_ord_combo` in the handler before it was ever assigned; line
65 is for type checkers only), with IndexError, or with EOFError because nothing more is typed. -/
inductive End where
  | returned (k : ℤ)
  | unboundLocal
  | indexError
  | eof
deriving DecidableEq

/-- `poll_user_profile_for_combination_number` (lines 67-92): `last` is the variable `my_rad_ord_combo`, once it has a value. -/
def poll {C : Type} (combos : List C) : Option ℤ → List Event → List (Msg C) × End
  | _, [] => ([], .eof)
  | last, e :: es =>
    match pyInt e.line with
    | none =>
      match last with
      | none => ([], .unboundLocal)
      | some k => let r := poll combos (some k) es; (.unknown k :: r.1, r.2)
    | some k =>
      match pyGet combos k with
      | none => ([], .indexError)
      | some c =>
        if e.accept then ([.selected k c], .returned k)
        else let r := poll combos (some k) es; (.selected k c :: r.1, r.2)

end Verif.Poll
