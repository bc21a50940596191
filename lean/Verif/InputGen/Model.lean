import Verif.Combos.Model
import Mathlib.Data.Rat.Defs
import Mathlib.Algebra.Order.Group.Unbundled.Abs
/-! # Model of `aesolver/aesolver/mode_input_generator/input_generator.py` -/
namespace Verif.InputGen
open Verif.Combos

/-- Python's `range(lo, hi + 1)` iterated. -/
def pyRange (lo hi : Int) : List Int := (List.range (hi + 1 - lo).toNat).map (fun (k : Nat) => lo + (k : Int))

/-- The attributes of `AdNadModeInfoInputGenerator`.  `harmonics = none` means that the attribute
`harmonics_radial_orders` is not set. -/
structure Gen where
  combos : List (List Int)
  avg : List ℚ
  wu : List Int
  harmonics : Option (List (List Int))

/-- `[[d, *pair] for d in driven for pair in pairs]`, input_generator.py:120-124 and 129-133. -/
def triples (driven : List Int) (pairs : List (Int × Int)) : List (List Int) :=
  driven.flatMap (fun d => pairs.map (fun p => [d, p.1, p.2]))

/-- `statistics.mean(combo)`, input_generator.py:135-140.  Simplification: the exact rational mean. -/
def mean (t : List Int) : ℚ := (t.sum : ℚ) / t.length

/-- One entry of `wu_difference_statistics`, input_generator.py:142-147. -/
def wu (t : List Int) : Int := t.getD 0 0 - |t.getD 1 0 - t.getD 2 0|

/-- `AdNadModeInfoInputGenerator(...)`, input_generator.py:48-147.  The second damped range is used only
when both of its ends are given; `it` is the (unspecified) iteration order of the sets inside
`SymmetricProductCombos`. -/
noncomputable def gen (driven_n_low driven_n_high damped_n_low1 damped_n_high1 : Int)
    (damped_n_low2 damped_n_high2 : Option Int) (it : Iter Int) : Gen :=
  let driven := pyRange driven_n_low driven_n_high
  let r1 := pyRange damped_n_low1 damped_n_high1
  match damped_n_low2, damped_n_high2 with
  | some lo2, some hi2 =>
    let c := triples driven (symmetricProduct r1 (pyRange lo2 hi2) it true).l
    ⟨c, c.map mean, c.map wu, none⟩
  | _, _ =>
    let c := triples driven (singleSet r1).l
    ⟨c, c.map mean, c.map wu, some []⟩

end Verif.InputGen
