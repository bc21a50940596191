import Mathlib.Data.Real.Sqrt
/-!
# Model of `py-combinations/pairing_functions`

Integers are unbounded and `/`, `np.sqrt`, `floor`, `int` are exact (rounding of doubles, which makes
the functions inexact for values above about 2^53, is not modelled).  A pair argument is a numpy array.
`none` models the `TypeError` of `tuple + int`: adding a plain Python `int` to a tuple raises, whereas a
numpy scalar broadcasts.
-/
namespace Verif.Pairing

/-- How the caller passed `lowest_integer`. -/
inductive Lowest
  | pyInt (v : Int)
  | numpyInt (v : Int)

/-- The numeric value of `lowest_integer`. -/
def Lowest.val : Lowest → Int
  | .pyInt v => v
  | .numpyInt v => v

/-- `(a, b) + lowest_integer`: cantor_pairing.py:57, symmetric_pairing.py:57, xie_pairing.py:86. -/
def tupleAdd (p : Int × Int) (low : Lowest) : Option (Int × Int) :=
  match low with
  | .pyInt _ => none
  | .numpyInt v => some (p.1 + v, p.2 + v)

/-- `cantor_pair`, cantor_pairing.py:11-31. -/
def cantorPair (p : Int × Int) (low : Lowest) : Int :=
  let a := p.1 - low.val
  let b := p.2 - low.val
  let int_sum := a + b
  (int_sum * (int_sum + 1)).tdiv 2 + b

/-- `floor(0.5 * np.sqrt(8.0 * z + 1.0) - 0.5)`, cantor_pairing.py:52, symmetric_pairing.py:52. -/
noncomputable def floorW (z : Int) : Int := ⌊(0.5 : ℝ) * Real.sqrt (8.0 * (z : ℝ) + 1.0) - 0.5⌋

/-- `invert_cantor_pair`, cantor_pairing.py:35-57. -/
noncomputable def invertCantorPair (z : Int) (low : Lowest) : Option (Int × Int) :=
  let w := floorW z
  let t := (w * w + w).tdiv 2
  tupleAdd (w - z + t, z - t) low

/-- `symmetric_pair`, symmetric_pairing.py:11-32. -/
def symmetricPair (p : Int × Int) (low : Lowest) : Int :=
  let q := if p.1 ≥ p.2 then (p.2, p.1) else p
  let a := q.1 - low.val + 1
  let b := q.2 - low.val + 1
  a + (b * (b - 1)).tdiv 2

/-- `invert_symmetric_pair`, symmetric_pairing.py:36-57 (`(…) + lowest_integer - 1`). -/
noncomputable def invertSymmetricPair (z : Int) (low : Lowest) : Option (Int × Int) :=
  let w := floorW z
  let t := (w * w + w).tdiv 2
  (tupleAdd (z - t, w + 1) low).map (fun q => (q.1 - 1, q.2 - 1))

/-- `sgn_accent`, xie_pairing.py:15-28. -/
def sgnAccent (n : Int) : Int := (|n.sign| + n.sign).tdiv 2

/-- `xie_symmetric_pair`, xie_pairing.py:32-57. -/
def xiePair (p : Int × Int) (low : Lowest) : Int :=
  let q := if p.1 < p.2 then (p.2, p.1) else p
  let m0 := q.1 - low.val + 1
  let m1 := q.2 - low.val + 1
  let int_sum := m0 + m1 - 1
  let minint := (m0 + m1 - |m0 - m1|).tdiv 2
  let mod_int := int_sum % 2
  (int_sum * int_sum - mod_int).tdiv 4 + minint

/-- `invert_xie_symmetric_pair`, xie_pairing.py:61-86. -/
noncomputable def invertXiePair (z : Int) (low : Lowest) : Option (Int × Int) :=
  let t := ⌊Real.sqrt (z : ℝ)⌋
  let tsq := t * t
  let a := (z - tsq).sign
  let b := sgnAccent (z - tsq - t)
  let first_fac := (1 - a) * t
  let m := first_fac + a * ((t + 1) * (t + 1 + b) - z)
  let n := first_fac + a * (z - t * (t + b))
  (tupleAdd (m, n) low).map (fun q => (q.1 - 1, q.2 - 1))

end Verif.Pairing
