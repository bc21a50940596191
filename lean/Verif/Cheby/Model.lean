import Mathlib.Analysis.SpecialFunctions.Trigonometric.Basic
import Mathlib.Analysis.Real.Sqrt
import Mathlib.LinearAlgebra.Matrix.NonsingularInverse
/-!
# Model of the Chebyshev collocation framework

`hough-func-tools/cheby_transform/cheby_transform.py`, in exact real arithmetic.  `M` is the matrix
size `m_size = npts // 2` (lines 38-39), so `npts` is `2 M`.
-/
namespace Verif.Cheby
noncomputable section
open Real Matrix

variable (M : ℕ)

/-- The collocation angles (cheby_transform.py 49-54). -/
def theta (i : Fin M) : ℝ := π / (2 * M) * ((i : ℝ) + 1 / 2)

/-- `mu = cos(theta)` (cheby_transform.py 60). -/
def mu (i : Fin M) : ℝ := cos (theta M i)

/-- `s = sqrt(1 - mu**2)` (cheby_transform.py 63). -/
def s (i : Fin M) : ℝ := √(1 - mu M i ^ 2)

/-- `j_index` (cheby_transform.py 77, 109). -/
def jIndex (odd : Bool) (j : ℕ) : ℕ := if odd then 2 * j + 1 else 2 * j

/-- The argument of the cosine and the sine (cheby_transform.py 78-83, 110-115). -/
def arg (odd : Bool) (i j : Fin M) : ℝ := π * (jIndex odd j) / (2 * M) * (2 * M + (i : ℝ) + 1 / 2)

/-- `cij`. -/
def cij (odd : Bool) (i j : Fin M) : ℝ := cos (arg M odd i j)
/-- `sij`. -/
def sij (odd : Bool) (i j : Fin M) : ℝ := sin (arg M odd i j)

/-- `d0[parity, pf]` before the full expansion (cheby_transform.py 86, 97, 118, 125). -/
def raw0 (odd pf : Bool) : Matrix (Fin M) (Fin M) ℝ := of fun i j =>
  if pf then cij M odd i j * s M i else cij M odd i j

/-- `d1[parity, pf]` before the full expansion (cheby_transform.py 87-89, 98, 119, 126-128). -/
def raw1 (odd pf : Bool) : Matrix (Fin M) (Fin M) ℝ := of fun i j =>
  if pf then (jIndex odd j) * sij M odd i j - cij M odd i j * mu M i / s M i
  else (jIndex odd j) * sij M odd i j / s M i

/-- `d2[parity, pf]` before the full expansion (cheby_transform.py 90-94, 99-101, 120-122, 129-133). -/
def raw2 (odd pf : Bool) : Matrix (Fin M) (Fin M) ℝ := of fun i j =>
  if pf then
    (-((jIndex odd j : ℝ) ^ 2) * cij M odd i j * s M i ^ 2 - (jIndex odd j) * sij M odd i j * mu M i * s M i
      - cij M odd i j) / s M i ^ 3
  else ((jIndex odd j : ℝ) / s M i ^ 3) * (mu M i * sij M odd i j - (jIndex odd j) * cij M odd i j * s M i)

/-- `d0` after `_prepare_full_expansion`: the inverse (cheby_transform.py 143). -/
def d0 (odd pf : Bool) : Matrix (Fin M) (Fin M) ℝ := (raw0 M odd pf)⁻¹
/-- `d1` after `_prepare_full_expansion` (cheby_transform.py 144-146). -/
def d1 (odd pf : Bool) : Matrix (Fin M) (Fin M) ℝ := raw1 M odd pf * d0 M odd pf
/-- `d2` after `_prepare_full_expansion` (cheby_transform.py 147-149). -/
def d2 (odd pf : Bool) : Matrix (Fin M) (Fin M) ℝ := raw2 M odd pf * d0 M odd pf

/-- The matrix built in `solve_eig` (cheby_transform.py 180-184). -/
def fullEig (c0 c1 c2 : Fin M → ℝ) (odd pf : Bool) : Matrix (Fin M) (Fin M) ℝ :=
  diagonal c2 * d2 M odd pf + diagonal c1 * d1 M odd pf + diagonal c0

/-- `apply` (cheby_transform.py 188-221). -/
def apply (f c0 c1 : Fin M → ℝ) (c2 : Option (Fin M → ℝ)) (odd pf : Bool) : Fin M → ℝ :=
  let full := diagonal c1 * d1 M odd pf + diagonal c0
  let full := match c2 with
    | none => full
    | some c2 => full + diagonal c2 * d2 M odd pf
  full *ᵥ f

/-- `diff1` (cheby_transform.py 223-241). -/
def diff1 (f : Fin M → ℝ) (odd pf : Bool) : Fin M → ℝ := d1 M odd pf *ᵥ f
/-- `diff2` (cheby_transform.py 243-261). -/
def diff2 (f : Fin M → ℝ) (odd pf : Bool) : Fin M → ℝ := d2 M odd pf *ᵥ f

end
end Verif.Cheby
