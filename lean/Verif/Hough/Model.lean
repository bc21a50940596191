import Verif.Cheby.Model
import Mathlib.Data.Fin.Tuple.Basic
import Mathlib.Order.Fin.Basic
/-!
# Model of the Hough-function class

`hough-func-tools/hough_function/hough_function.py` and `hough_instructions.py`, in exact real
arithmetic, on top of the model of the collocation framework.  Arrays on the half range are functions
on `Fin M`; arrays on the full range are functions on `Fin (M + M)`.
-/
namespace Verif.Hough
noncomputable section
open Matrix Verif.Cheby

/-- The definitions of the Hough functions, by name (hough_instructions.py 21-23, 40-49: any other
name exits the program, and is not representable here). -/
inductive Defn
  | prat | leeSaioEquivalent | townsend
  deriving DecidableEq

/-- `adjust_phi_sign` (hough_instructions.py 21-23). -/
def Defn.adjustPhiSign : Defn → Bool
  | .prat => false
  | .leeSaioEquivalent => true
  | .townsend => true

/-- `sin_factor` (hough_instructions.py 21-23). -/
def Defn.sinFactor : Defn → Bool
  | .prat => false
  | .leeSaioEquivalent => false
  | .townsend => true

/-- The inputs that stay fixed in a computation (hough_function.py 122-165).  `nu` is the real part
that is kept; `M` is half the number of points. -/
structure Cfg where
  /-- half the number of points -/
  M : ℕ
  /-- spin parameter -/
  nu : ℝ
  /-- degree -/
  l : ℤ
  /-- azimuthal order -/
  m : ℤ
  /-- definition of the functions -/
  defn : Defn

variable (c : Cfg)

/-- `_parity = (l - m) % 2` as a flag (hough_function.py 138). -/
def Cfg.parity : Bool := (c.l - c.m) % 2 == 1
/-- `_parity_factor = m % 2` as a flag (hough_function.py 139). -/
def Cfg.pf : Bool := c.m % 2 == 1

/-- `mu` (hough_function.py 143). -/
abbrev Cfg.mu : Fin c.M → ℝ := Cheby.mu c.M
/-- `s` (hough_function.py 144). -/
abbrev Cfg.s : Fin c.M → ℝ := Cheby.s c.M

/-- `_denom` (hough_function.py 670). -/
def denom (i : Fin c.M) : ℝ := 1 - c.nu ^ 2 * c.mu i ^ 2

/-- `_coeffs_2` of the tidal equation (hough_function.py 671). -/
def tide2 (i : Fin c.M) : ℝ := c.s i ^ 2 / denom c i
/-- `_coeffs_1` of the tidal equation (hough_function.py 672). -/
def tide1 (i : Fin c.M) : ℝ := -2 * c.mu i * (1 - c.nu ^ 2) / denom c i ^ 2
/-- `_coeffs_0` of the tidal equation (hough_function.py 673-675). -/
def tide0 (i : Fin c.M) : ℝ :=
  c.nu * c.m * (1 + c.nu ^ 2 * c.mu i ^ 2) / denom c i ^ 2 - (c.m : ℝ) ^ 2 / (c.s i ^ 2 * denom c i)

/-- The matrix whose eigenpairs `_colloc` computes (hough_function.py 667-679). -/
def tideMatrix : Matrix (Fin c.M) (Fin c.M) ℝ :=
  fullEig c.M (tide0 c) (tide1 c) (tide2 c) c.parity c.pf

/-- The latitudinal profile (hough_function.py 731-753). -/
def ht (hr : Fin c.M → ℝ) (i : Fin c.M) : ℝ :=
  let v := Cheby.apply c.M hr (fun i => -(c.m : ℝ) * c.nu * c.mu i / denom c i)
    (fun i => -(c.s i ^ 2) / denom c i) none c.parity c.pf i / c.s i
  if c.defn.sinFactor then v * c.s i else v

/-- The azimuthal profile (hough_function.py 755-786). -/
def hp (hr : Fin c.M → ℝ) (i : Fin c.M) : ℝ :=
  let v := Cheby.apply c.M hr (fun i => (c.m : ℝ) / denom c i)
    (fun i => c.nu * c.mu i * c.s i ^ 2 / denom c i) none c.parity c.pf i / c.s i
  let v := if c.defn.adjustPhiSign then v * (-1) else v
  if c.defn.sinFactor then v * c.s i else v

/-- First derivative of the radial profile (hough_function.py 794-796). -/
def hrp (hr : Fin c.M → ℝ) : Fin c.M → ℝ := diff1 c.M hr c.parity c.pf
/-- Second derivative of the radial profile (hough_function.py 798-800). -/
def hrpp (hr : Fin c.M → ℝ) : Fin c.M → ℝ := diff2 c.M hr c.parity c.pf

/-- Derivative of the latitudinal profile (hough_function.py 802-839). -/
def htp (hr : Fin c.M → ℝ) (i : Fin c.M) : ℝ :=
  let v := Cheby.apply c.M hr
    (fun i => (c.m : ℝ) * c.nu * (2 * c.mu i ^ 4 * c.nu ^ 2 - c.mu i ^ 2 * c.nu ^ 2 - 1) / denom c i ^ 2)
    (fun i => c.s i ^ 2 * (-(c.m : ℝ) * c.nu * c.mu i * denom c i + c.mu i + c.mu i ^ 3 * c.nu ^ 2
      - 2 * c.mu i * c.nu ^ 2) / denom c i ^ 2)
    (some fun i => -(c.s i ^ 4) / denom c i) c.parity c.pf i / c.s i ^ 3
  if c.defn.sinFactor then c.s i * v - c.mu i * ht c hr i / c.s i ^ 2 else v

/-- Derivative of the azimuthal profile (hough_function.py 841-876). -/
def hpp (hr : Fin c.M → ℝ) (i : Fin c.M) : ℝ :=
  let v := Cheby.apply c.M hr
    (fun i => (c.m : ℝ) * c.mu i * (1 - c.nu ^ 2 * c.mu i ^ 2 + 2 * c.nu ^ 2 - 2 * c.nu ^ 2 * c.mu i ^ 2)
      / denom c i ^ 2)
    (fun i => c.s i ^ 2 * ((c.m : ℝ) * denom c i + c.nu + c.nu ^ 3 * c.mu i ^ 2 - 2 * c.mu i ^ 2 * c.nu)
      / denom c i ^ 2)
    (some fun i => c.nu * c.mu i * c.s i ^ 4 / denom c i) c.parity c.pf i / c.s i ^ 3
  if c.defn.sinFactor then c.s i * v - c.mu i * hp c hr i / c.s i ^ 2 else v

/-- `_hrp_theta` (hough_function.py 887-889). -/
def hrpTheta (hr : Fin c.M → ℝ) (i : Fin c.M) : ℝ := -c.s i * hrp c hr i
/-- `_htp_theta` (hough_function.py 890-892). -/
def htpTheta (hr : Fin c.M → ℝ) (i : Fin c.M) : ℝ := -c.s i * htp c hr i
/-- `_hpp_theta` (hough_function.py 893-895). -/
def hppTheta (hr : Fin c.M → ℝ) (i : Fin c.M) : ℝ := -c.s i * hpp c hr i
/-- `_hrpp_theta` (hough_function.py 896-900). -/
def hrppTheta (hr : Fin c.M → ℝ) (i : Fin c.M) : ℝ := c.s i ^ 2 * hrpp c hr i - c.mu i * hrp c hr i

/-! ### Profiles on the full range -/

/-- `k_grav` (hough_function.py 244-253). -/
def kGrav : ℤ := c.l - |c.m|
/-- The factor of `_mul_kgrav` (hough_function.py 168-176). -/
def mulK : ℝ := (-1) ^ (kGrav c).natAbs
/-- The factor of `_mul_kgrav_1` (hough_function.py 178-186). -/
def mulK1 : ℝ := (-1) ^ ((kGrav c).natAbs + 1)

/-- Concatenation of a half-range array with the reversal of another (hough_function.py 51-70). -/
def catRev (a b : Fin c.M → ℝ) : Fin (c.M + c.M) → ℝ := Fin.append a (b ∘ Fin.rev)

/-- `mu_range` (hough_function.py 403-434). -/
def muRange : Fin (c.M + c.M) → ℝ := catRev c (fun i => -1 * c.mu i) c.mu
/-- `hr_range` (hough_function.py 255-267, 447-456). -/
def hrRange (hr : Fin c.M → ℝ) := catRev c (fun i => mulK c * hr i) hr
/-- `hr_range_m` (hough_function.py 458-470). -/
def hrRangeM (hr : Fin c.M → ℝ) (i : Fin (c.M + c.M)) : ℝ := -1 * (c.m : ℝ) * hrRange c hr i
/-- `ht_range` (hough_function.py 269-281, 472-481). -/
def htRange (hr : Fin c.M → ℝ) := catRev c (fun i => mulK1 c * ht c hr i) (ht c hr)
/-- `hp_range` (hough_function.py 283-295, 483-492). -/
def hpRange (hr : Fin c.M → ℝ) := catRev c (fun i => mulK c * hp c hr i) (hp c hr)
/-- `hrp_range` (hough_function.py 297-309, 494-503). -/
def hrpRange (hr : Fin c.M → ℝ) := catRev c (fun i => mulK1 c * hrp c hr i) (hrp c hr)
/-- `hrp_range_theta` (hough_function.py 311-323, 505-516). -/
def hrpRangeTheta (hr : Fin c.M → ℝ) := catRev c (fun i => mulK1 c * hrpTheta c hr i) (hrpTheta c hr)
/-- `hrpp_range` (hough_function.py 325-336, 518-527): the factor is `_mul_kgrav_1`. -/
def hrppRange (hr : Fin c.M → ℝ) := catRev c (fun i => mulK1 c * hrpp c hr i) (hrpp c hr)
/-- `hrpp_range_theta` (hough_function.py 338-349, 529-540): the factor is `_mul_kgrav_1`. -/
def hrppRangeTheta (hr : Fin c.M → ℝ) := catRev c (fun i => mulK1 c * hrppTheta c hr i) (hrppTheta c hr)
/-- `htp_range` (hough_function.py 351-362, 542-551). -/
def htpRange (hr : Fin c.M → ℝ) := catRev c (fun i => mulK c * htp c hr i) (htp c hr)
/-- `htp_range_theta` (hough_function.py 364-375, 553-564). -/
def htpRangeTheta (hr : Fin c.M → ℝ) := catRev c (fun i => mulK c * htpTheta c hr i) (htpTheta c hr)
/-- `hpp_range` (hough_function.py 377-388, 566-575). -/
def hppRange (hr : Fin c.M → ℝ) := catRev c (fun i => mulK1 c * hpp c hr i) (hpp c hr)
/-- `hpp_range_theta` (hough_function.py 390-401, 577-588). -/
def hppRangeTheta (hr : Fin c.M → ℝ) := catRev c (fun i => mulK1 c * hppTheta c hr i) (hppTheta c hr)

/-- `theta_phi_hough_tilde` (hough_function.py 590-614). -/
def thetaPhiTilde (hr : Fin c.M → ℝ) := catRev c
  (fun i => (c.m : ℝ) * (mulK1 c * ht c hr i) - (-1 * c.mu i) * (mulK c * hp c hr i))
  (fun i => (c.m : ℝ) * ht c hr i - c.mu i * hp c hr i)

/-- `phi_phi_hough_tilde` (hough_function.py 616-644). -/
def phiPhiTilde (hr : Fin c.M → ℝ) := catRev c
  (fun i => ((-1 * c.mu i) * (mulK1 c * ht c hr i) - (c.m : ℝ) * (mulK c * hp c hr i)) / c.s i)
  (fun i => (c.mu i * ht c hr i - (c.m : ℝ) * hp c hr i) / c.s i)

end
end Verif.Hough
