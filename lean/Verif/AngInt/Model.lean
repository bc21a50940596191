import Verif.NumInt.Model
import Mathlib.Analysis.SpecialFunctions.Trigonometric.Basic
import Mathlib.Analysis.Real.Sqrt
import Mathlib.Algebra.Order.Floor.Ring
/-!
# Model of the angular integrals over Hough functions

`aesolver/aesolver/angular_integration/rotating_tar_angular/hough_integration.py` and the
normalisation factors of `hough-func-tools/hough_function/hough_normalizer.py`, in exact real
arithmetic.  The integrator is the model of the C++ one (`Verif.NumInt`).
-/
namespace Verif.AngInt
noncomputable section
open Real

/-- How a call ends. -/
inductive Res (α : Type)
  | ok (v : α)
  /-- `sys.exit()` after an error message -/
  | exited
  /-- an exception: unknown attribute, empty list, arrays of different lengths -/
  | raised

/-- The attributes of the object that are used: the profiles by name, and the latitudinal grid, all
arrays being lists (hough_integration.py 164-177). -/
structure Obj where
  /-- the array stored under an attribute name, if there is one -/
  attr : String → Option (List ℝ)
  /-- `_mu_values` -/
  mu : List ℝ

/-- `conjugator` (hough_integration.py 33-48). -/
def conjugator (m : ℤ) (conjugated : Bool) : ℤ := if conjugated then -m else m

/-- The accepted values of `conj` (hough_integration.py 263-301; any other type exits the program). -/
inductive Conj
  | none
  | tuple (bs : List Bool)
  | flag (b : Bool)

/-- `_adapt_to_complex_conjugation` (hough_integration.py 263-301).  `map` over two lists stops at the
shorter one. -/
def adapt (conj : Conj) (ms : List ℤ) : Res (List ℤ) :=
  match conj with
  | .none => .ok ms
  | .tuple bs => if bs.length ≠ 3 then .exited else .ok (List.zipWith conjugator ms bs)
  | .flag b => match ms with
    | [] => .raised
    | m :: rest => .ok (conjugator m b :: rest)

/-- `_phi_m_selection_rule` (hough_integration.py 60-74). -/
def selectionRule (ms : List ℤ) : Bool := ms.sum == 0

/-- The points of `_chebyshev_gauss_quad` (hough_integration.py 100-106, 110): `np.mod(·, 2π)` of
`π (2k-1)/(2 order)`, `k = 1 … order`. -/
def cgAngle (order k : ℕ) : ℝ := π * (2 * k - 1) / (2 * order)
/-- `np.mod(x, 2π)`. -/
def mod2pi (x : ℝ) : ℝ := x - 2 * π * ⌊x / (2 * π)⌋

/-- `_chebyshev_gauss_quad` (hough_integration.py 77-114), for `order ≥ 1`; `none` when the function
raises ValueError at one of the points. -/
def chebyshevGauss (f : ℝ → Option ℝ) (order : ℕ) : Option ℝ :=
  (((List.range order).mapM fun i => f (cos (mod2pi (cgAngle order (i + 1)))))).map fun vs =>
    (vs.map fun v => π / order * v).sum

/-- `interp1d(x, y)` with its default settings, for increasing `x` of the length of `y`: linear
interpolation, ValueError (`none`) outside the range of `x`. -/
def interp1d : List ℝ → List ℝ → ℝ → Option ℝ
  | x0 :: x1 :: xs, y0 :: y1 :: ys, t =>
    if t < x0 then none
    else if t ≤ x1 then some (y0 + (y1 - y0) / (x1 - x0) * (t - x0))
    else interp1d (x1 :: xs) (y1 :: ys) t
  | _, _, _ => none

/-- Keyword arguments of the theta integral that matter (hough_integration.py 118-131). -/
structure Opts where
  /-- `div_by_sin` -/
  divBySin : Bool := false
  /-- `mul_with_mu` -/
  mulWithMu : Bool := false
  /-- `num_integ_method` -/
  method : String := "trapz"
  /-- `use_cheby_integration` -/
  useCheby : Bool := false
  /-- `cheby_order_multiplier` -/
  orderMul : ℕ := 4
  /-- `cheby_blow_up_protection` -/
  protect : Bool := false
  /-- `cheby_blow_up_factor` -/
  blowUp : ℝ := 1000

/-- Element-wise product of two arrays of equal length. -/
def arrMul (a b : List ℝ) : List ℝ := List.zipWith (· * ·) a b

/-- The product of the profiles (hough_integration.py 164-175); every profile must exist and have the
length of the first one. -/
def product (o : Obj) (descrips : List String) : Option (List ℝ) :=
  match descrips.mapM o.attr with
  | none => none
  | some [] => none
  | some (first :: rest) =>
    if rest.all (fun r => r.length == first.length) then some (rest.foldl arrMul first) else none

/-- `sqrt(1 - mu²)`. -/
def sinArr (mu : List ℝ) : List ℝ := mu.map fun x => √(1 - x ^ 2)
/-- Element-wise quotient. -/
def arrDiv (a b : List ℝ) : List ℝ := List.zipWith (· / ·) a b

/-- The numerical integrator called with its equal-spacing flag set to True
(hough_integration.py 213-220, 253-260): the flag is the literal second argument. -/
def regular (method : String) (integrand mu : List ℝ) : Option ℝ :=
  (NumInt.cniIntegrate NumInt.mapper0 method true integrand mu 4 false).1

/-- The Chebyshev-Gauss branch (hough_integration.py 184-197, 224-236). -/
def cheby (op : Opts) (integrand mu : List ℝ) : Option ℝ :=
  let y := if op.divBySin then integrand else arrMul integrand (sinArr mu)
  chebyshevGauss (interp1d mu y) (op.orderMul * mu.length)

/-- `_compute_theta_integral` (hough_integration.py 117-260). -/
def thetaIntegral (o : Obj) (descrips : List String) (op : Opts) : Res ℝ :=
  match product o descrips with
  | none => .raised
  | some p =>
    if p.length ≠ o.mu.length then .raised else
    let integrand := if op.mulWithMu then arrMul p o.mu else p
    if op.useCheby then
      match cheby op integrand o.mu with
      | none => .exited
      | some v => .ok v
    else
      let integrand' := if op.divBySin then arrDiv integrand (sinArr o.mu) else integrand
      match regular op.method integrand' o.mu with
      | none => .raised
      | some r =>
        if op.protect then
          if r > op.blowUp then
            match cheby op integrand o.mu with
            | some v => .ok v
            | none => .ok r
          else .ok r
        else .ok r

/-- `quadratic_angular_integral` (hough_integration.py 303-398). -/
def angularIntegral (o : Obj) (descrips : List String) (mList : Option (List ℤ)) (onlyTheta : Bool) (conj : Conj)
    (op : Opts) : Res ℝ :=
  let go : Res ℝ := match thetaIntegral o descrips op with
    | .ok v => .ok (2 * π * v)
    | .exited => .exited
    | .raised => .raised
  match onlyTheta, mList with
  | true, _ => go
  | false, none => go
  | false, some ms => match adapt conj ms with
    | .exited => .exited
    | .raised => .raised
    | .ok a => if selectionRule a then go else .ok 0

/-- The factor of the Lee (2012) normalisation (hough_normalizer.py 113-145); the flag is the literal
True. -/
def leeFactor (mu hr : List ℝ) : Option ℝ :=
  (regular "trapz" (hr.map fun v => v ^ 2) mu).map fun I => 1 / √(2 * π * I)

/-- The factor of the Prat et al. (2019) normalisation (hough_normalizer.py 81-110), for a nonempty
array. -/
def pratFactor (hr : List ℝ) : ℝ := 1 / (hr.map abs).foldr max 0

end
end Verif.AngInt
