import Verif.Fornberg.Model
import Verif.AngInt.Model
/-!
# Model of the numerical differentiator

`num-tools/num_deriv/num_deriv.py` and `stencils.py` in exact real arithmetic, and the wrapper
`_compute_der` of `super_coupling_coefficients.py`.  `np.gradient` and numba's `@stencil` are modelled from
their documentation.  `none` as the result of a call is an exception or a program exit.
-/
namespace Verif.NumDeriv
noncomputable section
open Classical

/-- `a[k]`. -/
abbrev at' (a : List ℝ) (k : ℕ) : ℝ := a.getD k 0
/-- `np.diff(x)[k]`. -/
def dx (x : List ℝ) (k : ℕ) : ℝ := at' x (k + 1) - at' x k

/-- Weights of `np.gradient` for unequal spacings `a`, `b` at the left end, `edge_order=2`. -/
def wLeft (a b : ℝ) : ℝ × ℝ × ℝ := (-(2 * a + b) / (a * (a + b)), (a + b) / (a * b), -a / (b * (a + b)))
/-- The same in the interior. -/
def wMid (a b : ℝ) : ℝ × ℝ × ℝ := (-b / (a * (a + b)), (b - a) / (a * b), a / (b * (a + b)))
/-- The same at the right end. -/
def wRight (a b : ℝ) : ℝ × ℝ × ℝ := (b / (a * (a + b)), -(b + a) / (a * b), (2 * b + a) / (b * (a + b)))
/-- The three-point sum starting at `k`. -/
def three (w : ℝ × ℝ × ℝ) (y : List ℝ) (k : ℕ) : ℝ := w.1 * at' y k + w.2.1 * at' y (k + 1) + w.2.2 * at' y (k + 2)

/-- `np.gradient(y, x, edge_order=e)` for one-dimensional arrays (called at num_deriv.py 230): raises for
different lengths, for `e > 2` and for fewer than `e + 1` points (numpy's `edge_order` of 0 behaves as 1).  When
all spacings are equal numpy divides by that spacing instead of forming the weights; both branches are kept. -/
def gradient (e : ℕ) (x y : List ℝ) : Option (List ℝ) :=
  let n := x.length
  if y.length ≠ n ∨ 2 < e ∨ n < e + 1 ∨ n < 2 then none
  else some <| tab n fun i =>
    if ∀ k < n - 1, dx x k = dx x 0 then
      let h := dx x 0
      if i = 0 then
        if e = 2 then (-(3 / 2)) / h * at' y 0 + 2 / h * at' y 1 + (-(1 / 2)) / h * at' y 2
        else (at' y 1 - at' y 0) / h
      else if i = n - 1 then
        if e = 2 then (1 / 2) / h * at' y (n - 3) + (-2) / h * at' y (n - 2) + (3 / 2) / h * at' y (n - 1)
        else (at' y (n - 1) - at' y (n - 2)) / h
      else (at' y (i + 1) - at' y (i - 1)) / (2 * h)
    else
      if i = 0 then
        if e = 2 then three (wLeft (dx x 0) (dx x 1)) y 0 else (at' y 1 - at' y 0) / dx x 0
      else if i = n - 1 then
        if e = 2 then three (wRight (dx x (n - 3)) (dx x (n - 2))) y (n - 3)
        else (at' y (n - 1) - at' y (n - 2)) / dx x (n - 2)
      else three (wMid (dx x (i - 1)) (dx x i)) y (i - 1)

/-- The four kernels (stencils.py 16-35). -/
inductive Kernel
  | forward1 | backward1 | center1 | center2
  deriving DecidableEq

/-- Points that a kernel needs to the left and to the right; numba sets the result to zero where they do not
exist. -/
def Kernel.reach : Kernel → ℕ × ℕ
  | .forward1 => (0, 1)
  | .backward1 => (1, 0)
  | .center1 => (1, 1)
  | .center2 => (2, 2)

/-- The value of a kernel at an interior point (stencils.py 16-35). -/
def Kernel.val (k : Kernel) (x y : List ℝ) (i : ℕ) : ℝ :=
  match k with
  | .forward1 => (at' y (i + 1) - at' y i) / (at' x (i + 1) - at' x i)
  | .backward1 => (at' y i - at' y (i - 1)) / (at' x i - at' x (i - 1))
  | .center1 => (at' y (i + 1) - at' y (i - 1)) / (at' x (i + 1) - at' x (i - 1))
  | .center2 => (-1 * at' y (i + 2) + 8 * at' y (i + 1) - 8 * at' y (i - 1) + at' y (i - 2)) /
      (12 * (at' x (i + 1) - at' x i))

/-- Calling a compiled stencil: an array of the length of `x` (raises when `y` is shorter). -/
def Kernel.run (k : Kernel) (x y : List ℝ) : Option (List ℝ) :=
  if y.length < x.length then none
  else some <| tab x.length fun i =>
    if k.reach.1 ≤ i ∧ i + k.reach.2 < x.length then k.val x y i else 0

/-- Names of the differencing types, upper-cased (stencils.py 48-50). -/
inductive DType
  | forward | backward | center
  deriving DecidableEq

/-- The member of the enumeration and its entry for the order (stencils.py 48-50, 73-86): `none` for an unknown
order (the program exits), `some none` where the table holds `None`. -/
def retrieve (d : DType) (order : ℕ) : Option (Option Kernel) :=
  match d, order with
  | .forward, 1 => some (some .forward1)
  | .forward, 2 => some none
  | .backward, 1 => some (some .backward1)
  | .backward, 2 => some none
  | .center, 1 => some (some .center1)
  | .center, 2 => some (some .center2)
  | _, _ => none

/-- The differentiation methods with their keyword arguments (num_deriv.py 60-70). -/
inductive Method
  | gradient (edgeOrder : ℕ)
  | stencil (order : ℕ) (dtype : DType)
  | fornberg (original : Bool) (interpolationOrder : ℕ)

/-- The default arguments of the methods (num_deriv.py 113, 163, 206). -/
def defaultGradient : Method := .gradient 2
def defaultStencil : Method := .stencil 1 .center
def defaultFornberg : Method := .fornberg false 4

/-- `_differentiation_executable`: the list of derivatives of the orders `0 … ord` (num_deriv.py 112-240).
Methods without higher derivatives list `None` for them. -/
def execute (m : Method) (ord : ℕ) (x y : List ℝ) : Option (List (Option (List ℝ))) :=
  match m with
  | .gradient e => (List.range (ord + 1)).mapM fun k =>
      if k = 1 then (gradient e x y).map some else if k = 0 then some (some y) else some none
  | .stencil o d => do
      let f ← retrieve d o
      (List.range (ord + 1)).mapM fun k =>
        if k = 1 then (match f with
          | some f => (f.run x y).map some
          | none => none)
        else if k = 0 then some (some y) else some none
  | .fornberg original acc =>
      if original then none
      else (List.range (ord + 1)).mapM fun k =>
        if k = 0 then some (some y)
        else match Fornberg.gridDerivative k acc x y with
          | some (.ok du) => some (some du)
          | _ => none

/-- `np.linspace(a, b, num)`. -/
def linspace (a b : ℝ) (num : ℕ) : List ℝ := tab num fun k => a + k * ((b - a) / ((num - 1 : ℕ) : ℝ))

/-- `differentiate` (num_deriv.py 245-304); `factor` is the interpolation factor when interpolation is wanted.
The grid is increasing, so that its extrema are its ends. -/
def differentiate (m : Method) (ord : ℕ) (factor : Option ℕ) (x y : List ℝ) : Option (List (Option (List ℝ))) :=
  match factor with
  | none => execute m ord x y
  | some f => do
      let xs := linspace (at' x 0) (at' x (x.length - 1)) (x.length * f - 1)
      let ys ← xs.mapM fun t => AngInt.interp1d x y t
      let ds ← execute m ord xs ys
      let idx := (List.range xs.length).filter fun k => at' xs k ∈ x
      some (ds.map fun d => d.map fun a => idx.map fun k => at' a k)

/-- A profile: a real or a complex numpy array. -/
inductive Profile
  | real (y : List ℝ)
  | complex (y : List ℂ)

/-- `_compute_der` (super_coupling_coefficients.py 1353-1426).  A real array goes to the differentiator; of a complex
array the real and imaginary parts are differentiated separately, by nested calls without message; without
`use_complex` only the real part is kept.  `none`: an exception is raised.  The message is assigned in the real branch
only (1411-1419), so that `logger.debug(_num_der_string)` (1424) raises UnboundLocalError after the complex branch. -/
def computeDer (printStatement useComplex : Bool) (m : Method) (ord : ℕ) (x : List ℝ) :
    Profile → Option (List (Option Profile))
  | .real y => do
      let ds ← differentiate m ord none x y
      some (ds.map fun d => d.map Profile.real)
  | .complex y => do
      let re ← differentiate m ord none x (y.map Complex.re)
      let ds ← if useComplex then do
            let im ← differentiate m ord none x (y.map Complex.im)
            (re.zip im).mapM fun p => match p with
              | (none, _) => some none
              | (some a, some b) => some (some (Profile.complex ((a.zip b).map fun q => ⟨q.1, q.2⟩)))
              | (some _, none) => none
          else some (re.map fun d => d.map Profile.real)
      if printStatement then none else some ds

/-- `_compute_radial_gradients`, numerical branch (coupling_coefficient_rotating.py 255-274): of each mode the
derivatives of `x*z1` and `x*z2/(c1*omega^2)`, with the default `print_statement=True`; the unpacking `_, d = …` needs
a list of two. -/
def radialGradients (useComplex : Bool) (m : Method) (x : List ℝ) (modes : List (Profile × Profile)) :
    Option (List (Option Profile × Option Profile)) :=
  modes.mapM fun p => do
    let a ← computeDer true useComplex m 1 x p.1
    let b ← computeDer true useComplex m 1 x p.2
    match a, b with
    | [_, d], [_, e] => some (d, e)
    | _, _ => none

end
end Verif.NumDeriv
