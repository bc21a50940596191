import Verif.Common
import Mathlib.Algebra.Field.Basic
/-!
# Model of `fornberg-num-deriv/fornberg_num_deriv/fornberg.f90` (finite-difference weights and grid derivatives)

Fortran arrays are 1-based.  An access outside declared bounds is `none` (undefined behaviour).
Integer arguments are natural numbers (negative orders/accuracies are not modelled).
Numbers are elements of a field.
-/
namespace Verif.Fornberg
variable {K : Type} [Field K]

/-- `mmax=8`, fornberg.f90:4. -/
def mmax : Nat := 8
/-- `nmax=20`, fornberg.f90:4. -/
def nmax : Nat := 20
/-- `iaccuracy_max=20`, fornberg.f90:4. -/
def iaccuracy_max : Nat := 20

/-- The work array `weight(mmax,nmax,nmax)`, fornberg.f90:16. -/
abbrev W (K : Type) := Nat → Nat → Nat → K

/-- Index check for `weight`. -/
def inW (a b c : Nat) : Bool :=
  1 ≤ a && a ≤ mmax && 1 ≤ b && b ≤ nmax && 1 ≤ c && c ≤ nmax

/-- Read `weight(a,b,c)`. -/
def rdW (w : W K) (a b c : Nat) : Option K := if inW a b c then some (w a b c) else none

/-- Write `weight(a,b,c) = v`. -/
def wrW (w : W K) (a b c : Nat) (v : K) : Option (W K) :=
  if inW a b c then some (fun a' b' c' => if a' = a ∧ b' = b ∧ c' = c then v else w a' b' c')
  else none

/-- 1-based read of a Fortran array. -/
def rd1 {α : Type} (buf : List α) (i : Int) : Option α := rd buf (i - 1)

/-- The loop over `mm`, fornberg.f90:31-33. -/
def loopMMoff (c4 pfac : K) (nn nu nmmin : Nat) (w : W K) : Option (W K) :=
  (List.range' 2 (nmmin - 1)).foldlM (fun w mm => do
    let a ← rdW w mm (nn - 1) nu
    let b ← rdW w (mm - 1) (nn - 1) nu
    wrW w mm nn nu (c4 * (pfac * a - ((mm - 1 : Nat) : K) * b))) w

/-- The loop over `mm`, fornberg.f90:38-40. -/
def loopMMdiag (c4 pfac : K) (nn nmmin : Nat) (w : W K) : Option (W K) :=
  (List.range' 2 (nmmin - 1)).foldlM (fun w mm => do
    let b ← rdW w (mm - 1) (nn - 1) (nn - 1)
    let a ← rdW w mm (nn - 1) (nn - 1)
    wrW w mm nn nn (c4 * (((mm - 1 : Nat) : K) * b - pfac * a))) w

/-- Body of the loop over `nu`, fornberg.f90:26-33.  `off` is the (0-based) position of the actual
argument `grid(s)` in the caller's array, so that `grid(k)` here is element `off + k - 1` there. -/
def stepNu (grid : List K) (off : Int) (x0 : K) (nmmin nn : Nat) (st : W K × K) (nu : Nat) :
    Option (W K × K) := do
  let gn ← rd grid (off + (nn : Int) - 1)
  let gu ← rd grid (off + (nu : Int) - 1)
  let c3 := gn - gu
  let c2 := st.2 * c3
  let c4 := 1 / c3
  let pfac := gn - x0
  let a ← rdW st.1 1 (nn - 1) nu
  let w ← wrW st.1 1 nn nu (c4 * (pfac * a))
  let w ← loopMMoff c4 pfac nn nu nmmin w
  pure (w, c2)

/-- Body of the loop over `nn`, fornberg.f90:24-41; the state is `(weight, c1)`. -/
def stepNn (grid : List K) (off : Int) (x0 : K) (nmmin : Nat) (st : W K × K) (nn : Nat) :
    Option (W K × K) := do
  let (w, c2) ← (List.range' 1 (nn - 1)).foldlM (stepNu grid off x0 nmmin nn) (st.1, 1)
  let gp ← rd grid (off + (nn : Int) - 2)
  let pfac := gp - x0
  let a ← rdW w 1 (nn - 1) (nn - 1)
  let w ← wrW w 1 nn nn ((st.2 / c2) * (-pfac * a))
  let c4 := st.2 / c2
  let w ← loopMMdiag c4 pfac nn nmmin w
  pure (w, c2)

/-- `fdcoef(mord,nord,x0,grid,coef)`, fornberg.f90:8-47; `coefSize` is the size of the caller's array
behind `coef`.  The result is `coef(1:nord)`. -/
def fdcoef (coefSize mord nord : Nat) (x0 : K) (grid : List K) (off : Int) : Option (List K) := do
  let w0 ← wrW (fun _ _ _ => (0 : K)) 1 1 1 1
  let nmmin := min nord mord
  let (w, _) ← (List.range' 2 (nord - 1)).foldlM (stepNn grid off x0 nmmin) (w0, (1 : K))
  (List.range' 1 nord).mapM (fun nu => do
    let v ← rdW w mord nord nu
    if nu ≤ coefSize then pure v else none)

/-- `dot_product(coef(1:n), u(s:s+n-1))`. -/
def dotProduct (coef u : List K) (s : Int) (n : Nat) : Option K :=
  (List.range n).foldlM (fun acc (k : Nat) => do
    let c ← rd coef (k : Int)
    let v ← rd1 u (s + (k : Int))
    pure (acc + c * v)) 0

/-- One assignment `call fdcoef(m,n,grid(i),grid(s),coef); du(i) = dot_product(coef(1:n), u(s:…))`,
fornberg.f90:70-71, 75-76 and 80-81 (all three slices have length `n = iaccuracy+1`). -/
def assign (m n : Nat) (grid u : List K) (i s : Int) (du : List K) : Option (List K) := do
  let x0 ← rd1 grid i
  let coef ← fdcoef iaccuracy_max m n x0 grid (s - 1)
  let v ← dotProduct coef u s n
  wr du (i - 1) v

/-- Result of `grid_derivative`: program `stop`, or the derivative array. -/
inductive Outcome (K : Type)
  | stop
  | ok (du : List K)

/-- `grid_derivative(iorder,iaccuracy,grid,ngrid,u,du)`, fornberg.f90:49-83, with `ngrid` the length
of the grid (as the f2py wrapper passes it) and `du` a fresh array of that length. -/
def gridDerivative (iorder iaccuracy : Nat) (grid u : List K) : Option (Outcome K) :=
  if iaccuracy > iaccuracy_max then some .stop
  else do
    let ngrid : Int := grid.length
    let m := iorder + 1
    let n := iaccuracy + 1
    let imid : Nat := if iaccuracy % 2 = 0 then iaccuracy / 2 else iaccuracy / 2 + 1
    let jend : Nat := if iaccuracy % 2 = 0 then imid else iaccuracy / 2
    let du0 := List.replicate grid.length (0 : K)
    let du1 ← forUp 1 ((imid : Int) + 1) du0 (fun i du => assign m n grid u i 1 du)
    let du2 ← forUp ((imid : Int) + 1) (ngrid - jend + 1) du1
      (fun i du => assign m n grid u i (i - imid) du)
    let du3 ← forUp (ngrid - jend + 1) (ngrid + 1) du2
      (fun i du => assign m n grid u i (ngrid - iaccuracy) du)
    pure (.ok du3)

end Verif.Fornberg
