import Mathlib.LinearAlgebra.Matrix.Trace
import Mathlib.MeasureTheory.Integral.IntervalIntegral.Basic
import Mathlib.Analysis.SpecialFunctions.Trigonometric.Basic
import Mathlib.Analysis.Real.Sqrt
import Mathlib.Analysis.Calculus.Deriv.Basic
import Verif.NumInt.Spec
/-!
# Specification of the quadratic coupling coefficient

Written from the physics (Schenk et al. 2001, Lee 2012), without the program: the displacement of a mode
in spherical coordinates, its covariant gradient, the third-order energy density, and its volume
integral.  Indices `0, 1, 2` of vectors and tensors are the directions `r, θ, φ`.
-/
namespace Verif.Coupling.Spec
noncomputable section
open Complex Matrix

/-- A mode sampled on a radial grid (index `i`) and on a grid in `μ = cos θ` (index `j`).  Its displacement
has the components
`ξ_r = r z(r) Hr(θ) e^{imφ}`, `ξ_θ = r y(r) Ht(θ) e^{imφ}`, `ξ_φ = i r y(r) Hp(θ) e^{imφ}`. -/
structure Mode where
  /-- azimuthal order -/
  m : ℤ
  /-- `ξ_r / r` and `∂ξ_r/∂r`, radial part -/
  z : ℕ → ℝ
  dz : ℕ → ℝ
  /-- the same for the horizontal displacement -/
  y : ℕ → ℝ
  dy : ℕ → ℝ
  /-- radial part of the divergence (the angular part is `Hr`) -/
  div : ℕ → ℝ
  /-- Hough functions and their derivatives with respect to `θ` -/
  Hr : ℕ → ℝ
  Ht : ℕ → ℝ
  Hp : ℕ → ℝ
  dHr : ℕ → ℝ
  dHt : ℕ → ℝ
  dHp : ℕ → ℝ

/-- The covariant gradient `∇_a ξ_b` of a vector field in spherical coordinates `(r, θ, φ)`, in the orthonormal
frame: partial derivatives plus the connection terms. -/
def sphGrad (ξ : ℝ → ℝ → ℝ → Fin 3 → ℂ) (r θ φ : ℝ) : Matrix (Fin 3) (Fin 3) ℂ :=
  let s : ℂ := Real.sin θ
  let c : ℂ := Real.cos θ
  !![deriv (fun r => ξ r θ φ 0) r, deriv (fun r => ξ r θ φ 1) r, deriv (fun r => ξ r θ φ 2) r;
     (deriv (fun θ => ξ r θ φ 0) θ - ξ r θ φ 1) / r, (deriv (fun θ => ξ r θ φ 1) θ + ξ r θ φ 0) / r,
       deriv (fun θ => ξ r θ φ 2) θ / r;
     (deriv (fun φ => ξ r θ φ 0) φ / s - ξ r θ φ 2) / r, (deriv (fun φ => ξ r θ φ 1) φ / s - c / s * ξ r θ φ 2) / r,
       (deriv (fun φ => ξ r θ φ 2) φ / s + ξ r θ φ 0 + c / s * ξ r θ φ 1) / r]

/-- A displacement field at a point: `∇_a ξ_b` in the orthonormal frame, `ξ/r`, and the divergence. -/
structure Local where
  grad : Matrix (Fin 3) (Fin 3) ℂ
  disp : Fin 3 → ℂ
  div : ℂ

/-- Multiplication by a number. -/
def Local.smul (c : ℂ) (A : Local) : Local := ⟨c • A.grad, c • A.disp, c * A.div⟩
/-- The complex conjugate field. -/
def Local.conj (A : Local) : Local :=
  ⟨A.grad.map (starRingEnd ℂ), fun a => starRingEnd ℂ (A.disp a), starRingEnd ℂ A.div⟩

/-- The field of a mode at `φ = 0`.  The gradient is that of a vector field in spherical coordinates:
`∇_r ξ_b = ∂_r ξ_b`; `∇_θ ξ_r = (∂_θ ξ_r - ξ_θ)/r`, `∇_θ ξ_θ = (∂_θ ξ_θ + ξ_r)/r`, `∇_θ ξ_φ = ∂_θ ξ_φ / r`;
`∇_φ ξ_r = (∂_φ ξ_r / sin θ - ξ_φ)/r`, `∇_φ ξ_θ = (∂_φ ξ_θ - cos θ ξ_φ)/(r sin θ)`,
`∇_φ ξ_φ = (∂_φ ξ_φ + sin θ ξ_r + cos θ ξ_θ)/(r sin θ)` (see `C84_gradient`). -/
def Mode.at (M : Mode) (μ : ℕ → ℝ) (i j : ℕ) : Local :=
  let s : ℝ := √(1 - μ j ^ 2)
  { grad := !![(M.dz i * M.Hr j : ℂ), M.dy i * M.Ht j, I * (M.dy i * M.Hp j);
      M.z i * M.dHr j - M.y i * M.Ht j, M.y i * M.dHt j + M.z i * M.Hr j, I * (M.y i * M.dHp j);
      I * (M.z i * M.m * M.Hr j / s - M.y i * M.Hp j), I * (M.y i * (M.m * M.Ht j - μ j * M.Hp j) / s),
      M.z i * M.Hr j + M.y i * (μ j * M.Ht j - M.m * M.Hp j) / s]
    disp := ![(M.z i * M.Hr j : ℂ), M.y i * M.Ht j, I * (M.y i * M.Hp j)]
    div := M.div i * M.Hr j }

/-- The field at the azimuth `φ`, complex conjugated if wanted. -/
def Mode.field (M : Mode) (conj : Bool) (μ : ℕ → ℝ) (i j : ℕ) (φ : ℝ) : Local :=
  let A := (M.at μ i j).smul (exp (I * M.m * φ))
  if conj then A.conj else A

/-- The star on the radial grid. -/
structure Star where
  /-- fractional radius and total radius -/
  x : ℕ → ℝ
  R : ℝ
  /-- pressure, density, adiabatic exponent -/
  P : ℕ → ℝ
  ρ : ℕ → ℝ
  Γ : ℕ → ℝ
  /-- `(∂Γ₁/∂ ln ρ)` at constant entropy -/
  Γ' : ℕ → ℝ
  /-- first three radial derivatives of the gravitational potential -/
  g : ℕ → ℝ
  g' : ℕ → ℝ
  g'' : ℕ → ℝ

/-- Third covariant derivative of a spherically symmetric potential at radius `r`. -/
def grad3 (r g g' g'' : ℝ) (a b c : Fin 3) : ℝ :=
  if a = 0 ∧ b = 0 ∧ c = 0 then g''
  else if a = 0 ∧ b = c ∨ b = 0 ∧ a = c ∨ c = 0 ∧ a = b then g' / r - g / r ^ 2
  else 0

/-- The four parts of the third-order energy density of three displacement fields:
`½ P (Γ₁-1) (∇·ξ_A ∇ξ_B:∇ξ_C + cyclic)`, `½ P ((Γ₁-1)² + ∂Γ₁/∂lnρ) ∇·ξ_A ∇·ξ_B ∇·ξ_C`,
`½ P (tr ∇ξ_A∇ξ_B∇ξ_C + tr ∇ξ_A∇ξ_C∇ξ_B)` and `-½ ρ ξ_A ξ_B ξ_C ∇∇∇Φ`. -/
def density (S : Star) (i : ℕ) (A B C : Local) : Fin 4 → ℂ :=
  ![1 / 2 * (S.P i * (S.Γ i - 1)) * (A.div * (B.grad * C.grad).trace + B.div * (C.grad * A.grad).trace +
      C.div * (A.grad * B.grad).trace),
    1 / 2 * (S.P i * ((S.Γ i - 1) ^ 2 + S.Γ' i)) * (A.div * B.div * C.div),
    1 / 2 * S.P i * ((A.grad * B.grad * C.grad).trace + (A.grad * C.grad * B.grad).trace),
    -(1 / 2) * S.ρ i * ((S.x i * S.R : ℝ) : ℂ) ^ 3 * ∑ a, ∑ b, ∑ c,
      (grad3 (S.x i * S.R) (S.g i) (S.g' i) (S.g'' i) a b c : ℂ) * A.disp a * B.disp b * C.disp c]

/-- The angular quadrature of the program on `N` points: trapezoids that all have the first width (C49). -/
def angSum (N : ℕ) (μ : ℕ → ℝ) (f : ℕ → ℂ) : ℂ :=
  ∑ j ∈ Finset.range (N - 1), ((μ 1 - μ 0 : ℝ) : ℂ) * (f j + f (j + 1)) / 2

/-- The volume integral `∫ dV` over the first `n` shells, `dV = R³ x² dx dμ dφ`, trapezoidal in the radius. -/
def volume (S : Star) (n N : ℕ) (μ : ℕ → ℝ) (F : ℕ → ℕ → ℝ → ℂ) : ℂ :=
  ∫ φ in (0 : ℝ)..(2 * Real.pi), (S.R : ℂ) ^ 3 *
    NumInt.Spec.trapSum n (fun i => (S.x i : ℂ)) fun i => (S.x i : ℂ) ^ 2 * angSum N μ fun j => F i j φ

/-- The four parts of the coupling coefficient of three modes, some of them complex conjugated. -/
def kappa (S : Star) (n N : ℕ) (μ : ℕ → ℝ) (M : Fin 3 → Mode) (conj : Fin 3 → Bool) (t : Fin 4) : ℂ :=
  volume S n N μ fun i j φ => density S i ((M 0).field (conj 0) μ i j φ) ((M 1).field (conj 1) μ i j φ)
    ((M 2).field (conj 2) μ i j φ) t

end
end Verif.Coupling.Spec
