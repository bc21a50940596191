import Mathlib.Analysis.SpecialFunctions.Trigonometric.Deriv
import Mathlib.Data.Matrix.Mul
import Mathlib.LinearAlgebra.Matrix.Notation
import Mathlib.Analysis.Complex.Basic
/-!
# Specification: amplitude equations, fixed points and linear stability

Nothing here comes from the code: these are the equations of motion the code's results are about.
`ω` are the (positive) co-rotating mode frequencies, `γ` the linear driving/damping rates, `δ` the
frequency detuning, `η` the coupling coefficient.  Mode `0` is the sum-frequency mode ("parent").
-/
namespace Verif.Stab
open Real

/-- The three-mode amplitude equations `(Ȧ₁, Ȧ₂, Ȧ₃, Υ̇)` at the state `x = (A₁, A₂, A₃, Υ)`. -/
noncomputable def aeField (γ ω : Fin 3 → ℝ) (δ η : ℝ) (x : Fin 4 → ℝ) : Fin 4 → ℝ :=
  ![γ 0 * x 0 + 2 * η * ω 0 * x 1 * x 2 * sin (x 3),
    γ 1 * x 1 - 2 * η * ω 1 * x 0 * x 2 * sin (x 3),
    γ 2 * x 2 - 2 * η * ω 2 * x 0 * x 1 * sin (x 3),
    -δ + 2 * η * cos (x 3) *
      (ω 0 * x 1 * x 2 / x 0 - ω 1 * x 0 * x 2 / x 1 - ω 2 * x 0 * x 1 / x 2)]

/-- The two-mode (harmonic) amplitude equations `(Ȧ₁, Ȧ₂, Υ̇)` at `x = (A₁, A₂, Υ)`, for arbitrary
positive coupling strengths `k 0`, `k 1`. -/
noncomputable def harmField (γ k : Fin 2 → ℝ) (δ : ℝ) (x : Fin 3 → ℝ) : Fin 3 → ℝ :=
  ![γ 0 * x 0 + k 0 * x 1 * x 1 * sin (x 2),
    γ 1 * x 1 - k 1 * x 0 * x 1 * sin (x 2),
    -δ + cos (x 2) * (k 0 * x 1 * x 1 / x 0 - 2 * k 1 * x 0)]

/-- `J` is the Jacobian (matrix of partial derivatives) of `F` at `x`. -/
def IsJac {n : ℕ} (F : (Fin n → ℝ) → Fin n → ℝ) (x : Fin n → ℝ) (J : Matrix (Fin n) (Fin n) ℝ) : Prop :=
  ∀ i j, HasDerivAt (fun t => F (Function.update x j t) i) (J i j) (x j)

/-- `z` is a (complex) eigenvalue of the real matrix `J`. -/
def IsEig {n : ℕ} (J : Matrix (Fin n) (Fin n) ℝ) (z : ℂ) : Prop :=
  ∃ v : Fin n → ℂ, v ≠ 0 ∧ (J.map Complex.ofReal).mulVec v = fun i => z * v i

/-- Linear stability of the fixed point `x`: every eigenvalue of the Jacobian lies in the open left
half plane. -/
def LinStable {n : ℕ} (F : (Fin n → ℝ) → Fin n → ℝ) (x : Fin n → ℝ) : Prop :=
  ∃ J, IsJac F x J ∧ ∀ z, IsEig J z → z.re < 0

/-- Hyperbolicity as the checker's documentation defines it: no eigenvalue of the Jacobian has zero
real part. -/
def Hyperbolic {n : ℕ} (F : (Fin n → ℝ) → Fin n → ℝ) (x : Fin n → ℝ) : Prop :=
  ∃ J, IsJac F x J ∧ ∀ z, IsEig J z → z.re ≠ 0

/-- A fixed point of the three-mode system with all three modes excited. -/
def IsFP (γ ω : Fin 3 → ℝ) (δ η : ℝ) (x : Fin 4 → ℝ) : Prop :=
  0 < x 0 ∧ 0 < x 1 ∧ 0 < x 2 ∧ aeField γ ω δ η x = 0

/-- A fixed point of the two-mode system with both modes excited. -/
def IsHarmFP (γ k : Fin 2 → ℝ) (δ : ℝ) (x : Fin 3 → ℝ) : Prop :=
  0 < x 0 ∧ 0 < x 1 ∧ harmField γ k δ x = 0

end Verif.Stab
