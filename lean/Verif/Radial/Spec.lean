import Mathlib.Analysis.Calculus.Deriv.Basic
import Mathlib.Analysis.SpecialFunctions.Trigonometric.Basic
import Mathlib.Analysis.Real.Sqrt
/-!
# Specification: the radial dependence of an oscillation mode

Written from the oscillation equations (Lee 2012, appendix A; the GYRE equations for adiabatic modes in the
Cowling approximation with the traditional approximation of rotation), without the program.
-/
namespace Verif.Radial.Spec
noncomputable section

/-- A spherical star as functions of the fractional radius `x = r/R`. -/
structure Star where
  /-- total mass and radius -/
  M : ℝ
  R : ℝ
  /-- mass inside the radius, density, `V`, `Γ₁`, and the Schwarzschild discriminant `As` -/
  Mr : ℝ → ℝ
  ρ : ℝ → ℝ
  V : ℝ → ℝ
  Γ : ℝ → ℝ
  As : ℝ → ℝ

/-- `c₁ = (r/R)³ M / M_r`. -/
def Star.c1 (S : Star) (x : ℝ) : ℝ := x ^ 3 * S.M / S.Mr x
/-- `U = d ln M_r / d ln r`. -/
def Star.U (S : Star) (x : ℝ) : ℝ := x * deriv S.Mr x / S.Mr x

/-- Mass conservation at `x`: `dM_r/dr = 4 π r² ρ`, with `r = R x`. -/
def Star.Mass (S : Star) (x : ℝ) : Prop := HasDerivAt S.Mr (4 * Real.pi * (S.R * x) ^ 2 * S.ρ x * S.R) x

/-- The oscillation equations at `x` for the variables `y₁`, `y₂` of a mode with tidal eigenvalue `lam` and
dimensionless frequency `ω`; `li` is the degree with which the variables are scaled by a power of `x`. -/
structure Equations (S : Star) (li lam ω : ℝ) (y1 y2 : ℝ → ℝ) (x : ℝ) : Prop where
  d1 : ∃ d, HasDerivAt y1 d x ∧ x * d = (S.V x / S.Γ x - 1 - li) * y1 x +
    (lam / (S.c1 x * ω ^ 2) - S.V x / S.Γ x) * y2 x
  d2 : ∃ d, HasDerivAt y2 d x ∧ x * d = (S.c1 x * ω ^ 2 - S.As x) * y1 x + (S.As x - S.U x + 3 - li) * y2 x

/-- Radial displacement over the radius, `ξ_r/r = √(4π) x^(l-2) y₁`. -/
def xiR (l : ℤ) (y1 : ℝ → ℝ) (x : ℝ) : ℝ := √(4 * Real.pi) * x ^ (l - 2) * y1 x
/-- Horizontal displacement over the radius, `ξ_h/r = √(4π) x^(l-2) y₂ / (c₁ ω²)`. -/
def xiH (S : Star) (l : ℤ) (ω : ℝ) (y2 : ℝ → ℝ) (x : ℝ) : ℝ := √(4 * Real.pi) * x ^ (l - 2) * y2 x / (S.c1 x * ω ^ 2)

end
end Verif.Radial.Spec
