import Verif.Hough.Model
import Verif.Cheby.Props
/-!
# Specification of the Hough functions

Functions of `x = cos(theta)` on `(-1, 1)`, in closed form (Prat et al. 2019, appendix A; Lee & Saio
1997; Townsend 2003), without reference to grids, matrices or arrays.
-/
namespace Verif.Hough
noncomputable section
open Real Polynomial Verif.Cheby

/-- `f` is the radial function that the array `hr` samples: a polynomial in `x` whose parity is that
of `l - m` and whose degree is below the number of points, times `sqrt(1-x²)` if `m` is odd. -/
def Radial (c : Cfg) (f : ℝ → ℝ) (hr : Fin c.M → ℝ) : Prop :=
  ∃ p : ℝ[X], (∀ x, p.eval (-x) = (-1) ^ (c.l - c.m).natAbs * p.eval x) ∧ p.degree < (2 * c.M : ℕ) ∧
    f = (fun x => p.eval x * (if Odd c.m then √(1 - x ^ 2) else 1)) ∧ hr = fun i => f (c.mu i)

/-- Latitudinal function of Prat et al. for the radial function `f`. -/
def thetaPrat (nu : ℝ) (m : ℤ) (f : ℝ → ℝ) (x : ℝ) : ℝ :=
  (-(m : ℝ) * nu * x * f x - (1 - x ^ 2) * deriv f x) / ((1 - nu ^ 2 * x ^ 2) * √(1 - x ^ 2))

/-- Azimuthal function of Prat et al. for the radial function `f`. -/
def phiPrat (nu : ℝ) (m : ℤ) (f : ℝ → ℝ) (x : ℝ) : ℝ :=
  (m * f x + nu * x * (1 - x ^ 2) * deriv f x) / ((1 - nu ^ 2 * x ^ 2) * √(1 - x ^ 2))

/-- Latitudinal function for each definition. -/
def thetaFn (c : Cfg) (f : ℝ → ℝ) (x : ℝ) : ℝ :=
  match c.defn with
  | .prat => thetaPrat c.nu c.m f x
  | .leeSaioEquivalent => thetaPrat c.nu c.m f x
  | .townsend => √(1 - x ^ 2) * thetaPrat c.nu c.m f x

/-- Azimuthal function for each definition. -/
def phiFn (c : Cfg) (f : ℝ → ℝ) (x : ℝ) : ℝ :=
  match c.defn with
  | .prat => phiPrat c.nu c.m f x
  | .leeSaioEquivalent => -phiPrat c.nu c.m f x
  | .townsend => -(√(1 - x ^ 2) * phiPrat c.nu c.m f x)

end
end Verif.Hough
