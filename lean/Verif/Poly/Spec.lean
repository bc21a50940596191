import Verif.Poly.Model
import Mathlib.Analysis.Calculus.Deriv.Basic

/-!
# Specification: what a polytropic star is

Nothing here refers to the formulas of the code; `Sampled` ties the input arrays to a solution of
the Lane–Emden equation, `Star` is the boundary value problem of a polytropic star, and the
`…Match` predicates say what the reported profiles must be.
-/
namespace Verif.Poly

open Real Filter Topology

/-- `Th` (with derivative `Th'`) solves the Lane–Emden equation of index `n` up to its first zero
`zs`. -/
structure LaneEmden (n zs : ℝ) (Th Th' : ℝ → ℝ) : Prop where
  zs_pos : 0 < zs
  pos : ∀ z, 0 < z → z < zs → 0 < Th z
  deriv1 : ∀ z, 0 < z → z < zs → HasDerivAt Th (Th' z) z
  deriv2 : ∀ z, 0 < z → z < zs → HasDerivAt Th' (-(Th z ^ n) - 2 / z * Th' z) z
  centre : Th 0 = 1
  centre' : Th' 0 = 0
  centre_val : Tendsto Th (𝓝[>] 0) (𝓝 1)
  centre_lim : Tendsto Th' (𝓝[>] 0) (𝓝 0)
  surface : Th zs = 0
  surface_lim : Tendsto Th (𝓝[<] zs) (𝓝 0)
  slope : Th' zs < 0
  slope_lim : Tendsto Th' (𝓝[<] zs) (𝓝 (Th' zs))

/-- The input arrays sample a Lane–Emden solution on a grid that ends at the surface. -/
structure Sampled (s : Inp) (Th Th' : ℝ → ℝ) : Prop where
  n_pos : 0 < s.n
  G_pos : 0 < s.G
  mass_pos : 0 < s.mass
  radius_pos : 0 < s.radius
  grid_ne : s.grid ≠ []
  solves : LaneEmden s.n s.zs Th Th'
  theta : ∀ p ∈ s.grid, p.theta = Th p.z
  dtheta : ∀ p ∈ s.grid, p.dtheta = Th' p.z

/-- The equations of a polytropic star of index `n`, mass `M` and radius `R`: mass continuity,
hydrostatic equilibrium, the polytropic relation, and the conditions at the centre and surface. -/
structure Star (n G M R : ℝ) (rho P m : ℝ → ℝ) : Prop where
  rho_pos : ∀ r, 0 < r → r < R → 0 < rho r
  mass_continuity : ∀ r, 0 < r → r < R → HasDerivAt m (4 * π * r ^ 2 * rho r) r
  hydrostatic : ∀ r, 0 < r → r < R → HasDerivAt P (-(G * m r / r ^ 2) * rho r) r
  polytropic : ∃ K, 0 < K ∧ ∀ r, 0 < r → r < R → P r = K * rho r ^ (1 + 1 / n)
  mass_centre : Tendsto m (𝓝[>] 0) (𝓝 0)
  mass_surface : m R = M ∧ Tendsto m (𝓝[<] R) (𝓝 M)
  pressure_surface : Tendsto P (𝓝[<] R) (𝓝 0)

/-- `d1`, `d2`, `d3` are the first three derivatives of `f` at `r`. -/
def Derivs (f : ℝ → ℝ) (r d1 d2 d3 : ℝ) : Prop :=
  HasDerivAt f d1 r ∧ HasDerivAt (deriv f) d2 r ∧ HasDerivAt (deriv (deriv f)) d3 r

/-- The reported radius, density, pressure and enclosed mass are those of the star. -/
def ValuesMatch (rho P m : ℝ → ℝ) (o : Out) : Prop :=
  o.rho = rho o.r ∧ o.p = P o.r ∧ o.mr = m o.r

/-- The reported derivatives of density and pressure are derivatives with respect to radius. -/
def DerivsMatch (rho P : ℝ → ℝ) (o : Out) : Prop :=
  Derivs rho o.r o.drho o.drho2 o.drho3 ∧ Derivs P o.r o.dp o.dp2 o.dp3

/-- The reported gravity is `G m / r²` (both under `dgravpot` and `surfgrav`), and its reported
derivatives are derivatives with respect to radius. -/
def GravityMatch (G : ℝ) (m : ℝ → ℝ) (o : Out) : Prop :=
  o.dgravpot = G * m o.r / o.r ^ 2 ∧ o.surfgrav = G * m o.r / o.r ^ 2 ∧
  HasDerivAt (fun r => G * m r / r ^ 2) o.dgravpot2 o.r ∧
  HasDerivAt (deriv (fun r => G * m r / r ^ 2)) o.dgravpot3 o.r

/-- The reported dimensionless structure functions have their usual definitions (as in GYRE):
`V = -dlnP/dlnr`, `V_2 = V/x²`, `U = dlnm/dlnr`, `c1 = x³ M/m`,
`As = dlnP/dlnr/Γ1 - dlnρ/dlnr`, `N² = g As / r`. -/
def FactorsMatch (G M R : ℝ) (rho P m : ℝ → ℝ) (gamma1 : ℝ) (o : Out) : Prop :=
  let r := o.r
  let V := -(r * deriv P r / P r)
  let U := r * deriv m r / m r
  let As := r * deriv P r / P r / gamma1 - r * deriv rho r / rho r
  o.v = .fin V ∧ o.v2 = .fin (V / (r / R) ^ 2) ∧ o.u = .fin U ∧
  o.c1 = .fin ((r / R) ^ 3 * (M / m r)) ∧ o.as = .fin As ∧
  o.bruntN2 = .fin (G * m r / r ^ 2 * As / r)

end Verif.Poly
