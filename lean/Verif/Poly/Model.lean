import Mathlib.Analysis.SpecialFunctions.Pow.Real
import Mathlib.Analysis.SpecialFunctions.Sqrt
import Mathlib.Analysis.Real.Pi.Bounds

/-!
# Analytic polytropes

Model of `aesolver/aesolver/polytropic_computations/poly_struct_comps.py` (class
`PolytropicAdditionalStructureInformation`, lines 30-515) and of the conversion table in
`polytropic_computations/enumeration_files/polytropic_struct_enumeration.py` (lines 27-110).

Floating-point numbers are real numbers extended with the two infinities and NaN (`F`), so that a
division by zero has the IEEE result; rounding and the sign of zero are not modelled.
-/
namespace Verif.Poly

open Real

/-- A float without rounding: a real number, an infinity (`neg` tells the sign) or NaN.
Models the numpy float64 scalars of poly_struct_comps.py; rounding, overflow and signed zeros are
left out. -/
inductive F where
  | fin (x : ℝ)
  | inf (neg : Bool)
  | nan

namespace F

/-- Sign of a non-zero float as "is negative". Auxiliary of the IEEE rules below
(numpy arithmetic in poly_struct_comps.py 142-515). -/
noncomputable def isNeg : F → Bool
  | fin x => decide (x < 0)
  | inf b => b
  | nan => false

/-- IEEE addition (numpy `+`, poly_struct_comps.py 142-515). -/
noncomputable def add : F → F → F
  | nan, _ => nan
  | _, nan => nan
  | fin a, fin b => fin (a + b)
  | inf a, fin _ => inf a
  | fin _, inf b => inf b
  | inf a, inf b => if a = b then inf a else nan

/-- IEEE negation (numpy unary `-`, poly_struct_comps.py 145-515). -/
noncomputable def neg : F → F
  | nan => nan
  | fin a => fin (-a)
  | inf a => inf (!a)

/-- IEEE multiplication; `inf * 0` is NaN (numpy `*`, poly_struct_comps.py 142-515). -/
noncomputable def mul : F → F → F
  | nan, _ => nan
  | _, nan => nan
  | fin a, fin b => fin (a * b)
  | inf a, fin b => if b = 0 then nan else inf (xor a (decide (b < 0)))
  | fin a, inf b => if a = 0 then nan else inf (xor (decide (a < 0)) b)
  | inf a, inf b => inf (xor a b)

/-- IEEE division; `0 / 0` is NaN and `a / 0` an infinity (numpy `/`,
poly_struct_comps.py 142-515).  A zero divisor counts as `+0`. -/
noncomputable def div : F → F → F
  | nan, _ => nan
  | _, nan => nan
  | fin a, fin b =>
      if b = 0 then (if a = 0 then nan else inf (decide (a < 0))) else fin (a / b)
  | inf a, fin b => inf (xor a (decide (b < 0)))
  | fin _, inf _ => fin 0
  | inf _, inf _ => nan

/-- `np.nan_to_num` (poly_struct_comps.py 210, 216): NaN becomes zero and an infinity the largest
float, here the parameter `big`. -/
noncomputable def nanToNum (big : ℝ) : F → ℝ
  | fin a => a
  | nan => 0
  | inf b => if b then -big else big

end F

/-- One grid point of the stored polytrope: poly_struct_comps.py 97-101
(`z`, `theta`, `dtheta`, `Gamma_1`). -/
structure Pt where
  z : ℝ
  theta : ℝ
  dtheta : ℝ
  gamma1 : ℝ

/-- The inputs of the constructor, poly_struct_comps.py 87-105: polytropic index, gravitational
constant, mass, radius, the grid, and the largest float used by `nan_to_num`. -/
structure Inp where
  n : ℝ
  G : ℝ
  mass : ℝ
  radius : ℝ
  grid : List Pt
  big : ℝ

/-- The last grid point, index `[-1]` in lines 98, 147 and 459.  Simplification: an empty grid
(IndexError in the code) gives the zero point. -/
noncomputable def Inp.last (s : Inp) : Pt := s.grid.getLastD ⟨0, 0, 0, 0⟩

/-- `_z_s`, poly_struct_comps.py 98. -/
noncomputable def Inp.zs (s : Inp) : ℝ := s.last.z

/-- `_store_auxiliary_mass`, poly_struct_comps.py 142-147, one element. -/
noncomputable def auxMass (p : Pt) : ℝ := -1 * p.z ^ (2 : ℝ) * p.dtheta

/-- `_aux_s`, poly_struct_comps.py 147. -/
noncomputable def Inp.auxS (s : Inp) : ℝ := auxMass s.last

/-- `_store_average_density`, poly_struct_comps.py 149-153. -/
noncomputable def Inp.avgRho (s : Inp) : ℝ := (3 / (4 * π)) * (s.mass / s.radius ^ (3 : ℝ))

/-- `_store_fractional_radius`, poly_struct_comps.py 155-157. -/
noncomputable def Inp.x (s : Inp) (p : Pt) : ℝ := p.z / s.zs

/-- `_compute_rho_zero`, poly_struct_comps.py 159-161. -/
noncomputable def Inp.rho0 (s : Inp) : ℝ := (s.avgRho / 3) * (s.zs ^ (3 : ℝ) / s.auxS)

/-- `_compute_p_zero`, poly_struct_comps.py 163-178; the `[0]` of line 176 only unwraps an array
of one element. -/
noncomputable def Inp.p0 (s : Inp) : ℝ :=
  let rat := s.rho0 / s.avgRho
  let nn := (s.zs ^ (1 - 3 / s.n) / (s.n + 1)) *
    ((4 * π) ^ (1 / s.n) * s.auxS ^ (1 / s.n - 1))
  let wn := nn * ((3 / (4 * π)) * rat) ^ (1 + 1 / s.n)
  wn * (s.G * s.mass ^ (2 : ℝ)) / s.radius ^ (4 : ℝ)

/-- `_compute_alpha_conversion_factor`, poly_struct_comps.py 180-185. -/
noncomputable def Inp.alpha (s : Inp) : ℝ :=
  sqrt ((s.p0 * (1 + s.n)) / (s.G * 4 * π * s.rho0 ^ (2 : ℝ)))

/-- `_compute_dtheta_2`, poly_struct_comps.py 208-212, with IEEE division. -/
noncomputable def Inp.dtheta2 (s : Inp) (p : Pt) : ℝ :=
  F.nanToNum s.big
    ((F.fin (-(p.theta ^ s.n))).add
      (((F.fin 2).div (.fin p.z)).mul (.fin p.dtheta)).neg)

/-- `_compute_dtheta_3`, poly_struct_comps.py 214-220, with IEEE division. -/
noncomputable def Inp.dtheta3 (s : Inp) (p : Pt) : ℝ :=
  F.nanToNum s.big
    ((((F.fin 2).div (.fin p.z)).mul (.fin (p.theta ^ s.n))).add
      (((F.fin (-s.n * p.theta ^ (s.n - 1))).add
        ((F.fin 6).div (.fin (p.z ^ (2 : ℝ))))).mul (.fin p.dtheta)))

/-- `_compute_rho`, poly_struct_comps.py 222-224. -/
noncomputable def Inp.rhoNorm (s : Inp) (p : Pt) : ℝ := p.theta ^ s.n

/-- `_compute_drho_dz`, poly_struct_comps.py 239-247, called with `n_1 = n - 1` (229-233). -/
noncomputable def Inp.drhoDz (s : Inp) (p : Pt) : ℝ := s.n * p.dtheta * p.theta ^ (s.n - 1)

/-- `_compute_drho_dz_2`, poly_struct_comps.py 249-262, with the exponents of 229-235. -/
noncomputable def Inp.drhoDz2 (s : Inp) (p : Pt) : ℝ :=
  s.n * ((s.n - 1) * p.theta ^ (s.n - 1 - 1) * p.dtheta ^ (2 : ℝ)
    + p.theta ^ (s.n - 1) * s.dtheta2 p)

/-- `_compute_drho_dz_3`, poly_struct_comps.py 264-285, with the exponents of 229-237. -/
noncomputable def Inp.drhoDz3 (s : Inp) (p : Pt) : ℝ :=
  s.n * ((s.n - 1) *
      ((s.n - 1 - 1) * p.theta ^ (s.n - 1 - 1 - 1) * p.dtheta ^ (3 : ℝ)
        + 3 * p.theta ^ (s.n - 1 - 1) * s.dtheta2 p * p.dtheta)
    + p.theta ^ (s.n - 1) * s.dtheta3 p)

/-- `_compute_p`, poly_struct_comps.py 287-289. -/
noncomputable def Inp.pNorm (s : Inp) (p : Pt) : ℝ := p.theta ^ (s.n + 1)

/-- `_compute_dp_dz`, poly_struct_comps.py 304-312, called with `n + 1` (294-298). -/
noncomputable def Inp.dpDz (s : Inp) (p : Pt) : ℝ := (s.n + 1) * p.theta ^ s.n * p.dtheta

/-- `_compute_dp_dz_2`, poly_struct_comps.py 314-328, called with `n + 1`, `n - 1` (300). -/
noncomputable def Inp.dpDz2 (s : Inp) (p : Pt) : ℝ :=
  (s.n + 1) * p.theta ^ (s.n - 1) * (s.n * p.dtheta ^ (2 : ℝ) + p.theta * s.dtheta2 p)

/-- `_compute_dp_dz_3`, poly_struct_comps.py 330-352, called with `n + 1`, `n - 1`, `n - 2`
(302). -/
noncomputable def Inp.dpDz3 (s : Inp) (p : Pt) : ℝ :=
  (s.n + 1) * p.theta ^ (s.n - 1 - 1) *
    ((s.n - 1) * s.n * p.dtheta ^ (3 : ℝ)
      + 3 * s.n * p.theta * p.dtheta * s.dtheta2 p
      + p.theta ^ (2 : ℝ) * s.dtheta3 p)

/-- `_compute_d_grav_pot`, poly_struct_comps.py 365-373, called with `n + 1` (357-359). -/
noncomputable def Inp.dgravDz (s : Inp) (p : Pt) : ℝ := -(s.n + 1) * p.dtheta

/-- `_compute_d_grav_pot_2`, poly_struct_comps.py 375-383. -/
noncomputable def Inp.dgravDz2 (s : Inp) (p : Pt) : ℝ := -(s.n + 1) * s.dtheta2 p

/-- `_compute_d_grav_pot_3`, poly_struct_comps.py 385-393. -/
noncomputable def Inp.dgravDz3 (s : Inp) (p : Pt) : ℝ := -(s.n + 1) * s.dtheta3 p

/-- `get_grav_pot_factor`, polytropic_struct_enumeration.py 69-70. -/
noncomputable def Inp.gravFactor (s : Inp) : ℝ := s.p0 / s.rho0

/-- `_convert_to_r_derivative`, poly_struct_comps.py 405-433: `alpha ** (-order) * der * factor`. -/
noncomputable def Inp.conv (s : Inp) (order : ℕ) (der factor : ℝ) : ℝ :=
  s.alpha ^ (-(order : ℝ)) * der * factor

/-- What `property_dict` (poly_struct_comps.py 128-140, names of polytropic_struct_enumeration.py
31-52) holds at one grid point.  The four structure factors that divide by quantities vanishing at
the centre are kept as floats with infinities and NaN. -/
structure Out where
  drho : ℝ
  drho2 : ℝ
  drho3 : ℝ
  dp : ℝ
  dp2 : ℝ
  dp3 : ℝ
  dgravpot : ℝ
  dgravpot2 : ℝ
  dgravpot3 : ℝ
  p : ℝ
  rho : ℝ
  r : ℝ
  v2 : F
  v : F
  u : F
  c1 : F
  as : F
  mr : ℝ
  surfgrav : ℝ
  bruntN2 : F

/-- `_dt_ratio`, poly_struct_comps.py 459.  Simplification: a vanishing last derivative (division
by zero for the whole profile) is left to Lean's convention; every theorem assumes it is negative. -/
noncomputable def Inp.dtRatio (s : Inp) (p : Pt) : ℝ := p.dtheta / s.last.dtheta

/-- `_dt_t_ratio`, poly_struct_comps.py 461. -/
noncomputable def dtTRatio (p : Pt) : F := (F.fin p.dtheta).div (.fin p.theta)

/-- `_compute_v_2`, poly_struct_comps.py 477-481. -/
noncomputable def Inp.v2 (s : Inp) (p : Pt) : F :=
  ((F.fin (-1 * (s.n + 1))).mul (dtTRatio p)).mul ((F.fin s.zs).div (.fin (s.x p)))

/-- `_compute_v`, poly_struct_comps.py 483-485. -/
noncomputable def Inp.v (s : Inp) (p : Pt) : F :=
  (F.fin (-p.z * (s.n + 1))).mul (dtTRatio p)

/-- `_compute_u`, poly_struct_comps.py 487-489. -/
noncomputable def Inp.u (s : Inp) (p : Pt) : F :=
  (F.fin (-p.z * p.theta ^ s.n)).div (.fin p.dtheta)

/-- `_compute_c1`, poly_struct_comps.py 491-493. -/
noncomputable def Inp.c1 (s : Inp) (p : Pt) : F := (F.fin (s.x p)).div (.fin (s.dtRatio p))

/-- `_compute_as`, poly_struct_comps.py 495-499. -/
noncomputable def Inp.as (s : Inp) (p : Pt) : F :=
  (s.v p).mul (.fin (s.n / (s.n + 1) - 1 / p.gamma1))

/-- `_compute_mr`, poly_struct_comps.py 501-503. -/
noncomputable def Inp.mr (s : Inp) (p : Pt) : ℝ := s.mass * s.dtRatio p * s.x p ^ (2 : ℝ)

/-- `_compute_g`, poly_struct_comps.py 505-509. -/
noncomputable def Inp.surfGrav (s : Inp) (p : Pt) : ℝ :=
  (s.G * s.mass / s.radius ^ (2 : ℝ)) * s.dtRatio p

/-- `_compute_buoyancy_freq`, poly_struct_comps.py 511-515. -/
noncomputable def Inp.brunt (s : Inp) (p : Pt) : F :=
  ((F.fin (s.surfGrav p)).mul (s.as p)).div (.fin (s.x p * s.radius))

/-- The profiles at one grid point: poly_struct_comps.py 118-126 with the conversion table of
polytropic_struct_enumeration.py 78-96 and the dimensioned profiles of 435-454. -/
noncomputable def Inp.point (s : Inp) (p : Pt) : Out where
  drho := s.conv 1 (s.drhoDz p) s.rho0
  drho2 := s.conv 2 (s.drhoDz2 p) s.rho0
  drho3 := s.conv 3 (s.drhoDz3 p) s.rho0
  dp := s.conv 1 (s.dpDz p) s.p0
  dp2 := s.conv 2 (s.dpDz2 p) s.p0
  dp3 := s.conv 3 (s.dpDz3 p) s.p0
  dgravpot := s.conv 1 (s.dgravDz p) s.gravFactor
  dgravpot2 := s.conv 2 (s.dgravDz2 p) s.gravFactor
  dgravpot3 := s.conv 3 (s.dgravDz3 p) s.gravFactor
  p := s.pNorm p * s.p0
  rho := s.rhoNorm p * s.rho0
  r := p.z * s.alpha
  v2 := s.v2 p
  v := s.v p
  u := s.u p
  c1 := s.c1 p
  as := s.as p
  mr := s.mr p
  surfgrav := s.surfGrav p
  bruntN2 := s.brunt p

/-- The arrays of `property_dict` (poly_struct_comps.py 128-140), one entry per grid point. -/
noncomputable def Inp.profiles (s : Inp) : List Out := s.grid.map s.point

end Verif.Poly
