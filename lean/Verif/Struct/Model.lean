import Mathlib.Analysis.SpecialFunctions.Trigonometric.Basic
/-!
# Model of the structure derivatives of the coupling coefficients

`super_coupling_coefficients.py` 860-1178: `_get_profiles_MESA_GYRE` and `_get_profiles_polytrope_MESA_GYRE`, in
exact real arithmetic.  The two methods are the same computation on attributes of different names; differences
are noted below.  Cuts (`_pre_profile_cuts`) are done before and are not part of this model.
-/
namespace Verif.Struct
noncomputable section

/-- Attributes that are read.  MESA: `_x*_R_star`, `_G`, `_M_r`, `_rho`, `_P`, `_Gamma_1`, `_brunt_N2_profile`;
polytrope: `_r_profile`, `_G_profile`, `_mr_profile`, `_rho_profile`, `_p_profile`, `_Gamma_1`,
`_brunt_n2_profile`. -/
structure In (n : ℕ) where
  r : Fin n → ℝ
  G : ℝ
  Mr : Fin n → ℝ
  rho : Fin n → ℝ
  P : Fin n → ℝ
  Gamma1 : Fin n → ℝ
  N2 : Fin n → ℝ
  /-- the gravitational constant in the third derivative: `_G` in both methods (super_coupling_coefficients.py 932
  and 1089), of the oscillation file -/
  G3 : ℝ
  /-- `_rho`, which the polytropic method differentiates when `use_brunt_def` is off (1057); `none` when the
  attribute does not exist -/
  rhoAlt : Option (Fin n → ℝ)
  /-- `_norm_P`, `_norm_rho` -/
  normP : ℝ
  normRho : ℝ
  /-- `_use_symbolic_derivative`, `use_brunt_def` -/
  symbolic : Bool
  brunt : Bool

/-- The attributes that are set. -/
structure Out (n : ℕ) where
  dg : Fin n → ℝ
  dg2 : Fin n → ℝ
  dg3 : Fin n → ℝ
  drho : Fin n → ℝ
  drho2 : Fin n → ℝ
  drho3 : Fin n → ℝ
  dP : Fin n → ℝ
  dP2 : Fin n → ℝ
  dP3 : Fin n → ℝ
  pNormed : Fin n → ℝ
  dPNormed : Fin n → ℝ
  dP2Normed : Fin n → ℝ
  dP3Normed : Fin n → ℝ
  rhoNormed : Fin n → ℝ
  drhoNormed : Fin n → ℝ
  drho2Normed : Fin n → ℝ
  drho3Normed : Fin n → ℝ

variable {n : ℕ}

/-- `_dgravpot` (super_coupling_coefficients.py 880, 1032-1034). -/
def dgravpot (a : In n) (i : Fin n) : ℝ := a.G * a.Mr i / a.r i ^ 2

/-- The density gradient from the buoyancy frequency (super_coupling_coefficients.py 894-900, 1046-1052). -/
def drhoBrunt (a : In n) (i : Fin n) : ℝ :=
  a.rho i * (-1 * a.rho i * dgravpot a i / (a.Gamma1 i * a.P i) - a.N2 i / dgravpot a i)

/-- `_drho`; `der x y` is the numerical derivative.  `none`: AttributeError
(super_coupling_coefficients.py 888-908, 1040-1068). -/
def drho (der : (Fin n → ℝ) → (Fin n → ℝ) → Fin n → ℝ) (a : In n) : Option (Fin n → ℝ) :=
  if a.symbolic then
    if a.brunt then some (drhoBrunt a) else a.rhoAlt.map (der a.r)
  else some (der a.r a.rho)

/-- The whole method (super_coupling_coefficients.py 879-999, 1031-1160). -/
def profiles (der : (Fin n → ℝ) → (Fin n → ℝ) → Fin n → ℝ) (a : In n) : Option (Out n) := do
  let dg := dgravpot a
  let d1 ← drho der a
  let d2 := der a.r d1
  let d3 := der a.r d2
  let dg2 := if a.symbolic then fun i => 4 * Real.pi * a.G * a.rho i - dg i * (2 / a.r i) else der a.r dg
  let dg3 := if a.symbolic then fun i => 4 * Real.pi * a.G3 * d1 i + 2 / a.r i * (dg i / a.r i - dg2 i)
    else der a.r dg2
  let dP := if a.symbolic then fun i => -dg i * a.rho i else der a.r a.P
  let dP2 := if a.symbolic then fun i => -dg2 i * a.rho i - dg i * d1 i else der a.r dP
  let dP3 := if a.symbolic then fun i => -dg3 i * a.rho i - 2 * dg2 i * d1 i - dg i * d2 i else der a.r dP2
  some
    { dg := dg, dg2 := dg2, dg3 := dg3, drho := d1, drho2 := d2, drho3 := d3, dP := dP, dP2 := dP2, dP3 := dP3
      pNormed := fun i => a.P i / a.normP, dPNormed := fun i => dP i / a.normP
      dP2Normed := fun i => dP2 i / a.normP, dP3Normed := fun i => dP3 i / a.normP
      rhoNormed := fun i => a.rho i / a.normRho, drhoNormed := fun i => d1 i / a.normRho
      drho2Normed := fun i => d2 i / a.normRho, drho3Normed := fun i => d3 i / a.normRho }

end
end Verif.Struct
