import Mathlib.Analysis.Real.Sqrt
import Mathlib.Analysis.SpecialFunctions.Trigonometric.Basic
/-!
# Model of the radial vectors of the coupling coefficients

`aesolver/aesolver/coupling_coefficients/coefficient_support_classes/coupling_coefficient_rotating.py`, lines
140-302, in exact real arithmetic (the program's arrays are complex when the eigenfunctions are; every factor
applied to them here is real).  Arrays with `n` entries are functions on `Fin n`.
-/
namespace Verif.Radial
noncomputable section

/-- The attributes that the methods read (coupling_coefficient_rotating.py 62-113, set by the superclass). -/
structure Obj (n : ℕ) where
  /-- `_x`: fractional radius -/
  x : Fin n → ℝ
  /-- `_V_2`, `_Gamma_1`, `_c_1`, `_As`, `_U` of the oscillation output -/
  V2 : Fin n → ℝ
  Gamma1 : Fin n → ℝ
  c1 : Fin n → ℝ
  As : Fin n → ℝ
  U : Fin n → ℝ
  /-- `_use_polytropic` selects `_rho_profile` instead of `_rho` -/
  polytropic : Bool
  rho : Fin n → ℝ
  rhoProfile : Fin n → ℝ
  /-- `_M_star`, `_R_star` -/
  Mstar : ℝ
  Rstar : ℝ

/-- What is read for one mode: `_y_1_mode_i`, `_y_2_mode_i`, `_l_list[i-1]`, `_lambda_mode_i[0]` and
`dimless_corot_omegas[i-1]`. -/
structure ModeIn (n : ℕ) where
  y1 : Fin n → ℝ
  y2 : Fin n → ℝ
  l : ℤ
  lambda : ℝ
  omega : ℝ

variable {n : ℕ} (o : Obj n) (M : ModeIn n)

/-- `_z_1_mode_i` (coupling_coefficient_rotating.py 146-152). -/
def z1 (i : Fin n) : ℝ := M.y1 i * o.x i ^ (M.l - 2) * √(4 * Real.pi)
/-- `_z_2_mode_i` (coupling_coefficient_rotating.py 153-159). -/
def z2 (i : Fin n) : ℝ := M.y2 i * o.x i ^ (M.l - 2) * √(4 * Real.pi)
/-- `_x_z_1_mode_i` (coupling_coefficient_rotating.py 161-165). -/
def xz1 (i : Fin n) : ℝ := o.x i * z1 o M i
/-- `_z_2_over_c_1_omega_mode_i` (coupling_coefficient_rotating.py 166-174). -/
def z2OverC1Omega (i : Fin n) : ℝ := z2 o M i / (o.c1 i * M.omega ^ 2)
/-- `_x_z_2_over_c_1_omega_mode_i` (coupling_coefficient_rotating.py 175-179). -/
def xz2OverC1Omega (i : Fin n) : ℝ := o.x i * z2OverC1Omega o M i

/-- The density used (coupling_coefficient_rotating.py 202-206). -/
def rhoUsed : Fin n → ℝ := if o.polytropic then o.rhoProfile else o.rho
/-- `_V_over_G1` (coupling_coefficient_rotating.py 211, 287). -/
def vOverG1 (i : Fin n) : ℝ := o.V2 i * o.x i ^ 2 / o.Gamma1 i

/-- `_rad_der_x_z_1_mode_i`, symbolic derivatives (coupling_coefficient_rotating.py 212-228). -/
def radDerXZ1 (i : Fin n) : ℝ :=
  (vOverG1 o i - 2) * z1 o M i + (M.lambda / (o.c1 i * M.omega ^ 2) - vOverG1 o i) * z2 o M i

/-- `_rad_der_x_z_2_c_1_omega_mode_i`, symbolic derivatives (coupling_coefficient_rotating.py 229-254). -/
def radDerXZ2 (i : Fin n) : ℝ :=
  (1 - o.As i / (o.c1 i * M.omega ^ 2)) * z1 o M i +
    ((o.As i - o.U i - 1) / (o.c1 i * M.omega ^ 2) +
      4 * Real.pi * rhoUsed o i / (o.Mstar / o.Rstar ^ 3 * M.omega ^ 2)) * z2 o M i

/-- `_rad_diverg_mode_i` (coupling_coefficient_rotating.py 283-297). -/
def radDiverg (i : Fin n) : ℝ := (z1 o M i - z2 o M i) * vOverG1 o i

end
end Verif.Radial
