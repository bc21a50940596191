import Verif.Load.Model
/-!
# What the claims on loading mean
-/
namespace Verif.Load
open Verif.Inlist (Str)

noncomputable section

/-- The stellar parameters stored in a GYRE file, and the gravitational constant. -/
structure Star where
  G : ℝ
  M : ℝ
  R : ℝ

/-- What the file of a mode says about the star. -/
def Star.Of (s : Star) (d : Dict V) : Prop :=
  get d "M_star".toList = some (.sc s.M) ∧ get d "R_star".toList = some (.sc s.R)

/-- The quantities that GYRE stores in units of the stellar parameters, and the unit. -/
def scalarUnits (s : Star) : List (List String × ℝ) :=
  [(["xi_r", "xi_h", "xi_r_ref", "xi_h_ref"], s.R),
   (["eul_phi", "eul_phi_ref"], s.G * s.M / s.R),
   (["deul_phi", "deul_phi_ref"], s.G * s.M / s.R ^ 2),
   (["Omega_rot", "Delta_p", "Delta_g"], Real.sqrt (s.G * s.M / s.R ^ 3)),
   (["E", "E_p", "E_g", "dE_dx"], s.M * s.R ^ 2),
   (["H", "W", "W_eps", "tau_ss", "tau_tr", "dW_dx", "dW_eps_dx", "dtau_ss_dx", "dtau_tr_dx"], s.G * s.M ^ 2 / s.R)]

/-- The quantities in units of another quantity of the file, point by point. -/
def profileUnits : List (String × String) :=
  [("eul_P", "P"), ("lag_P", "P"), ("eul_rho", "rho"), ("lag_rho", "rho"), ("eul_T", "T"), ("lag_T", "T"),
   ("lag_L", "L_star"), ("lag_L_ref", "L_star")]

/-- The numbers of a value, as complex numbers. -/
def vals : V → List ℂ
  | .sc x => [(x : ℂ)]
  | .ar xs => xs.map (fun x : ℝ => (x : ℂ))
  | .pair z => [⟨z.1, z.2⟩]
  | .pairs zs => zs.map fun z => ⟨z.1, z.2⟩
  | .cx zs => zs
  | .st _ => []

/-- The value of a unit at point `i`: a number is the same everywhere. -/
def unitAt (u : List ℂ) (i : ℕ) : ℂ := if u.length = 1 then u.getD 0 0 else u.getD i 0

/-- `w` is `v` in units of `u`. -/
def InUnits (w v : V) (u : List ℂ) : Prop :=
  vals w = (List.range (vals v).length).map fun i => (vals v).getD i 0 * unitAt u i

/-- The same value multiplied by a number. -/
def scaleV (c : ℝ) : V → V
  | .sc x => .sc (x * c)
  | .ar xs => .ar (xs.map (· * c))
  | .pair z => .pair (z.1 * c, z.2 * c)
  | .pairs zs => .pairs (zs.map fun z => (z.1 * c, z.2 * c))
  | .cx zs => .cx (zs.map (· * (c : ℂ)))
  | .st s => .st s

/-- Dimension: the powers of mass and length (those of time and temperature do not matter between the two systems). -/
abbrev Dim := ℤ × ℤ

/-- Value in SI units of a quantity of this dimension that is 1 in cgs units. -/
def siRatio (d : Dim) : ℝ := (1 / 1000) ^ d.1 * (1 / 100) ^ d.2

/-- The physical dimensions of the quantities in a loaded GYRE file that are not pure numbers, times, frequencies or
temperatures. -/
def gyreDims : List (List String × Dim) :=
  [(["M_star", "M_r"], (1, 0)), (["R_star", "xi_r_dim", "xi_h_dim", "xi_r_ref_dim", "xi_h_ref_dim"], (0, 1)),
   (["L_star", "lag_L_dim", "lag_L_ref_dim"], (1, 2)), (["P", "eul_P_dim", "lag_P_dim"], (1, -1)),
   (["rho", "eul_rho_dim", "lag_rho_dim"], (1, -3)), (["G"], (-1, 3)),
   (["eul_phi_dim", "eul_phi_ref_dim"], (0, 2)), (["deul_phi_dim", "deul_phi_ref_dim"], (0, 1)),
   (["E_dim", "E_p_dim", "E_g_dim", "dE_dx_dim"], (1, 2)),
   (["H_dim", "W_dim", "W_eps_dim", "tau_ss_dim", "tau_tr_dim", "dW_dx_dim", "dW_eps_dx_dim", "dtau_ss_dx_dim",
     "dtau_tr_dx_dim"], (1, 2)),
   (["lag_S_dim", "lag_S_ref_dim"], (0, 2))]

/-- The dimension of a quantity (specific entropy is energy per mass and temperature). -/
def dimOf (k : Str) : Dim := match gyreDims.find? fun e => k ∈ strs e.1 with
  | some e => e.2
  | none => (0, 0)

/-- Names of the two entropy perturbations. -/
def entropyNames : List Str := strs ["lag_S_dim", "lag_S_ref_dim"]

end

end Verif.Load
