import Mathlib.Data.Real.Basic
import Mathlib.Data.List.Basic
/-!
# Model of the assembly of a coupling-coefficient object

`super_coupling_coefficients.py` 480-860 and 1433-1475, `gyre-tools/gyre_cutter/gyre_cutter.py`,
`enumeration_models.py` (names of common quantities) and the part of the constructor in
`quadratic_coupling_coefficient_rotating.py` 341-390 that unpacks the dictionaries, brings everything to one radial
grid and cuts the ends.  Exact real arithmetic.  `none` is an exception.  Debug attributes are left out.
-/
namespace Verif.Assemble
noncomputable section
open Classical

/-- The values in the dictionaries: a Python number (`isinstance` of float or int), `None`, a real array, a complex array
stored by parts.  (Strings are treated by the program as numbers are, and are left out.) -/
inductive Val
  | num (v : ℝ)
  | null
  | arr (a : List ℝ)
  | cplx (re im : List ℝ)

/-- A dictionary, with its keys in order. -/
abbrev Dict := List (String × Val)
/-- `my_dict[k]`, `my_dict.get(k)`. -/
def Dict.get (d : Dict) (k : String) : Option Val := d.lookup k
/-- The attributes of the object. -/
abbrev Attrs := String → Option Val
/-- `setattr`. -/
def set (s : Attrs) (k : String) (v : Val) : Attrs := Function.update s k (some v)

/-- `GYREDetailFiles.retrieve_mode_independent_names` (enumeration_models.py 173-204, 211-226). -/
def commonMesa : List String :=
  ["M_star", "R_star", "L_star", "Delta_p", "Delta_g", "V_2", "As", "U", "c_1", "Gamma_1", "nabla", "nabla_ad", "dnabla_ad",
   "upsilon_r", "c_lum", "c_rad", "c_thn", "c_thk", "c_eps", "kap_rho", "kap_T", "eps_rho", "eps_T", "Omega_rot", "M_r", "P",
   "rho", "T", "x"]
/-- `PolytropeOscillationModelFiles.retrieve_mode_independent_names` (enumeration_models.py 495-503). -/
def commonPoly : List String := ["Omega_rot", "G", "M_star", "R_star", "Gamma_1"]
/-- `ModeData.get_common_attrs` (enumeration_mode_data.py 217-236). -/
def common (poly : Bool) : List String := if poly then commonPoly else commonMesa

/-- `_extract_common_info_dictionary` (super_coupling_coefficients.py 486-509). -/
def extractCommon (poly : Bool) (first : Dict) (s : Attrs) : Attrs :=
  (common poly).foldl (fun s a => set s ("_" ++ a) ((first.get a).getD .null)) s

/-- The attribute name of a quantity of mode `i` (line 532). -/
def modeName (k : String) (i : ℕ) : String := "_" ++ k ++ "_mode_" ++ toString i

/-- `_extract_mode_dependent_info_dictionary` (lines 512-538). -/
def extractMode (poly : Bool) (d : Dict) (i : ℕ) (s : Attrs) : Attrs :=
  d.foldl (fun s p => if p.1 ∈ common poly then s else set s (modeName p.1 i) p.2) s

/-- `_interp_list` (lines 551-580). -/
def interpList : List String :=
  ["y_1", "y_2", "y_3", "y_4", "xi_r", "xi_h", "eul_phi", "deul_phi", "lag_L", "eul_P", "eul_rho", "eul_T", "lag_P", "lag_rho",
   "lag_T", "xi_r_dim", "xi_h_dim", "eul_phi_dim", "deul_phi_dim", "lag_L_dim", "eul_P_dim", "eul_rho_dim", "eul_T_dim",
   "lag_P_dim", "lag_rho_dim", "lag_T_dim", "y_5", "y_6"]

/-- `np.interp` at one point: the interval is the last one that starts at or before the point; constant outside
the grid. -/
def interpAt (xp fp : List ℝ) (t : ℝ) : ℝ :=
  let n := xp.length
  let j := (xp.takeWhile (fun v => decide (v ≤ t))).length - 1
  if t < xp.getD 0 0 then fp.getD 0 0
  else if j + 1 < n then
    fp.getD j 0 + (fp.getD (j + 1) 0 - fp.getD j 0) / (xp.getD (j + 1) 0 - xp.getD j 0) * (t - xp.getD j 0)
  else fp.getD (n - 1) 0

/-- `np.interp`; raises for an empty grid and for arrays of different lengths. -/
def npInterp (xs xp fp : List ℝ) : Option (List ℝ) :=
  if xp = [] ∨ fp.length ≠ xp.length then none else some (xs.map (interpAt xp fp))

/-- One quantity in `_interpolator` (lines 693-713): complex arrays are interpolated by parts; anything else raises. -/
def interpVal (xs xp : List ℝ) : Val → Option Val
  | .arr a => (npInterp xs xp a).map .arr
  | .cplx re im => do
      let a ← npInterp xs xp re
      let b ← npInterp xs xp im
      pure (.cplx a b)
  | _ => none

/-- The loop in `_interpolator` (lines 693-713). -/
def interpLoop (xs xp : List ℝ) (i : ℕ) : Dict → Attrs → Option Attrs
  | [], s => some s
  | (k, v) :: d, s =>
    if k ∈ interpList then (interpVal xs xp v).bind fun w => interpLoop xs xp i d (set s (modeName k i) w)
    else interpLoop xs xp i d s

/-- `my_dict['x']` as a real array. -/
def gridOf (d : Dict) : Option (List ℝ) := match d.get "x" with
  | some (.arr x) => some x
  | _ => none
/-- `my_dict['n']`. -/
def sizeOf (d : Dict) : Option ℝ := match d.get "n" with
  | some (.num n) => some n
  | _ => none

/-- `list_dict[np.argmax(_lens)]` (lines 582-584): the first dictionary with the largest number. -/
def longest (n1 n2 n3 : ℝ) (d1 d2 d3 : Dict) : Dict :=
  if n2 ≤ n1 ∧ n3 ≤ n1 then d1 else if n3 ≤ n2 then d2 else d3

/-- `_interpolator` for one mode (lines 690-713). -/
def interpMode (xs : List ℝ) (d : Dict) (i : ℕ) (s : Attrs) : Option Attrs := do
  let xp ← gridOf d
  interpLoop xs xp i d (set s "_x" (.arr xs))

/-- `_interpolation_modes` (lines 541-593). -/
def interpolationModes (d1 d2 d3 : Dict) (s : Attrs) : Option Attrs := do
  let n1 ← sizeOf d1
  let n2 ← sizeOf d2
  let n3 ← sizeOf d3
  let xs ← gridOf (longest n1 n2 n3 d1 d2 d3)
  let s ← interpMode xs d1 1 s
  let s ← interpMode xs d2 2 s
  interpMode xs d3 3 s

/-- An attribute that is a real array. -/
def arrOf (s : Attrs) (k : String) : Option (List ℝ) := match s k with
  | some (.arr a) => some a
  | _ => none

/-- `.max()` of an array; raises for an empty one. -/
def maxOf : List ℝ → Option ℝ
  | [] => none
  | a :: t => some (t.foldl max a)

/-- Names that are not extracted for polytropes (lines 735-753). -/
def exclude (poly : Bool) : List String :=
  if poly then ["n", "n_r", "n_poly", "z", "theta", "dtheta", "drho", "drho2", "drho3", "dp", "dp2", "dp3", "dgravpot",
    "dgravpot2", "dgravpot3", "v", "surfgrav"] else []

/-- The attribute name of a structure profile. -/
def profileName (k : String) : String := "_" ++ k ++ "_profile"

/-- One item when the numbers of points agree (lines 773-786): MESA arrays are reversed.  `None` and complex arrays are not
in these dictionaries. -/
def sameItem (poly : Bool) : Val → Option Val
  | .num v => some (.num v)
  | .arr a => some (.arr (if poly then a else a.reverse))
  | v => if poly then some v else none

/-- The loop when the numbers of points agree (lines 771-786). -/
def sameLoop (poly : Bool) : Dict → Attrs → Option Attrs
  | [], s => some s
  | (k, v) :: d, s =>
    if k ∈ exclude poly then sameLoop poly d s
    else (sameItem poly v).bind fun w => sameLoop poly d (set s (profileName k) w)

/-- The loop when they do not (lines 794-810): numbers are stored without the suffix, and no name is excluded. -/
def diffLoop (poly : Bool) (xs nr : List ℝ) : Dict → Attrs → Option Attrs
  | [], s => some s
  | (k, v) :: d, s => match v with
    | .num c => diffLoop poly xs nr d (set s ("_" ++ k) (.num c))
    | .arr a => (npInterp xs nr (if poly then a else a.reverse)).bind fun w =>
        diffLoop poly xs nr d (set s (profileName k) (.arr w))
    | _ => none

/-- `_norm_rad` (lines 728-761). -/
def normRad (poly : Bool) (d : Dict) : Option (List ℝ) :=
  match d.get (if poly then "r" else "radius") with
  | some (.arr r) => (maxOf r).map fun m => if poly then r.map (· / m) else (r.map (· / m)).reverse
  | _ => none

/-- `_extract_additional_profile_info` (lines 716-810). -/
def extractAdditional (poly : Bool) (d : Dict) (s : Attrs) : Option Attrs := do
  let nr ← normRad poly d
  let xs ← arrOf s "_x"
  if nr.length = xs.length then sameLoop poly d s else diffLoop poly xs nr d s

/-- `a[1:-1]`, `a[:-1]`, `a[1:]`, `a[:]`. -/
def slice (cc cs : Bool) (a : List ℝ) : List ℝ :=
  let a := if cc then a.drop 1 else a
  if cs then a.dropLast else a

/-- `_set_normalization_factors` for one quantity (lines 813-838): the largest value inside the cuts, or the number itself. -/
def normFactor (cc cs : Bool) : Val → Option ℝ
  | .arr a => maxOf (slice cc cs a)
  | .num v => some v
  | _ => none

/-- `cutter` with `np.s_[1:]` or `np.s_[:-1]` (gyre_cutter.py 128-133). -/
def cut (f : List ℝ → List ℝ) : List String → Attrs → Option Attrs
  | [], s => some s
  | k :: ks, s => match s k with
    | some (.arr a) => cut f ks (set s k (.arr (f a)))
    | some (.cplx a b) => cut f ks (set s k (.cplx (f a) (f b)))
    | _ => none

/-- Both cuts of a list of attributes. -/
def cuts (cc cs : Bool) (ks : List String) (s : Attrs) : Option Attrs :=
  (if cc then cut (List.drop 1) ks s else some s).bind fun s => if cs then cut List.dropLast ks s else some s

/-- The lists of gyre_cutter.py 22-70. -/
def structureCuts : List String := ["_c_1", "_V_2", "_As", "_U"]
def polytropicCuts : List String :=
  ["_xi_h_mode_1", "_xi_h_mode_2", "_xi_h_mode_3", "_xi_r_mode_1", "_xi_r_mode_2", "_xi_r_mode_3", "_y_1_mode_1", "_y_1_mode_2",
   "_y_1_mode_3", "_y_2_mode_1", "_y_2_mode_2", "_y_2_mode_3"]
def mesaCuts : List String :=
  ["_deul_phi_mode_1", "_deul_phi_mode_2", "_deul_phi_mode_3", "_eul_phi_mode_1", "_eul_phi_mode_2", "_eul_phi_mode_3",
   "_xi_h_mode_1", "_xi_h_mode_2", "_xi_h_mode_3", "_xi_r_mode_1", "_xi_r_mode_2", "_xi_r_mode_3", "_y_1_mode_1", "_y_1_mode_2",
   "_gamma_1_adDer_profile", "_y_1_mode_3", "_y_2_mode_1", "_y_2_mode_2", "_y_2_mode_3"]
def preCuts : List String := ["_x", "_M_r", "_rho", "_P", "_Gamma_1", "_brunt_N2_profile"]
def preCutsPoly : List String :=
  ["_x", "_mr_profile", "_rho_profile", "_r_profile", "_p_profile", "_Gamma_1", "_brunt_n2_profile"]

/-- `_mode_structure_cuts` (lines 1455-1475): center first for both lists, then surface. -/
def modeCuts (poly cc cs : Bool) (s : Attrs) : Option Attrs :=
  let l := (if poly then polytropicCuts else mesaCuts)
  (if cc then (cut (List.drop 1) l s).bind (cut (List.drop 1) structureCuts) else some s).bind fun s =>
    if cs then (cut List.dropLast l s).bind (cut List.dropLast structureCuts) else some s

/-- Arithmetic of two arrays raises when their lengths differ, unless one of them has one element, which numpy repeats. -/
def sameLength (s : Attrs) (a b : String) : Option Unit := do
  let x ← arrOf s a
  let y ← arrOf s b
  if x.length = y.length ∨ x.length = 1 ∨ y.length = 1 then some () else none

/-- The constructor up to line 390 for MESA and GYRE files: `_extract_common_info_dictionary` (341), the modes (348-351),
`_interpolation_modes` (353), `_extract_additional_profile_info` (356), normalisation (383), `_pre_profile_cuts` and the first
array operation `_G * _M_r / (_x * _R_star) ** 2` of `_get_profiles_MESA_GYRE` (of which the rest is modelled in
`Verif.Struct`), and `_mode_structure_cuts` (390). -/
def assembleMesa (cc cs : Bool) (d1 d2 d3 add : Dict) : Option (Attrs × ℝ × ℝ) := do
  let s := extractCommon false d1 fun _ => none
  let s := extractMode false d3 3 (extractMode false d2 2 (extractMode false d1 1 s))
  let s ← interpolationModes d1 d2 d3 s
  let s ← extractAdditional false add s
  let p ← s "_P"
  let ρ ← s "_rho"
  let nP ← normFactor cc cs p
  let nρ ← normFactor cc cs ρ
  let g ← d1.get "G"
  let s := set s "_G" g
  let s ← cuts cc cs preCuts s
  sameLength s "_M_r" "_x"
  let s ← modeCuts false cc cs s
  pure (s, nP, nρ)

/-- The constructor up to line 390 for polytropes without analytic derivatives: normalisation by `_p0_profile` and
`_rho0_profile` (364-366), `_pre_profile_cuts`, the first array operation with the oscillation data (`_Gamma_1 * _p_profile`),
`_store_polytropic_structure_coefficients` (1433-1447), `_mode_structure_cuts`. -/
def assemblePoly (cc cs : Bool) (d1 d2 d3 add : Dict) : Option (Attrs × ℝ × ℝ) := do
  let s := extractCommon true d1 fun _ => none
  let s := extractMode true d3 3 (extractMode true d2 2 (extractMode true d1 1 s))
  let s ← interpolationModes d1 d2 d3 s
  let s ← extractAdditional true add s
  let p ← s "_p0_profile"
  let ρ ← s "_rho0_profile"
  let nP ← normFactor cc cs p
  let nρ ← normFactor cc cs ρ
  let s ← cuts cc cs preCutsPoly s
  let _ ← s "_G_profile"
  sameLength s "_Gamma_1" "_p_profile"
  let c1 ← arrOf s "_c1_profile"
  let v2 ← arrOf s "_v2_profile"
  let as ← arrOf s "_as_profile"
  let u ← arrOf s "_u_profile"
  let s := set (set (set (set s "_c_1" (.arr c1)) "_V_2" (.arr v2)) "_As" (.arr as)) "_U" (.arr u)
  let s ← modeCuts true cc cs s
  pure (s, nP, nρ)

end
end Verif.Assemble
