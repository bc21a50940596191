import Verif.Assemble.Model
import Verif.Poly.Model
/-!
# Model of the assembly of a coupling-coefficient object for analytic polytropes

`super_coupling_coefficients.py` 1181-1340 (`_get_and_interpolate_if_needed`, `_get_profiles_polytrope_analytic`), the branch of
the constructor in `quadratic_coupling_coefficient_rotating.py` 360-393 that calls it, the structure dictionary it is given
(`load_models.py` 629-663 with `poly_struct_comps.py` 128-140 and `polytropic_struct_enumeration.py` 27-66).
Exact real arithmetic; `none` is an exception; debug attributes are left out.
-/
namespace Verif.Assemble
noncomputable section
open Classical

/-! ### The structure dictionary -/

/-- `d | e` for dictionaries, and `d[k] = v` for one item: keys of `d` keep their place, values of `e` win
(`_poly_mod |= ...`, load_models.py 652, 662). -/
def merge (d e : Dict) : Dict :=
  d.map (fun p => (p.1, (e.get p.1).getD p.2)) ++ e.filter (fun p => p.1 ∉ d.map Prod.fst)

/-- A float as a number.  `junk` stands for what is stored where the float is infinite or NaN: nothing in this model computes
with such values. -/
def num (junk : ℝ) : Poly.F → ℝ
  | .fin x => x
  | _ => junk

/-- `property_dict` (poly_struct_comps.py 128-140) with the names of polytropic_struct_enumeration.py 31-52, in lower case. -/
def propertyDict (junk : ℝ) (s : Poly.Inp) : Dict :=
  [("drho", .arr (s.profiles.map (·.drho))), ("drho2", .arr (s.profiles.map (·.drho2))), ("drho3", .arr (s.profiles.map (·.drho3))),
   ("dp", .arr (s.profiles.map (·.dp))), ("dp2", .arr (s.profiles.map (·.dp2))), ("dp3", .arr (s.profiles.map (·.dp3))),
   ("dgravpot", .arr (s.profiles.map (·.dgravpot))), ("dgravpot2", .arr (s.profiles.map (·.dgravpot2))),
   ("dgravpot3", .arr (s.profiles.map (·.dgravpot3))), ("p", .arr (s.profiles.map (·.p))), ("rho", .arr (s.profiles.map (·.rho))),
   ("r", .arr (s.profiles.map (·.r))), ("v2", .arr (s.profiles.map fun o => num junk o.v2)),
   ("v", .arr (s.profiles.map fun o => num junk o.v)), ("u", .arr (s.profiles.map fun o => num junk o.u)),
   ("c1", .arr (s.profiles.map fun o => num junk o.c1)), ("as", .arr (s.profiles.map fun o => num junk o.as)),
   ("mr", .arr (s.profiles.map (·.mr))), ("surfgrav", .arr (s.profiles.map (·.surfgrav))),
   ("brunt_n2", .arr (s.profiles.map fun o => num junk o.bruntN2)), ("p0", .num s.p0), ("rho0", .num s.rho0)]

/-- The four arrays of a polytrope file as points (poly_struct_comps.py 96-101). -/
def points : List ℝ → List ℝ → List ℝ → List ℝ → List Poly.Pt
  | z :: zs, t :: ts, d :: ds, g :: gs => ⟨z, t, d, g⟩ :: points zs ts ds gs
  | _, _, _, _ => []

/-- The constructor's reading of the file (poly_struct_comps.py 94-105).  `n_poly` is an array with one number (it is indexed in
line 176); longer ones, and arrays of different lengths, are refused here, as is an empty grid (`_z[-1]`). -/
def inpOf (big : ℝ) (file : Dict) (mass radius : ℝ) : Option Poly.Inp :=
  match file.get "n_poly", file.get "G", file.get "z", file.get "theta", file.get "dtheta", file.get "Gamma_1" with
  | some (.arr [n]), some (.num g), some (.arr z), some (.arr t), some (.arr d), some (.arr Γ) =>
    if z ≠ [] ∧ t.length = z.length ∧ d.length = z.length ∧ Γ.length = z.length then some ⟨n, g, mass, radius, points z t d Γ, big⟩
    else none
  | _, _, _, _, _, _ => none

/-- The dictionary of the one polytrope file with its additional entries (load_models.py 650-662): `G` is added, the additional
structure computed, and merged. -/
def loadPolytrope (junk big : ℝ) (file : Dict) (G mass radius : ℝ) : Option Dict :=
  let file := merge file [("G", .num G)]
  (inpOf big file mass radius).map fun s => merge file (propertyDict junk s)

/-! ### The derivatives -/

/-- The names in the dictionary and the attributes (super_coupling_coefficients.py 1253-1281, in order). -/
def derivArrays : List (String × String) :=
  [("dgravpot", "_dgravpot"), ("dgravpot2", "_dgravpot2"), ("dgravpot3", "_dgravpot3"), ("drho", "_drho"), ("drho2", "_drho2"),
   ("drho3", "_drho3"), ("dp", "_dP"), ("dp2", "_dP2"), ("dp3", "_dP3")]

/-- `_get_and_interpolate_if_needed` (lines 1181-1228).  With interpolation the truth value of `np.isnan(array)` is asked for, which
raises unless the array has one element; without, a missing name gives `None`. -/
def getOrInterp (interp : Bool) (xs nr : List ℝ) (add : Dict) (k : String) : Option Val :=
  if interp then match add.get k with
    | some (.arr a) => (npInterp xs nr a).bind fun w => if w.length = 1 then some (.arr w) else none
    | _ => none
  else some ((add.get k).getD .null)

/-- Lines 1253-1281. -/
def fill (interp : Bool) (xs nr : List ℝ) (add : Dict) : List (String × String) → Attrs → Option Attrs
  | [], s => some s
  | (k, a) :: l, s => (getOrInterp interp xs nr add k).bind fun v => fill interp xs nr add l (set s a v)

/-- `PROFILE_LOAD_CUTS_ANALYTIC_POLY` (gyre_cutter.py 76-95). -/
def analyticCuts : List String :=
  ["_x", "_mr_profile", "_rho_profile", "_r_profile", "_p_profile", "_Gamma_1", "_brunt_n2_profile", "_drho", "_drho2", "_drho3", "_dP",
   "_dP2", "_dP3", "_dgravpot", "_dgravpot2", "_dgravpot3"]

/-- Division by a scale: `None` is kept for the derivatives (`may`) and raises for the profiles themselves (lines 1317-1335). -/
def divVal (c : ℝ) (may : Bool) : Val → Option Val
  | .arr a => some (.arr (a.map (· / c)))
  | .cplx a b => some (.cplx (a.map (· / c)) (b.map (· / c)))
  | .num v => some (.num (v / c))
  | .null => if may then some .null else none

/-- Source, target, whether `None` is kept, whether the scale is that of the pressure (lines 1317-1335, in order). -/
def normList : List (String × String × Bool × Bool) :=
  [("_p_profile", "_P_normed", false, true), ("_dP", "_dP_normed", true, true), ("_dP2", "_dP2_normed", true, true),
   ("_dP3", "_dP3_normed", true, true), ("_rho_profile", "_rho_normed", false, false), ("_drho", "_drho_normed", true, false),
   ("_drho2", "_drho2_normed", true, false), ("_drho3", "_drho3_normed", true, false)]

/-- Lines 1317-1335. -/
def norms (nP nρ : ℝ) : List (String × String × Bool × Bool) → Attrs → Option Attrs
  | [], s => some s
  | (a, t, may, pr) :: l, s => do
    let v ← s a
    let w ← divVal (if pr then nP else nρ) may v
    norms nP nρ l (set s t w)

/-- An attribute that is a number. -/
def numOf (s : Attrs) (k : String) : Option ℝ := match s k with
  | some (.num v) => some v
  | _ => none

/-- `_get_profiles_polytrope_analytic` (lines 1231-1335). -/
def analyticProfiles (cc cs : Bool) (nP nρ : ℝ) (add : Dict) (s : Attrs) : Option Attrs := do
  let r ← arrOf s "_r_profile"
  let R ← numOf s "_R_star"
  let xs ← arrOf s "_x"
  let s ← fill (decide (r.length ≠ xs.length)) xs (r.map (· / R)) add derivArrays s
  let s ← cuts cc cs analyticCuts s
  norms nP nρ normList s

/-- The constructor up to line 390 for analytic polytropes, with the first array operation of oscillation and structure data
(`_V_2 * _x ** 2 / _Gamma_1`, coupling_coefficient_rotating.py 291). -/
def assembleAnalytic (cc cs : Bool) (d1 d2 d3 add : Dict) : Option (Attrs × ℝ × ℝ) := do
  let s := extractCommon true d1 fun _ => none
  let s := extractMode true d3 3 (extractMode true d2 2 (extractMode true d1 1 s))
  let s ← interpolationModes d1 d2 d3 s
  let s ← extractAdditional true add s
  let p ← s "_p0_profile"
  let ρ ← s "_rho0_profile"
  let nP ← normFactor cc cs p
  let nρ ← normFactor cc cs ρ
  let s ← analyticProfiles cc cs nP nρ add s
  let c1 ← arrOf s "_c1_profile"
  let v2 ← arrOf s "_v2_profile"
  let as ← arrOf s "_as_profile"
  let u ← arrOf s "_u_profile"
  let s := set (set (set (set s "_c_1" (.arr c1)) "_V_2" (.arr v2)) "_As" (.arr as)) "_U" (.arr u)
  let s ← modeCuts true cc cs s
  sameLength s "_V_2" "_Gamma_1"
  pure (s, nP, nρ)

end
end Verif.Assemble
