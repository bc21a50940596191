import Mathlib.Data.Real.Basic
import Mathlib.Data.List.Infix
/-!
# Model of the debug properties of a coupling-coefficient object

`_add_debug_attribute` and `_fill_debug_attributes` (super_coupling_coefficients.py 595-646, 1478-1492), the places in the
construction of the profiles and of the Hough functions that call them, the enumerations in
`enumeration_files/enumerated_debug_properties.py` and `print_all_debug_properties`
(quadratic_coupling_coefficient_rotating.py 1957-1976).  Exact real arithmetic; complex arrays are left out.  `none` is an
uncaught exception.  The two ends in a record are views of the array in the program; nothing writes into these arrays (every
later step binds a new array), so that they are values here.
-/
namespace Verif.Debug
noncomputable section
open Classical

/-- The dictionary that is stored for an array (super_coupling_coefficients.py 625-630). -/
structure Record where
  max : ℝ
  min : ℝ
  surface : List ℝ
  core : List ℝ

/-- The values of attributes: `None` and other values without a method `max` (numbers, text, dictionaries), a NumPy number
(has `max`, cannot be sliced), an array of reals, an array of a structured type (`max` raises `TypeError`), a record. -/
inductive Val
  | null
  | plain
  | scalar (v : ℝ)
  | arr (a : List ℝ)
  | voids
  | record (r : Record)

/-- The attributes of the object. -/
abbrev Attrs := String → Option Val

/-- `setattr`. -/
def set (s : Attrs) (k : String) (v : Val) : Attrs := Function.update s k (some v)

/-- The suffix of a debug property (lines 610-618). -/
def suffix (normed poly : Bool) : String :=
  if poly && normed then "_max_min_normed_poly"
  else if normed then "_max_min_normed"
  else if poly then "_max_min_poly"
  else "_max_min"

/-- `_dbg_attr_name` (lines 610-618). -/
def recordName (attr : String) (normed poly : Bool) : String := attr ++ suffix normed poly

/-- The dictionary of an array (lines 625-630); `.max()` of an empty array raises `ValueError`, which is not caught. -/
def describe : List ℝ → Option Record
  | [] => none
  | x :: t => some ⟨t.foldl max x, t.foldl min x, (x :: t).drop ((x :: t).length - 3), (x :: t).take 3⟩

/-- `_add_debug_attribute` (lines 595-646): an attribute that does not exist gets the record `None`; a value that is not an
array gets no record. -/
def add (attr : String) (normed poly : Bool) (s : Attrs) : Option Attrs :=
  match s attr with
  | none => some (set s (recordName attr normed poly) .null)
  | some (.arr a) => (describe a).map fun r => set s (recordName attr normed poly) (.record r)
  | some _ => some s

/-- Calls of `_add_debug_attribute` one after another. -/
def adds (cs : List (String × Bool × Bool)) (s : Attrs) : Option Attrs :=
  cs.foldlM (fun s c => add c.1 c.2.1 c.2.2 s) s

/-- `_fill_debug_attributes` (lines 1478-1492). -/
def fill (ks : List String) (s : Attrs) : Attrs :=
  ks.foldl (fun s k => match s k with
    | none => set s k .null
    | some _ => s) s

/-- `DebugMinMaxSuperCouplingCoefficient` (enumerated_debug_properties.py 104-114). -/
def structureNames : List String :=
  ["dgravpot", "dgravpot2", "dgravpot3", "P", "dP", "dP2", "dP3", "rho", "drho", "drho2", "drho3"]

/-- `DebugMinMaxSuperCouplingCoefficient.get_attrs` (enumerated_debug_properties.py 117-141). -/
def structureList : List String :=
  structureNames.flatMap fun b => ["_" ++ b ++ "_max_min", "_" ++ b ++ "_max_min_normed", "_" ++ b ++ "_max_min_poly",
    "_" ++ b ++ "_max_min_normed_poly"]

/-- The calls in `_get_profiles_MESA_GYRE` (super_coupling_coefficients.py 922-1009), in order.  The program makes them while it
computes the profiles; it does not change a profile once a call has read it, so they are made together here. -/
def mesaCalls : List (String × Bool × Bool) :=
  [("_rho", false, false), ("_drho", false, false), ("_drho2", false, false), ("_drho3", false, false),
   ("_dgravpot", false, false), ("_dgravpot2", false, false), ("_dgravpot3", false, false),
   ("_P", false, false), ("_dP", false, false), ("_dP2", false, false), ("_dP3", false, false),
   ("_P", true, false), ("_rho", true, false), ("_drho", true, false), ("_drho2", true, false), ("_drho3", true, false),
   ("_dP", true, false), ("_dP2", true, false), ("_dP3", true, false)]

/-- The calls in `_get_profiles_polytrope_MESA_GYRE` (lines 1076-1176). -/
def polytropeCalls : List (String × Bool × Bool) :=
  [("_rho_profile", false, false), ("_drho", false, false), ("_drho2", false, false), ("_drho3", false, false),
   ("_dgravpot", false, false), ("_dgravpot2", false, false), ("_dgravpot3", false, false),
   ("_p_profile", false, false), ("_dP", false, false), ("_dP2", false, false), ("_dP3", false, false),
   ("_p_profile", true, false), ("_rho_profile", true, false), ("_drho", true, false), ("_drho2", true, false),
   ("_drho3", true, false), ("_dP", true, false), ("_dP2", true, false), ("_dP3", true, false)]

/-- The calls in `_get_profiles_polytrope_analytic` (lines 1295-1348). -/
def analyticCalls : List (String × Bool × Bool) :=
  [("_rho_profile", false, true), ("_drho", false, true), ("_drho2", false, true), ("_drho3", false, true),
   ("_dgravpot", false, true), ("_dgravpot2", false, true), ("_dgravpot3", false, true),
   ("_p_profile", false, true), ("_dP", false, true), ("_dP2", false, true), ("_dP3", false, true),
   ("_p_profile", true, true), ("_rho_profile", true, true), ("_drho", true, true), ("_drho2", true, true),
   ("_drho3", true, true), ("_dP", true, true), ("_dP2", true, true), ("_dP3", true, true)]

/-- The three kinds of models. -/
inductive Kind
  | mesa | polytrope | analytic
  deriving DecidableEq

/-- The calls for a kind of model (quadratic_coupling_coefficient_rotating.py 362-391 chooses the method). -/
def calls : Kind → List (String × Bool × Bool)
  | .mesa => mesaCalls
  | .polytrope => polytropeCalls
  | .analytic => analyticCalls

/-- The debug part of the profile methods (super_coupling_coefficients.py 997-1011, 1166-1178, 1338-1350): all calls, then the
names of the enumeration are filled up. -/
def profileDebug (k : Kind) (s : Attrs) : Option Attrs := (adds (calls k) s).map (fill structureList)

/-- The name of a quantity of a mode. -/
def modeName (b : String) (i : ℕ) : String := "_" ++ b ++ "_mode_" ++ toString i

/-- `HoughFunctionHandler.FUNCTION_LIST`, lower case (hough_function_handler.py 79-94, 106). -/
def functionNames : List String :=
  ["hr", "ht", "hp", "theta_der_hr", "theta_der_ht", "theta_der_hp", "theta_phi", "phi_phi", "mhr", "theta_der2_hr",
   "theta_der_hr_theta", "theta_der2_hr_theta", "theta_der_ht_theta", "theta_der_hp_theta"]

/-- `DebugMinMaxQuadraticCouplingCoefficientRotating` (enumerated_debug_properties.py 55-68). -/
def angularNames : List String :=
  ["hr", "ht", "hp", "theta_der_hr", "theta_der_ht", "theta_der_hp", "theta_phi", "phi_phi", "mhr", "theta_der2_hr",
   "theta_der_hr_theta", "theta_der2_hr_theta", "theta_der_ht_theta", "theta_der_hp_theta"]

/-- `DebugMinMaxQuadraticCouplingCoefficientRotating.get_mode_specific_attrs` (enumerated_debug_properties.py 71-96). -/
def angularList (i : ℕ) : List String :=
  angularNames.flatMap fun b => [modeName b i ++ "_max_min", modeName b i ++ "_max_min_normed"]

/-- One function of one mode in `_store_houghs` (quadratic_coupling_coefficient_rotating.py 614-618). -/
def storeHough (i : ℕ) (s : Attrs) (f : String × List ℝ) : Option Attrs :=
  add (modeName f.1 i) false false (set s (modeName f.1 i) (.arr f.2))

/-- `_store_houghs` for one mode (lines 614-618): the dictionary of the handler has the functions in the order of the list. -/
def storeHoughs (i : ℕ) (H : String → List ℝ) (s : Attrs) : Option Attrs :=
  (functionNames.map fun b => (b, H b)).foldlM (storeHough i) s

/-- One function of one mode in `_normalize_houghs` (lines 653-662). -/
def normHough (i : ℕ) (c : ℝ) (s : Attrs) (b : String) : Option Attrs :=
  match s (modeName b i) with
  | some (.arr a) => add (modeName b i) true false (set s (modeName b i) (.arr (a.map (· * c))))
  | _ => none

/-- `_normalize_houghs` for one mode with the factor `c` (lines 651-662). -/
def normHoughs (i : ℕ) (c : ℝ) (s : Attrs) : Option Attrs := functionNames.foldlM (normHough i c) s

/-- The debug properties of the Hough functions of the three modes: `_store_houghs` for all, the normalisation of all, then
`_fill_hough_mode_debug_attributes` (lines 593-618, 651-662, 1948-1955; called in 415-445). -/
def houghDebug (H : ℕ → String → List ℝ) (c : ℕ → ℝ) (s : Attrs) : Option Attrs := do
  let s ← storeHoughs 1 (H 1) s
  let s ← storeHoughs 2 (H 2) s
  let s ← storeHoughs 3 (H 3) s
  let s ← normHoughs 1 (c 1) s
  let s ← normHoughs 2 (c 2) s
  let s ← normHoughs 3 (c 3) s
  pure (fill (angularList 3) (fill (angularList 2) (fill (angularList 1) s)))

/-- `'…' in x` for strings. -/
def isIn (p x : String) : Bool := decide (p.toList <:+: x.toList)

/-- `_debug_dict` (lines 1965-1969): the attributes that are printed. -/
def printed (s : Attrs) : Attrs := fun k => if isIn "max_min" k && !isIn "_attr_list" k then s k else none

end
end Verif.Debug
