import Mathlib.Data.Complex.Basic
import Mathlib.Analysis.SpecialFunctions.Pow.Real
import Verif.Opts.Model
/-!
# Model of the loading of stellar models: units, directories, information folders

`aesolver/aesolver/model_handling/load_models.py` (M below), `read_models.py` (R),
`model_handling/enumeration_files/enumeration_models.py` (E), `enumeration_dimensions.py` (D),
`num-tools/carr_conv/carr_conv.py` (C), `aesolver/aesolver/read_load_info/read_info_dirs.py` (I),
`aesolver/aesolver/solver/solver_base_classes/quadratic_solver.py` (S).

An exception that is raised, and `sys.exit`, are `none`.  Floating-point numbers are real numbers.  Which files are selected is
the subject of `Verif.Select`; here the data of the selected file are given.
-/
namespace Verif.Load
open Verif.Inlist (Str)

noncomputable section

/-! ### Data of a file -/

/-- The values that occur in a data dictionary: a number, an array of numbers, a scalar (`np.void`) and an array of the compound
type with the fields `re` and `im`, a complex array, and anything that cannot be multiplied (strings). -/
inductive V where
  | sc (x : ℝ)
  | ar (xs : List ℝ)
  | pair (z : ℝ × ℝ)
  | pairs (zs : List (ℝ × ℝ))
  | cx (zs : List ℂ)
  | st (s : Str)

/-- A dictionary in insertion order. -/
abbrev Dict (α : Type) := List (Str × α)

/-- `d.get(k)`. -/
def get {α : Type} (d : Dict α) (k : Str) : Option α := (d.find? fun e => e.1 == k).map (·.2)

/-- `d[k] = v`. -/
def put {α : Type} (d : Dict α) (k : Str) (v : α) : Dict α :=
  if d.any (fun e => e.1 == k) then d.map (fun e => if e.1 == k then (k, v) else e) else d ++ [(k, v)]

/-- Broadcasting of two one-dimensional arrays in a product. -/
def bcast {α β : Type} (f : α → β → γ) (xs : List α) (ys : List β) : Option (List γ) :=
  if xs.length = ys.length then some (List.zipWith f xs ys)
  else match xs, ys with
    | [x], ys => some (ys.map (f x))
    | xs, [y] => some (xs.map (f · y))
    | _, _ => none

/-- `v * w` of numpy for a real number or array `w`; products with compound values and strings raise. -/
def vmul : V → V → Option V
  | .sc a, .sc b => some (.sc (a * b))
  | .ar as, .sc b => some (.ar (as.map (· * b)))
  | .sc a, .ar bs => some (.ar (bs.map (a * ·)))
  | .ar as, .ar bs => (bcast (· * ·) as bs).map .ar
  | .cx zs, .sc b => some (.cx (zs.map (· * (b : ℂ))))
  | .cx zs, .ar bs => (bcast (fun z (b : ℝ) => z * (b : ℂ)) zs bs).map .cx
  | _, _ => none

/-- One complex number from the fields (C:28-29). -/
def toC (z : ℝ × ℝ) (f : ℝ) : ℂ := ⟨z.1 * f, z.2 * f⟩

/-- `re_im` (C:8-30): a scalar gives an array of one element; the product must have the shape of the result (one element is
broadcast); values without the fields `re` and `im` raise. -/
def reIm : V → V → Option V
  | .pair z, .sc f => some (.cx [toC z f])
  | .pair z, .ar [f] => some (.cx [toC z f])
  | .pairs zs, .sc f => some (.cx (zs.map (toC · f)))
  | .pairs zs, .ar fs =>
    if zs.length = fs.length then some (.cx (List.zipWith toC zs fs))
    else match fs with
      | [f] => some (.cx (zs.map (toC · f)))
      | _ => none
  | _, _ => none

/-! ### Unit tables -/

/-- A table of names and the factor for `'SI'` (`None` is `none`). -/
abbrev Table := List (Str × Option ℚ)

def strs (l : List String) : List Str := l.map (·.toList)
/-- Names with the entry `{'SI': None}`. -/
def plain (l : List String) : Table := (strs l).map fun k => (k, none)

/-- `GYREDetailFiles` (E:94-207), the converted quantities last (a dictionary; the order is of no consequence here). -/
def detailTable : Table :=
  plain ["n", "omega", "x", "y_1", "y_2", "y_3", "y_4", "y_5", "y_6", "freq", "freq_units", "freq_frame", "f_T", "f_g",
    "psi_T", "psi_g", "j", "l", "l_i", "m", "n_p", "n_g", "n_pg", "omega_int", "dzeta_dx", "Yt_1", "Yt_2", "I_0", "I_1",
    "prop_type", "x_ref", "xi_r_ref", "xi_h_ref", "eul_phi_ref", "deul_phi_ref", "lag_S_ref", "lag_L_ref", "xi_r",
    "xi_h", "eul_phi", "deul_phi", "lag_S", "lag_L", "eul_P", "eul_rho", "eul_T", "lag_P", "lag_rho", "lag_T", "eta",
    "E", "E_p", "E_g", "E_norm", "E_ratio", "H", "W", "W_eps", "tau_ss", "tau_tr", "dE_dx", "dW_dx", "dW_eps_dx",
    "dtau_ss_dx", "dtau_tr_dx", "alpha_0", "alpha_1", "domega_rot", "dfreq_rot", "beta", "dbeta_dx", "lambda", "Delta_p",
    "Delta_g", "V_2", "As", "U", "c_1", "Gamma_1", "nabla", "nabla_ad", "dnabla_ad", "upsilon_r", "c_lum", "c_rad",
    "c_thn", "c_thk", "c_eps", "kap_rho", "kap_T", "eps_rho", "eps_T", "Omega_rot", "T"] ++
  [("M_star".toList, some (1/1000)), ("R_star".toList, some (1/100)), ("L_star".toList, some (1/10000000)),
    ("M_r".toList, some (1/1000)), ("P".toList, some (1/10)), ("rho".toList, some 1000)]

/-- `MESAProfileFiles` (E:304-438), likewise. -/
def mesaTable : Table :=
  plain ["h1", "h2", "he3", "he4", "c12", "c13", "n14", "o16", "o17", "ne20", "ne22", "mg24", "al27", "si28", "s32", "ar36",
    "brunt_N2", "brunt_N2_structure_term", "brunt_N2_composition_term", "lamb_S", "lamb_S2", "hyeq_lhs", "hyeq_rhs", "x",
    "y", "z", "log_D_mix", "log_D_conv", "log_D_ovr", "log_D_minimum", "conv_mixing_type", "zone", "logT", "logRho",
    "luminosity", "velocity", "entropy", "csound", "mu", "q", "radius", "tau", "opacity", "eps_nuc", "non_nuc_neu",
    "log_conv_vel", "mass", "mmid", "grada", "gradT", "gradr", "pressure_scale_height", "center_h1", "center_he3",
    "center_he4", "center_c12", "center_n14", "center_o16", "center_ne20", "center_eta", "star_mass_h1", "star_mass_he3",
    "star_mass_he4", "star_mass_c12", "star_mass_n14", "star_mass_o16", "star_mass_ne20", "he_core_mass", "c_core_mass",
    "o_core_mass", "si_core_mass", "fe_core_mass", "neutron_rich_core_mass", "tau10_mass", "tau10_radius", "tau100_mass",
    "tau100_radius", "initial_z", "initial_mass", "photosphere_L", "photosphere_r", "Teff", "dynamic_time",
    "kh_timescale", "nuc_timescale", "power_nuc_burn", "power_h_burn", "power_he_burn", "power_neu", "model_number",
    "num_zones", "star_age", "time_step", "burn_min1", "burn_min2", "time_seconds", "version_number", "compiler",
    "build", "MESA_SDK_version", "date"] ++
  [("gamma_1_adDer".toList, some (1/1000)), ("mlt_mixing_length".toList, some (1/100)), ("pressure".toList, some (1/10)),
    ("grav".toList, some (1/100))]

/-- `PolytropeModelFiles` (E:446-457). -/
def polyModelTable : Table :=
  plain ["n", "n_r", "n_poly", "z_b", "Delta_b", "Gamma_1", "z", "theta", "dtheta"]

/-- `PolytropeOscillationModelFiles` (E:464-491). -/
def polyOscTable : Table :=
  plain ["l", "label", "m", "n", "n_g", "n_p", "n_pg", "l_i", "omega", "freq", "freq_frame", "freq_units", "xi_h", "xi_r",
    "eul_phi", "deul_phi", "y_1", "y_2", "y_3", "y_4", "Gamma_1", "x", "Omega_rot", "lambda"]

/-- `unit_conversions` (E:60-86): the factor of a name for a unit system; `_val.get(unit_system)` is `None` for every system but
`'SI'` (letters in exactly this case). -/
def factorFor (sys : Str) (o : Option ℚ) : Option ℚ := if sys = "SI".toList then o else none

/-- One converted value (E:25-39, 81-83): `factor * v`, or the value itself. -/
def convertOne (o : Option ℚ) (v : V) : Option V := match o with
  | none => some v
  | some q => vmul v (.sc (q : ℝ))

/-- `_unit_conversion` (M:460-492) for one dictionary; a name that is not in the table raises KeyError. -/
def unitConvert (t : Table) (sys : Str) : Dict V → Option (Dict V)
  | [] => some []
  | (k, v) :: d => do
    let o ← get t k
    let w ← convertOne (factorFor sys o) v
    let r ← unitConvert t sys d
    pure ((k, w) :: r)

/-! ### Dimensions -/

/-- The functions that give dimensional factors (D:97-254). -/
inductive Fac where
  | radius | potential | gravity | pressure | density | temperature | frequency | luminosity | inertia | energy
deriving DecidableEq

/-- A number stored under a name; GYRE stores the stellar parameters as scalars, other values are not modelled here. -/
def num (d : Dict V) (k : String) : Option ℝ := match get d k.toList with
  | some (.sc x) => some x
  | _ => none

/-- The factors (D:97-254). -/
def Fac.eval (d : Dict V) : Fac → Option V
  | .radius => get d "R_star".toList
  | .potential => do pure (.sc ((← num d "G") * (← num d "M_star") / (← num d "R_star")))
  | .gravity => do pure (.sc ((← num d "G") * (← num d "M_star") / (← num d "R_star") ^ 2))
  | .pressure => get d "P".toList
  | .density => get d "rho".toList
  | .temperature => get d "T".toList
  | .frequency => do pure (.sc (Real.sqrt ((← num d "G") * (← num d "M_star") / (← num d "R_star") ^ 3)))
  | .luminosity => get d "L_star".toList
  | .inertia => do pure (.sc ((← num d "M_star") * (← num d "R_star") ^ 2))
  | .energy => do pure (.sc ((← num d "G") * (← num d "M_star") ^ 2 / (← num d "R_star")))

/-- A class with dimension information (D:62-93, 258-348). -/
structure DimClass where
  facs : Dict Fac
  complex : List Str
  avoid : List Str

/-- `DimGyre` (D:258-348). -/
def dimGyre : DimClass where
  facs := [
    ("XI_R".toList, .radius), ("XI_H".toList, .radius), ("EUL_PHI".toList, .potential), ("DEUL_PHI".toList, .gravity),
    ("EUL_P".toList, .pressure), ("EUL_RHO".toList, .density), ("EUL_T".toList, .temperature),
    ("LAG_P".toList, .pressure), ("LAG_RHO".toList, .density), ("LAG_T".toList, .temperature),
    ("OMEGA_ROT".toList, .frequency), ("DELTA_P".toList, .frequency), ("DELTA_G".toList, .frequency),
    ("XI_R_REF".toList, .radius), ("XI_H_REF".toList, .radius), ("EUL_PHI_REF".toList, .potential),
    ("DEUL_PHI_REF".toList, .gravity), ("LAG_S_REF".toList, .radius), ("LAG_L_REF".toList, .luminosity),
    ("LAG_S".toList, .radius), ("LAG_L".toList, .luminosity), ("E".toList, .inertia), ("E_P".toList, .inertia),
    ("E_G".toList, .inertia), ("H".toList, .energy), ("W".toList, .energy), ("W_EPS".toList, .energy),
    ("TAU_SS".toList, .energy), ("TAU_TR".toList, .energy), ("DE_DX".toList, .inertia), ("DW_DX".toList, .energy),
    ("DW_EPS_DX".toList, .energy), ("DTAU_SS_DX".toList, .energy), ("DTAU_TR_DX".toList, .energy)]
  complex := strs [
    "xi_r", "xi_h", "eul_phi", "deul_phi", "eul_P", "eul_rho", "eul_T", "xi_r_ref", "lag_P", "lag_rho", "lag_T", "omega",
    "y_1", "y_2", "y_3", "y_4", "y_5", "y_6", "freq", "l_i", "lambda", "omega_int", "dzeta_dx", "Yt_1", "Yt_2", "I_0",
    "I_1", "xi_h_ref", "eul_phi_ref", "deul_phi_ref", "lag_S_ref", "lag_L_ref", "lag_S", "lag_S_ref", "dbeta_dx",
    "lag_L"]
  avoid := strs [
    "freq_units", "freq_frame", "n", "j", "l", "m", "n_p", "n_g", "n_pg", "prop_type"]

/-- `ReImPoly` (D:62-93): no factors. -/
def reImPoly : DimClass where
  facs := []
  complex := strs [
    "xi_r", "xi_h", "eul_phi", "deul_phi", "omega", "y_1", "y_2", "y_3", "y_4", "y_5", "y_6", "freq", "l_i", "lambda"]
  avoid := strs [
    "freq_units", "freq_frame", "n", "j", "l", "m", "n_p", "n_g", "n_pg", "label"]

/-- `str.upper` and `str.lower` for letters of ASCII. -/
def upper (s : Str) : Str := s.map Char.toUpper
def lower (s : Str) : Str := s.map Char.toLower

/-- The new value (D:52-55). -/
def dimVal (c : DimClass) (k : Str) (v f : V) : Option V := if k ∈ c.complex then reIm v f else vmul v f

/-- The factor and the name of the new entry (D:43-50). -/
def dimFac (c : DimClass) (d : Dict V) (k : Str) : Option (V × Str) := match get c.facs (upper k) with
  | some f => (f.eval d).map fun x => (x, k ++ "_dim".toList)
  | none => some (V.sc 1, k)

/-- The loop body D:41-55: the new entry, if any. A missing stellar parameter raises KeyError. -/
def dimOne (c : DimClass) (d : Dict V) (k : Str) (v : V) : Option (Option (Str × V)) :=
  if k ∈ c.avoid then some none
  else (dimFac c d k).bind fun p => (dimVal c k v p.1).map fun w => some (p.2, w)

/-- The entries of the loop, in order. -/
def dimAll (c : DimClass) (d : Dict V) : Dict V → Option (List (Str × V))
  | [] => some []
  | (k, v) :: r => do
    let o ← dimOne c d k v
    let es ← dimAll c d r
    pure (o.toList ++ es)

/-- `dimensionalize` (D:29-58). -/
def dimensionalize (c : DimClass) (d : Dict V) : Option (Dict V) :=
  (dimAll c d d).map fun es => es.foldl (fun a e => put a e.1 e.2) d

/-- The gravitational constant used (M:530-533); `gS` and `gC` are its values in the two systems. -/
def gFor (gS gC : ℝ) (sys : Str) : ℝ := if lower sys = "si".toList then gS else gC

/-- One GYRE detail file (M:586-597). -/
def loadDetail (gS gC : ℝ) (sys : Str) (d : Dict V) : Option (Dict V) := do
  let e ← unitConvert detailTable sys d
  dimensionalize dimGyre (put e "G".toList (.sc (gFor gS gC sys)))

/-- The MESA profile (M:620-624). -/
def loadMesa (sys : Str) (d : Dict V) : Option (Dict V) := unitConvert mesaTable sys d

/-- One polytrope oscillation file (M:714-719); no unit conversion. -/
def loadPolyOsc (gS gC : ℝ) (sys : Str) (mass radius : ℝ) (d : Dict V) : Option (Dict V) :=
  dimensionalize reImPoly (put (put (put d "G".toList (.sc (gFor gS gC sys))) "M_star".toList (.sc mass)) "R_star".toList (.sc radius))

/-- The polytrope model file (M:652-653): the constants the structure is computed from; mass and radius are handed on
(M:655-659). -/
def loadPolyModel (gS gC : ℝ) (sys : Str) (d : Dict V) : Dict V := put d "G".toList (.sc (gFor gS gC sys))

/-! ### Contents of a file -/

/-- `_hdf5_reader` and `_dat_reader` (R:123-168, 196-233): for each attribute of the table the data set (column), else the
attribute (header entry), else nothing. -/
def readFile {α : Type} (columns header : Str → Option α) (attrs : List Str) : Dict α :=
  attrs.foldl (fun d k => match columns k with
    | some v => put d k v
    | none => match header k with
      | some v => put d k v
      | none => d) []

/-! ### Directories -/

/-- The four directories of a loader. -/
structure Dirs where
  mesa : Option Str
  gyre : Option Str
  polyModel : Option Str
  polyOsc : Option Str

/-- An f-string shows `None` as the word. -/
def shown : Option Str → Str
  | none => "None".toList
  | some s => s

/-- `_init_dir_path` (M:287-310); `infer_subdir` is never given, so false. -/
def initDirPath (base sub : Option Str) : Option Str := match sub with
  | none => none
  | some s => if base.isSome then some s else some (shown base ++ s)

/-- `_initialize_dirs` (M:313-357). -/
def initDirs (base : Option Str) (d : Dirs) : Dirs :=
  ⟨initDirPath base d.mesa, initDirPath base d.gyre, initDirPath base d.polyModel, initDirPath base d.polyOsc⟩

/-- An entry of a directory listing. -/
structure Entry where
  name : Str
  isDir : Bool

/-- `DirEntry.path`: `os.path.join` of the directory and the name. -/
def joinPath (b n : Str) : Str := match b.getLast? with
  | none => n
  | some c => if c = '/' then b ++ n else b ++ '/' :: n

/-- The candidates (M:418-422 and the like): directories with the word in their name, in any case. -/
def candidates (word base : Str) (l : List Entry) : List Str :=
  (l.filter fun e => e.isDir && decide (word <:+: lower e.name)).map fun e => joinPath base e.name

/-- `_results_infer` (M:360-389): a single candidate is used. -/
def resultsInfer (cur : Option Str) (c : List Str) : Option Str := match c with
  | [p] => some p
  | _ => cur

/-- One of the four parts of `_infer_dirs` (M:416-457). -/
def inferOne (word base : Str) (l : List Entry) (cur : Option Str) : Option Str := match cur with
  | some s => some s
  | none => resultsInfer none (candidates word base l)

/-- `_infer_dirs` (M:392-457); `ls` lists the base directory and raises (`none`) if there is none. -/
def inferDirs (ls : Str → Option (List Entry)) (base : Option Str) (infer : Bool) (d : Dirs) : Option Dirs :=
  if infer && (d.mesa.isNone || d.gyre.isNone || d.polyModel.isNone || d.polyOsc.isNone) then
    match base with
    | none => none
    | some b => (ls b).map fun l =>
      ⟨inferOne "mesa".toList b l d.mesa, inferOne "gyre".toList b l d.gyre,
       inferOne "polytrope_model".toList b l d.polyModel, inferOne "polytrope_oscillation".toList b l d.polyOsc⟩
  else some d

/-- The directories of a new loader (M:156-174). -/
def loaderDirs (ls : Str → Option (List Entry)) (base : Option Str) (infer : Bool) (d : Dirs) : Option Dirs :=
  inferDirs ls base infer (initDirs base d)

/-- The directory that is listed when files are read (R:277): `os.scandir(None)` lists the working directory. -/
def scanned (dir : Option Str) : Str := dir.getD ".".toList

end

end Verif.Load
