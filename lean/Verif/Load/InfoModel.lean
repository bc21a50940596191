import Verif.Load.Model
import Verif.Opts.Props
/-!
# Model of the information folders and of the loaders that the solver makes

`aesolver/aesolver/read_load_info/read_info_dirs.py` (I below), `enumeration_files/enumeration_read.py` (J),
`aesolver/aesolver/solver/solver_base_classes/quadratic_solver.py` (S), `solver/quadratic_grid.py`, `quadratic_profile.py`,
`model_handling/load_models.py` (M), `ad_nad_comparer/comparer.py` (A).  Here the TOML format of the information; the
older format (I:202-263) is in `Folders.lean`.
-/
namespace Verif.Load
open Verif.Inlist (Str)
open Verif.Opts (Val Tbl find truthy)

/-- Values of options: of the document, or made into a tuple. -/
inductive IVal where
  | v (x : Val)
  | tuple (l : List Val)

/-- `x[k]`; KeyError or TypeError is `none`. -/
def sub (x : Val) (k : Str) : Option Val := match x with
  | .tbl t => find k t
  | _ => none

/-- `x[k1][k2]...`. -/
def subs (x : Val) (p : List String) : Option Val := p.foldlM (fun a k => sub a k.toList) x

/-- `tuple(x)`. -/
def asTuple : Val → Option IVal
  | .arr l => some (.tuple l)
  | .str s => some (.tuple (s.map fun c => .str [c]))
  | .tbl t => some (.tuple (t.map fun e => .str e.1))
  | _ => none

/-- One entry of the information dictionary: its key, where it is in the document, and where the flag is that asks for a tuple. -/
structure Info where
  key : String
  path : List String
  flag : Option (List String)

/-- The entries (I:274-341). -/
def infoItems : List Info :=
  [⟨"base_dir", ["information_folders", "MESA", "default", "base_dir"], none⟩,
   ⟨"mesa_output_dir", ["information_folders", "MESA", "default", "output_dir"], none⟩,
   ⟨"mesa_profile_substrings", ["information_folders", "MESA", "selection", "substrings"],
    some ["information_folders", "MESA", "selection", "substrings_to_tuple"]⟩,
   ⟨"mesa_suffix", ["information_folders", "MESA", "selection", "suffix"], none⟩,
   ⟨"gyre_base_dir", ["information_folders", "GYRE", "default", "base_dir"], none⟩,
   ⟨"gyre_output_dir", ["information_folders", "GYRE", "default", "output_dir"], none⟩,
   ⟨"gyre_detail_substring", ["information_folders", "GYRE", "selection", "detail_substrings"],
    some ["information_folders", "GYRE", "selection", "detail_substrings_to_tuple"]⟩,
   ⟨"gyre_summary_substring", ["information_folders", "GYRE", "selection", "summary_substring"], none⟩,
   ⟨"poly_base_dir", ["information_folders", "POLY", "structure", "default", "base_dir"], none⟩,
   ⟨"poly_struct_dir", ["information_folders", "POLY", "structure", "default", "output_dir"], none⟩,
   ⟨"poly_struct_substrings", ["information_folders", "POLY", "structure", "selection", "substrings"],
    some ["information_folders", "POLY", "structure", "selection", "substrings_to_tuple"]⟩,
   ⟨"poly_struct_suffix", ["information_folders", "POLY", "structure", "selection", "suffix"], none⟩,
   ⟨"poly_mode_base_dir", ["information_folders", "POLY", "modes", "default", "base_dir"], none⟩,
   ⟨"poly_mode_dir", ["information_folders", "POLY", "modes", "default", "output_dir"], none⟩,
   ⟨"poly_mode_substrings", ["information_folders", "POLY", "modes", "selection", "detail_substrings"],
    some ["information_folders", "POLY", "modes", "selection", "detail_substrings_to_tuple"]⟩,
   ⟨"poly_summary_substring", ["information_folders", "POLY", "modes", "selection", "summary_substring"], none⟩]

/-- The value of an entry (I:281-341). -/
def infoValue (doc : Val) (i : Info) : Option IVal := match i.flag with
  | none => (subs doc i.path).map .v
  | some f => (subs doc f).bind fun b => (subs doc i.path).bind fun x => if truthy b then asTuple x else some (.v x)

/-- The loop over the entries; a missing one raises KeyError. -/
def infoLoop (doc : Val) : Dict IVal → List Info → Option (Dict IVal)
  | d, [] => some d
  | d, i :: is => (infoValue doc i).bind fun x => infoLoop doc (put d i.key.toList x) is

/-- `_parse_toml_info_file` (I:262-346) on the adjusted document. -/
def infoDict (doc : Val) : Option (Dict IVal) := infoLoop doc [] infoItems

/-- `d.pop(k)`; KeyError is `none`. -/
def pop {α : Type} (d : Dict α) (k : String) : Option (Dict α) :=
  if d.any (fun e => e.1 == k.toList) then some (d.filter fun e => e.1 != k.toList) else none

def pops {α : Type} (d : Dict α) (ks : List String) : Option (Dict α) := ks.foldlM pop d

/-- The information dictionary of a solver (S:229-245). -/
def solverInfo (doc : Val) : Option (Dict IVal) := (infoDict doc).bind fun d => pops d ["gyre_base_dir", "gyre_output_dir"]

/-- An f-string with a string or `None`. -/
def showDir (base : Option Str) (path : Str) : Str := shown base ++ path ++ "/".toList

/-- The directories of the mode files (S:217-227); `pct` is the rotation rate as text. -/
structure ModeDirs where
  ad : Str
  nad : Option Str

def modeDirs (polytrope : Bool) (base : Option Str) (ad nad : Option Str) (pct : Str) : ModeDirs where
  ad := showDir base (ad.getD ("output_rot_".toList ++ pct))
  nad := if polytrope then none else some (showDir base (nad.getD ("output_nad_rot_".toList ++ pct)))

/-- `_generate_loading_kwargs` of the grid and profile solvers (quadratic_grid.py 130-137, quadratic_profile.py 706-717): a new
dictionary; `l`, `m`, `n` are the quantum numbers. -/
def loadingKwargs (info : Dict IVal) (l m n : IVal) : Dict IVal :=
  put (put (put (put info "infer_dir".toList (.v (.bool false))) "search_l".toList l) "search_m".toList m) "search_n".toList n

/-- Parameters of `ModelLoader` (M:128-154). -/
def loaderParams : List Str := strs ["base_dir", "mesa_output_dir", "gyre_output_dir", "infer_dir", "search_l", "search_m", "search_n",
  "gyre_detail_substring", "unit_system", "gyre_summary_substring", "mesa_suffix", "mesa_profile_substrings", "use_polytrope_data",
  "polytrope_model_output_dir", "polytrope_oscillation_output_dir", "polytrope_model_suffix", "polytrope_oscillation_substrings",
  "polytrope_model_substrings"]

/-- A call with keyword arguments: TypeError for a keyword given twice or unknown. -/
def callLoader (args : Dict IVal) : Option (Dict IVal) :=
  if (args.map (·.1)).Nodup ∧ ∀ k ∈ args.map (·.1), k ∈ loaderParams then some args else none

/-- `load_nonradial_mode_triad` for stars (S:388-411): the arguments of the loaders for adiabatic and non-adiabatic modes. -/
def starLoaders (info : Dict IVal) (dirs : ModeDirs) (l m n : IVal) : Option (Dict IVal × Dict IVal) :=
  (pops (loadingKwargs info l m n) ["poly_base_dir", "poly_struct_dir", "poly_struct_substrings", "poly_struct_suffix",
    "poly_mode_base_dir", "poly_mode_dir", "poly_mode_substrings", "poly_summary_substring"]).bind fun kw =>
  (callLoader (("gyre_output_dir".toList, .v (.str dirs.ad)) :: kw)).bind fun a =>
  (callLoader (("gyre_output_dir".toList, .v (match dirs.nad with
    | some s => .str s
    | none => .none)) :: kw)).map fun b => (a, b)

/-- The arguments for polytropes and the entries they are taken from (S:352-370). -/
def polyArgs : List (String × String) :=
  [("base_dir", "base_dir"), ("polytrope_model_output_dir", "poly_struct_dir"), ("polytrope_oscillation_output_dir", "poly_mode_dir"),
   ("infer_dir", "infer_dir"), ("search_l", "search_l"), ("search_m", "search_m"), ("search_n", "search_n"),
   ("polytrope_model_suffix", "poly_struct_suffix"), ("polytrope_model_substrings", "poly_struct_substrings"),
   ("polytrope_oscillation_substrings", "poly_mode_substrings")]

def gather {α : Type} (d : Dict α) : List (String × String) → Option (Dict α)
  | [] => some []
  | (a, k) :: r => (get d k.toList).bind fun x => (gather d r).map fun t => (a.toList, x) :: t

/-- `load_nonradial_mode_triad` for polytropes (S:350-371): the arguments of the loader. -/
def polyLoader (info : Dict IVal) (l m n : IVal) : Option (Dict IVal) :=
  (gather (loadingKwargs info l m n) polyArgs).bind fun d =>
  callLoader (d ++ [("use_polytrope_data".toList, .v (.bool true))])

/-- The loaders of a solver (S:217-245, 338-411): one for polytropes, two for stars. -/
def solverLoaders (poly : Bool) (doc : Val) (base ad nad : Option Str) (pct : Str) (l m n : IVal) : Option (List (Dict IVal)) :=
  (solverInfo doc).bind fun info =>
  if poly then (polyLoader info l m n).map fun a => [a]
  else (starLoaders info (modeDirs poly base ad nad pct) l m n).map fun p => [p.1, p.2]

/-- `gyre_comparison_info` (I:169-199, J: `GYRE_MODEL_COMPARISON_LIST`). -/
def comparisonInfo (doc : Val) : Option (Dict IVal) := (infoDict doc).map fun d =>
  d.filter fun e => e.1 ∈ strs ["base_dir", "mesa_output_dir", "mesa_profile_substrings", "mesa_suffix", "gyre_detail_substring",
    "gyre_summary_substring"]

/-- `load_info` (I:158-167, J: `GYRE_MODEL_LOAD_LIST`). -/
def loadInfo (doc : Val) : Option (Dict IVal) := (infoDict doc).map fun d =>
  d.filter fun e => e.1 ∈ strs ["base_dir", "mesa_output_dir", "mesa_profile_substrings", "mesa_suffix", "gyre_detail_substring",
    "gyre_summary_substring", "gyre_output_dir"]

/-- `AdNadComparer.load_modes` (A:96-114): the arguments of the two loaders; the information is that of the TOML reader (the comparer
itself always uses the older format, A:76-82). -/
def comparerLoaders (info : Dict IVal) (dirs : ModeDirs) (l m n : IVal) : Option (Dict IVal × Dict IVal) :=
  let kw := loadingKwargs info l m n
  (callLoader (("gyre_output_dir".toList, .v (.str dirs.ad)) :: kw)).bind fun a =>
  (callLoader (("gyre_output_dir".toList, .v (match dirs.nad with
    | some s => .str s
    | none => .none)) :: kw)).map fun b => (a, b)

/-- A directory argument: a string or `None`; other types are not modelled. -/
def dirArg (d : Dict IVal) (k : String) : Option (Option Str) := match get d k.toList with
  | none => some none
  | some (.v (.str s)) => some (some s)
  | some (.v .none) => some none
  | _ => none

/-- A flag; missing means the default `True` (M:133). -/
def flagArg (d : Dict IVal) (k : String) : Option Bool := match get d k.toList with
  | none => some true
  | some (.v x) => some (truthy x)
  | _ => none

/-- The directories of the loader made with these arguments (M:128-174). -/
def loaderDirsOf (ls : Str → Option (List Entry)) (a : Dict IVal) : Option Dirs := do
  let base ← dirArg a "base_dir"
  let mesa ← dirArg a "mesa_output_dir"
  let gyre ← dirArg a "gyre_output_dir"
  let pm ← dirArg a "polytrope_model_output_dir"
  let po ← dirArg a "polytrope_oscillation_output_dir"
  let infer ← flagArg a "infer_dir"
  loaderDirs ls base infer ⟨mesa, gyre, pm, po⟩

end Verif.Load
