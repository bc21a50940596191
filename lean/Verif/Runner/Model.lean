import Mathlib.Data.Nat.Digits.Defs
import Mathlib.Data.Nat.Digits.Lemmas
import Verif.Opts.Model
/-!
# Model of the run scripts

`aesolver/aerunners/solve_quadratic.py` (S below), `plot_quadratic.py` (P), `analyze_quadratic.py` (A),
`aerunners/data_modules/utility_functions.py` (U), `util-tools/path_resolver/resolve_paths.py` (R),
`util-tools/generic_parser/generic_parser.py` (G), `util-tools/log_formatter/log_formatter.py` (L).

Strings are lists of characters.  Tuples of a document are kept as arrays.  The computations of the solver and the saver are
not part of this model: a run ends with the arguments with which they are called.
-/
namespace Verif.Runner
open Verif.Opts (Val Tbl Item Arg PathInfo getHa readDict readList find setKey truthy mode1)
open Verif.Inlist (Str)

/-- The exceptions (and `sys.exit`) that end a run. -/
inductive Err where
  | runtime | fileNotFound | group | attribute | type | key | exit
deriving DecidableEq

abbrev M := Except Err

/-! ### Numbers in words -/

def units : List String := ["", "one", "two", "three", "four", "five", "six", "seven", "eight", "nine"]
def teens : List String := ["", "eleven", "twelve", "thirteen", "fourteen", "fifteen", "sixteen", "seventeen", "eighteen", "nineteen"]
def tens : List String := ["", "ten", "twenty", "thirty", "forty", "fifty", "sixty", "seventy", "eighty", "ninety"]

/-- The loop body U:33-48 for one group of three digits. -/
def groupWords (g : ℕ) : List String :=
  let h := g / 100
  let t := g / 10 % 10
  let u := g % 10
  (if h ≥ 1 then [units.getD h "", "hundred"] else []) ++
  (if t > 1 then tens.getD h "" :: (if u ≥ 1 then [units.getD u ""] else [])
   else if t = 1 then (if u ≥ 1 then [teens.getD u ""] else [tens.getD t ""])
   else if u ≥ 1 then [units.getD u ""] else [])

/-- The words joined by `_convert_integer_to_count_string` (U:7-49) for a number that is not negative: the zero-filled decimal
string is cut into groups of three digits, which are the digits to the base 1000. -/
def countWords (n : ℕ) : List String :=
  if n = 0 then ["zero"] else (Nat.digits 1000 n).reverse.flatMap groupWords

/-! ### Which inlist -/

/-- The three scripts. -/
inductive Script where
  | solve | plot | analyze
deriving DecidableEq

/-- `check_save_file_name` (U:52-74). -/
def checkSaveFileName (argv : List Str) (pos : ℕ) : M Unit :=
  if argv.getD pos [] ≠ "--save_file_name".toList then .error .runtime else .ok ()

/-- File name and directory of the inlist (S:391-419, P:189-201, A:194-206). -/
def inlistFile (s : Script) (argv : List Str) : M (Str × Str) :=
  let custom : Str × Str := (argv.getD 1 [] ++ '.' :: argv.getD 2 [], argv.getD 3 [])
  let default : Str × Str := ("inlist.toml".toList, "./inlists/".toList)
  match s with
  | .solve =>
    if argv.length = 6 then (checkSaveFileName argv 4).map fun _ => custom
    else if argv.length = 3 then (checkSaveFileName argv 1).map fun _ => default
    else .error .runtime
  | _ => if argv.length = 4 then .ok custom else if argv.length = 1 then .ok default else .error .runtime

/-- A path: absolute or relative, and its components. -/
structure PurePath where
  abs : Bool
  parts : List Str
deriving DecidableEq

/-- Cut at the slashes. -/
def splitSlash : Str → List Str
  | [] => [[]]
  | c :: cs => if c = '/' then [] :: splitSlash cs else match splitSlash cs with
    | [] => [[c]]
    | w :: ws => (c :: w) :: ws

/-- `Path(string)`: empty components and single dots disappear. -/
def toPath (s : Str) : PurePath :=
  ⟨s.head? == some '/', (splitSlash s).filter fun w => w ≠ [] && w ≠ ['.']⟩

/-- `p / q`. -/
def join (p q : PurePath) : PurePath := if q.abs then q else ⟨p.abs, p.parts ++ q.parts⟩

/-- Removal of `..` components, as in `resolve` and `abspath` (no symbolic links). -/
def normalise : List Str → List Str → List Str
  | acc, [] => acc.reverse
  | acc, w :: ws => if w = ['.', '.'] then normalise acc.tail ws else normalise (w :: acc) ws

/-- `p.resolve()` in the working directory `cwd` (absolute, without dots): the components from the root. -/
def resolve (cwd : List Str) (p : PurePath) : List Str :=
  normalise [] (if p.abs then p.parts else cwd ++ p.parts)

/-- The files: which absolute paths exist. -/
structure FS where
  cwd : List Str
  present : List Str → Bool

/-- `os.path.dirname` of the script, as a path: everything before the last slash (R:23). -/
def dirname (s : Str) : Str := (s.reverse.dropWhile (· ≠ '/')).reverse

/-- `resolve_path_to_file` with the default run path `..` (R:26-76). -/
def resolveFile (fs : FS) (argv : List Str) (file dir : Str) : M (List Str) :=
  let p := toPath (dir ++ '/' :: file)
  if fs.present (resolve fs.cwd p) then .ok (resolve fs.cwd p)
  else
    let run : PurePath := ⟨true, resolve fs.cwd (toPath (dirname (argv.getD 0 [])))⟩
    let full := resolve fs.cwd (join (join run ⟨false, [['.', '.']]⟩) p)
    if fs.present full then .ok full else .error .fileNotFound

/-- `_get_path_to_inlist` (S:360-425), `get_path_to_inlist` (P:183-207, A:188-212). -/
def inlistPath (s : Script) (fs : FS) (argv : List Str) : M (List Str) := do
  let (file, dir) ← inlistFile s argv
  resolveFile fs argv file dir

/-! ### Parsers -/

/-- The name of the checkout directory that the parser of a script looks for (S:57, P:49, A:43). -/
def baseName : Script → Str
  | .solve => "AESolver".toList
  | _ => "amplitude_equations_solver".toList

/-- The methods defined in the class of the parser (S:52-357, P:44-181, A:38-186). -/
def classMethods : Script → List String
  | .solve => ["__init__", "_set_up_specific_argparser", "get_save_name", "_convert_toml_input_list_to_tuple", "read_toml_args"]
  | _ => ["__init__", "read_toml_args"]

/-- A registered command-line option: its flags, the attribute of the namespace, and whether it takes a value. -/
structure CliOpt where
  flags : List Str
  dest : Str
  takesValue : Bool

/-- `_set_up_generic_argparser_groups_arguments` (G:330-391). -/
def genericOpts : List CliOpt :=
  [⟨["-no_verbose".toList, "--no_verbose".toList], "no_verbose".toList, false⟩,
   ⟨["-debug".toList, "--debug".toList], "debug".toList, false⟩,
   ⟨["-nil".toList, "--no_inlist".toList], "no_inlist".toList, false⟩,
   ⟨["--inlist_name".toList], "inlist_name".toList, true⟩]

/-- What `_set_up_specific_argparser` of the solve parser registers (S:66-81). -/
def saveOpt : CliOpt := ⟨["--save_file_name".toList], "save_file_name".toList, true⟩

/-- The options of a parser whose class defines `methods` (G:78-79): the hook
`_set_up_specific_argparser_groups_arguments` does nothing (G:542-549) unless the class overrides it. -/
def parserOpts (methods : List String) : List CliOpt :=
  genericOpts ++ (if "_set_up_specific_argparser_groups_arguments" ∈ methods then [saveOpt] else [])

/-- The namespace: every registered attribute with its value; flags without a value hold `true`/`false`, the others the given
string or `None`.  The default of `inlist_name` is the inlist itself and is not kept here. -/
abbrev Namespace := List (Str × Val)

/-- `parse_known_args` (G:80) on the arguments after the script: unknown arguments are ignored, an option without its value
ends the program.  Abbreviated options, `--option=value` and `--` are not modelled. -/
def parseArgs (opts : List CliOpt) : Namespace → List Str → M Namespace
  | ns, [] => .ok ns
  | ns, a :: rest => match opts.find? (fun o => decide (a ∈ o.flags)) with
    | none => parseArgs opts ns rest
    | some o =>
      if o.takesValue then match rest with
        | [] => .error .exit
        | v :: rest' => if v.head? = some '-' then .error .exit else parseArgs opts (setKey ns o.dest (.str v)) rest'
      else parseArgs opts (setKey ns o.dest (.bool true)) rest

/-- The namespace before the arguments are read: the defaults of the registered options. -/
def defaults (opts : List CliOpt) : Namespace := opts.map fun o => (o.dest, if o.takesValue then Val.none else .bool false)

/-- The parser object: path information and namespace. -/
structure Parser where
  info : PathInfo
  ns : Namespace

/-- Is the path one of an existing file. -/
def PathInfo.present (fs : FS) (i : PathInfo) : Bool := fs.present (i.path.1 ++ [i.path.2])

/-- `GenericParser.__init__` (G:55-83) for the subclasses of the run scripts: the second initialisation mode fails, as base
directory and inlist name are None (S:59-60), so the first one must succeed. -/
def parserInit (base : Str) (methods : List String) (fs : FS) (inlist : List Str) (argv : List Str) : M Parser :=
  match mode1 base inlist.dropLast (inlist.getLast?.getD []) with
  | none => .error .group
  | some i =>
    if PathInfo.present fs i then
      (parseArgs (parserOpts methods) (defaults (parserOpts methods)) argv.tail).map fun ns => ⟨i, ns⟩
    else .error .exit

/-- The inlist that is read (G:386-391, 417-443): the value of `--inlist_name`, by default that of the path information. -/
def Parser.inlist (fs : FS) (p : Parser) : List Str :=
  match find "inlist_name".toList p.ns with
  | some (.str s) => resolve fs.cwd (toPath s)
  | _ => p.info.path.1 ++ [p.info.path.2]

/-- `_data_read_dictionary` (G:417-443): the namespace itself with `--no_inlist`. -/
def Parser.doc (fs : FS) (docs : List Str → Tbl) (p : Parser) : Tbl :=
  if truthy ((find "no_inlist".toList p.ns).getD .none) then p.ns else docs (p.inlist fs)

/-- `get_save_name` (S:83-91): an attribute of the namespace. -/
def getSaveName (p : Parser) : M Val :=
  match find "save_file_name".toList p.ns with
  | some v => .ok v
  | none => .error .attribute

/-! ### Reading the options -/

/-- A 3-tuple without negation. -/
def item (k : String) (p : List String) : Item := ⟨k.toList, p.map String.toList, some false⟩

/-- `my_mode_info_dict` (S:145-162). -/
def modeInfoItems : List Item :=
  [item "rot_pct" ["rotation", "rot_percent"], item "base_dir" ["GYRE_selection", "gyre_dir_path"],
   item "alternative_directory_path" ["GYRE_selection", "alternative", "directory_path"],
   item "alternative_file_name" ["GYRE_selection", "alternative", "file_name"],
   item "verbose" ["verbosity-debug", "verbose"], item "debug" ["verbosity-debug", "debug"]]
/-- `my_mode_poly_dict` (S:164-181). -/
def polyItems : List Item :=
  [item "rot_pct" ["rotation", "rot_percent"], item "base_dir" ["POLY_selection", "mode_path"],
   item "alternative_directory_path" ["POLY_selection", "alternative", "directory_path"],
   item "alternative_file_name" ["POLY_selection", "alternative", "file_name"],
   item "verbose" ["verbosity-debug", "verbose"], item "debug" ["verbosity-debug", "debug"]]
/-- A 2-tuple. -/
def item2 (k : String) (p : List String) : Item := ⟨k.toList, p.map String.toList, none⟩
/-- `my_mode_selection_dict` (S:183-192). -/
def selectionItems : List Item :=
  [item2 "driven_n_low" ["mode_info", "parent", "n", "low"], item2 "driven_n_high" ["mode_info", "parent", "n", "high"],
   item2 "damped_n_low1" ["mode_info", "daughter_1", "n", "low"], item2 "damped_n_high1" ["mode_info", "daughter_1", "n", "high"],
   item2 "damped_n_low2" ["mode_info", "daughter_2", "n", "low"], item2 "damped_n_high2" ["mode_info", "daughter_2", "n", "high"]]
/-- `my_mode_computation_info_dict` (S:201-236). -/
def computationInfoItems : List Item :=
  [item "adiabatic" ["coupling_coefficient", "adiabatic"], item "use_complex" ["coupling_coefficient", "use_complex"],
   item "use_symbolic_profiles" ["coupling_coefficient", "symbolic_profiles"],
   item "use_brunt_def" ["coupling_coefficient", "brunt_def_profiles"],
   item "use_rotating_formalism" ["rotation", "rotating_formalism"],
   item "terms_cc_conj" ["coupling_coefficient", "terms_cc_conj"],
   item "polytrope_comp" ["coupling_coefficient", "compute_for_polytrope"],
   item "analytic_polytrope" ["coupling_coefficient", "analytic_polytrope"]]
/-- `my_computation_dict` (S:238-261). -/
def computationItems : List Item :=
  [item "use_parallel" ["computation", "parallel_mode_coupling"], item "compute_grid" ["computation", "compute_grid_models"],
   item "compute_profile" ["computation", "compute_coefficient_profile"], item "progress_bars" ["computation", "display_progress"]]
/-- `my_save_dict` (S:263-278). -/
def saveItems : List Item :=
  [item "base_dir" ["saving", "solve", "base_dir"], item "save_dir" ["saving", "solve", "save_dir"],
   item "extra_specifier" ["saving", "solve", "extra_specifier"], item "initial_save_format" ["saving", "solve", "save_format"]]
/-- `my_poly_model_dict` (S:280-285). -/
def polyModelItems : List Item :=
  [item "polytrope_mass" ["POLY_model", "mass"], item "polytrope_radius" ["POLY_model", "radius"]]
/-- `my_ang_integ_dict` (S:287-315). -/
def angularItems : List Item :=
  [item "numerical_integration_method" ["computation", "integration_method"],
   item "use_cheby_integration" ["computation", "angular", "use_cheby"],
   item "cheby_order_multiplier" ["computation", "angular", "cheby_mul"],
   item "cheby_blow_up_protection" ["computation", "angular", "blow_up_protect"],
   item "cheby_blow_up_factor" ["computation", "angular", "blow_up_fac"]]
/-- `my_coupling_coefficient_selection_dict` (S:317-323). -/
def profileItems : List Item :=
  [item "parent_n" ["mode_info", "coupling", "parent", "n"], item "daughter_1_n" ["mode_info", "coupling", "daughter_1", "n"],
   item "daughter_2_n" ["mode_info", "coupling", "daughter_2", "n"]]
/-- `my_coupling_coefficient_profile_plot_dict` (S:331-336). -/
def profilePlotItems : List Item :=
  [item "view_kernels" ["plotting", "profile", "show_kernels"], item "view_term_by_term" ["plotting", "profile", "show_term_by_term"]]
/-- The paths of `mode_l` or `mode_m` (S:193-199, 324-329). -/
def quantumPaths (q : String) : List Arg :=
  ["parent", "daughter_1", "daughter_2"].map fun i => .path ["mode_info".toList, i.toList, q.toList]
/-- The list that ends the returned tuple (S:349-356). -/
def restPaths : List Arg :=
  [.path ["GYRE_selection".toList, "specifier".toList, "adiabatic".toList],
   .path ["GYRE_selection".toList, "specifier".toList, "nonadiabatic".toList],
   .path ["POLY_selection".toList, "specifier".toList, "modes".toList], .path ["verbosity-debug".toList, "get_debug_info".toList]]

/-- What `read_toml_args` of the solve parser returns (S:338-357). -/
structure SolveArgs where
  save : Tbl
  modeInfo : Tbl
  profileSel : Tbl
  profilePlot : Tbl
  modeSel : Tbl
  modeComp : Tbl
  comp : Tbl
  polySelect : Tbl
  polyModel : Tbl
  angular : Tbl
  ad : Val
  nad : Val
  polyModes : Val
  debugInfo : Val

/-- An exception of the readers. -/
def lift {α : Type} (e : Err) : Option α → M α
  | some a => .ok a
  | none => .error e

/-- `_convert_toml_input_list_to_tuple` (S:94-102): fails unless the entry is an array.  Tuples are kept as arrays, so the
document does not change. -/
def convertTuple (doc : Tbl) : M Tbl :=
  match find "coupling_coefficient".toList doc with
  | some (.tbl t) => match find "terms_cc_conj".toList t with
    | some (.arr _) => .ok doc
    | some _ => .error .type
    | none => .error .key
  | some _ => .error .type
  | none => .error .key

/-- `read_toml_args` (S:105-357). -/
def readToml (doc : Tbl) : M SolveArgs := do
  let doc ← convertTuple doc
  let d (is : List Item) : M Tbl := lift .type (readDict (.tbl doc) is)
  let l (as : List Arg) : M (List Val) := lift .type (readList (.tbl doc) as)
  let modeInfo ← d modeInfoItems
  let polySelect ← d polyItems
  let modeSel ← d selectionItems
  let ls ← l (quantumPaths "l")
  let ms ← l (quantumPaths "m")
  let modeSel := setKey (setKey modeSel "mode_l".toList (.arr ls)) "mode_m".toList (.arr ms)
  let modeComp ← d computationInfoItems
  let comp ← d computationItems
  let save ← d saveItems
  let polyModel ← d polyModelItems
  let angular ← d angularItems
  let profileSel ← d profileItems
  let ls ← l (quantumPaths "l")
  let ms ← l (quantumPaths "m")
  let profileSel := setKey (setKey profileSel "mode_l".toList (.arr ls)) "mode_m".toList (.arr ms)
  let profilePlot ← d profilePlotItems
  let rest ← l restPaths
  match rest with
  | [ad, nad, polyModes, debugInfo] =>
    .ok ⟨save, modeInfo, profileSel, profilePlot, modeSel, modeComp, comp, polySelect, polyModel, angular, ad, nad, polyModes, debugInfo⟩
  | _ => .error .type

/-- `read_args` and the unpacking of its result (G:535-540, S:480-495): the reader of other inlists returns None
(G:551-558; not overridden), which cannot be unpacked. -/
def readArgs (i : PathInfo) (doc : Tbl) : M SolveArgs :=
  if i.suffix = "toml".toList then readToml doc else .error .type

/-! ### Calls -/

/-- `adjust_root_logger_level` (L:30-58): the new level of the root logger (the default is 20, INFO) and the dictionary
without the two entries. -/
def adjustLogger (level : ℕ) (d : Tbl) : M (ℕ × Tbl) :=
  match find "debug".toList d, find "verbose".toList d with
  | some dbg, some vb =>
    .ok (if truthy dbg then 10 else if !truthy vb then 30 else level,
      d.filter fun e => e.1 ≠ "debug".toList && e.1 ≠ "verbose".toList)
  | _, _ => .error .key

/-- Parameters of `QuadraticAESolver.__init__` that both solvers have (quadratic_grid.py 45, quadratic_profile.py 70), besides
`sys_args`; all have defaults. -/
def solverParams : List Str :=
  ["called_from_pytest", "pytest_path", "rot_pct", "use_complex", "adiabatic", "use_rotating_formalism", "base_dir",
   "alternative_directory_path", "alternative_file_name", "use_symbolic_profiles", "use_brunt_def", "nr_omp_threads",
   "use_parallel", "ld_function", "numerical_integration_method", "use_cheby_integration", "cheby_order_multiplier",
   "cheby_blow_up_protection", "cheby_blow_up_factor", "stationary_solving", "ad_path", "nad_path", "inlist_path", "toml_use",
   "get_debug_info", "terms_cc_conj", "polytrope_comp", "analytic_polytrope", "polytrope_mass", "polytrope_radius",
   "progress_bars"].map String.toList
/-- Parameters of `QuadraticAEGridSolver` (quadratic_grid.py 45). -/
def gridParams : List Str := "mode_selection_dict".toList :: solverParams
/-- Parameters of `QuadraticAEProfileSolver` (quadratic_profile.py 70). -/
def profileParams : List Str :=
  ["cc_profile_selection_dict".toList, "save_name".toList, "view_term_by_term".toList, "view_kernels".toList] ++ solverParams

/-- A call with keyword arguments: TypeError for a keyword given twice or unknown. -/
def call (params : List Str) (args : Tbl) : M Tbl :=
  if (args.map (·.1)).Nodup ∧ ∀ k ∈ args.map (·.1), k ∈ params then .ok args else .error .type

/-- What is computed: the arguments of the solver. -/
inductive Job where
  | grid (args : Tbl)
  | profile (args : Tbl)

/-- A dictionary entry of the computation options; all keys are there. -/
def entry (d : Tbl) (k : String) : Val := (find k.toList d).getD .none

/-- `_perform_computations` (S:507-584) up to the call of the solver; `path` is `inlist_path` (G:85-94), always given as the
default. -/
def perform (a : SolveArgs) (path : Val) (useToml : Bool) (fsName : Val) : M Job :=
  let common : Tbl := [("inlist_path".toList, path), ("toml_use".toList, .bool useToml),
    ("use_parallel".toList, entry a.comp "use_parallel"), ("get_debug_info".toList, a.debugInfo),
    ("progress_bars".toList, entry a.comp "progress_bars")]
  let grid := truthy (entry a.comp "compute_grid")
  let profile := truthy (entry a.comp "compute_profile")
  if grid && profile then .error .runtime
  else if grid then
    if truthy (entry a.modeComp "polytrope_comp") then do
      let (_, sel) ← adjustLogger 20 a.polySelect
      (call gridParams (sel ++ a.modeComp ++ a.polyModel ++ a.angular ++
        [("mode_selection_dict".toList, .tbl a.modeSel), ("ad_path".toList, a.polyModes), ("nad_path".toList, .none)] ++ common)).map .grid
    else do
      let (_, sel) ← adjustLogger 20 a.modeInfo
      (call gridParams (sel ++ a.modeComp ++ a.polyModel ++ a.angular ++
        [("mode_selection_dict".toList, .tbl a.modeSel), ("ad_path".toList, a.ad), ("nad_path".toList, a.nad)] ++ common)).map .grid
  else if profile then do
    let (_, sel) ← adjustLogger 20 a.modeInfo
    (call profileParams (sel ++ a.modeComp ++ a.polyModel ++ a.angular ++
      [("cc_profile_selection_dict".toList, .tbl a.profileSel), ("ad_path".toList, a.ad), ("nad_path".toList, a.nad)] ++ common ++
      [("save_name".toList, fsName)] ++ a.profilePlot)).map .profile
  else .error .runtime

/-- Parameters of `NumericalSaver` (storer.py 67-77). -/
def saverParams : List Str :=
  ["save_name", "solving_object", "base_dir", "save_dir", "extra_specifier", "polytropic", "initial_save_format", "nr_modes"].map String.toList

/-- `_save_data` (S:587-601): the arguments of the saver; nothing is saved here in a profile run. -/
def saveData (a : SolveArgs) (fsName : Val) : M (Option Tbl) :=
  if truthy (entry a.comp "compute_grid") then
    (call saverParams ([("save_name".toList, fsName), ("solving_object".toList, .none),
      ("polytropic".toList, entry a.modeComp "polytrope_comp"), ("nr_modes".toList, .num 3)] ++ a.save)).map some
  else .ok none

/-- What a solve run does: the job and the call of the saver. -/
structure Outcome where
  job : Job
  saved : Option Tbl

/-- `perform_complete_solve_run` (S:604-613) with a parser class that defines `methods`; `docs` gives the contents of the
inlist files.  The suffix of the inlist (S:476) is what follows the last dot of its name. -/
def solveRun (methods : List String) (fs : FS) (docs : List Str → Tbl) (argv : List Str) : M Outcome := do
  let inlist ← inlistPath .solve fs argv
  let p ← parserInit (baseName .solve) methods fs inlist argv
  let a ← readArgs p.info (p.doc fs docs)
  let name ← getSaveName p
  match name with
  | .none => .error .exit
  | _ => do
    let job ← perform a (.arr ((p.inlist fs).map .str)) (Opts.lastPart (inlist.getLast?.getD []) = "toml".toList) name
    let saved ← saveData a name
    pure ⟨job, saved⟩

end Verif.Runner
