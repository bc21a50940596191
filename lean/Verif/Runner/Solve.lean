import Verif.Runner.Options
/-! # Properties C120-C124: what the solver and the saver are called with -/
namespace Verif.Runner
open Verif.Opts (Val Tbl Item Arg PathInfo getHa readDict readList find setKey truthy mode1 findBase find_setKey At Missing
  getHa_at getHa_missing)
open Verif.Inlist (Str contains contains_of_infix)

set_option maxRecDepth 8000

/-! ### Specification -/

/-- A dotted path of the inlist. -/
def Spec.path (p : List String) : List Str := p.map String.toList

/-- Options of the inlist that every computation uses: keyword of the solver and path in the inlist. -/
def Spec.common : List (String × List String) :=
  [("rot_pct", ["rotation", "rot_percent"]), ("use_rotating_formalism", ["rotation", "rotating_formalism"]),
   ("adiabatic", ["coupling_coefficient", "adiabatic"]), ("use_complex", ["coupling_coefficient", "use_complex"]),
   ("use_symbolic_profiles", ["coupling_coefficient", "symbolic_profiles"]),
   ("use_brunt_def", ["coupling_coefficient", "brunt_def_profiles"]),
   ("terms_cc_conj", ["coupling_coefficient", "terms_cc_conj"]),
   ("polytrope_comp", ["coupling_coefficient", "compute_for_polytrope"]),
   ("analytic_polytrope", ["coupling_coefficient", "analytic_polytrope"]),
   ("polytrope_mass", ["POLY_model", "mass"]), ("polytrope_radius", ["POLY_model", "radius"]),
   ("numerical_integration_method", ["computation", "integration_method"]),
   ("use_cheby_integration", ["computation", "angular", "use_cheby"]),
   ("cheby_order_multiplier", ["computation", "angular", "cheby_mul"]),
   ("cheby_blow_up_protection", ["computation", "angular", "blow_up_protect"]),
   ("cheby_blow_up_factor", ["computation", "angular", "blow_up_fac"]),
   ("use_parallel", ["computation", "parallel_mode_coupling"]), ("progress_bars", ["computation", "display_progress"]),
   ("get_debug_info", ["verbosity-debug", "get_debug_info"])]

/-- Where the oscillation models of a star are. -/
def Spec.gyre : List (String × List String) :=
  [("base_dir", ["GYRE_selection", "gyre_dir_path"]),
   ("alternative_directory_path", ["GYRE_selection", "alternative", "directory_path"]),
   ("alternative_file_name", ["GYRE_selection", "alternative", "file_name"]),
   ("ad_path", ["GYRE_selection", "specifier", "adiabatic"]), ("nad_path", ["GYRE_selection", "specifier", "nonadiabatic"])]

/-- Where the oscillation models of a polytrope are. -/
def Spec.poly : List (String × List String) :=
  [("base_dir", ["POLY_selection", "mode_path"]),
   ("alternative_directory_path", ["POLY_selection", "alternative", "directory_path"]),
   ("alternative_file_name", ["POLY_selection", "alternative", "file_name"]),
   ("ad_path", ["POLY_selection", "specifier", "modes"])]

/-- The modes of a grid computation. -/
def Spec.gridModes : List (String × List String) :=
  [("driven_n_low", ["mode_info", "parent", "n", "low"]), ("driven_n_high", ["mode_info", "parent", "n", "high"]),
   ("damped_n_low1", ["mode_info", "daughter_1", "n", "low"]), ("damped_n_high1", ["mode_info", "daughter_1", "n", "high"]),
   ("damped_n_low2", ["mode_info", "daughter_2", "n", "low"]), ("damped_n_high2", ["mode_info", "daughter_2", "n", "high"])]

/-- The modes of a profile computation. -/
def Spec.profileModes : List (String × List String) :=
  [("parent_n", ["mode_info", "coupling", "parent", "n"]), ("daughter_1_n", ["mode_info", "coupling", "daughter_1", "n"]),
   ("daughter_2_n", ["mode_info", "coupling", "daughter_2", "n"])]

/-- What is shown of a profile. -/
def Spec.profileView : List (String × List String) :=
  [("view_kernels", ["plotting", "profile", "show_kernels"]), ("view_term_by_term", ["plotting", "profile", "show_term_by_term"])]

/-- The saving options. -/
def Spec.saving : List (String × List String) :=
  [("base_dir", ["saving", "solve", "base_dir"]), ("save_dir", ["saving", "solve", "save_dir"]),
   ("extra_specifier", ["saving", "solve", "extra_specifier"]), ("initial_save_format", ["saving", "solve", "save_format"])]

/-- The value of the inlist under the path is passed with the keyword; `None` if it is not in the inlist. -/
def Spec.Reaches (doc args : Tbl) (k : String) (p : List String) : Prop :=
  (∀ v, At doc (Spec.path p) v → find k.toList args = some v) ∧ (Missing doc (Spec.path p) → find k.toList args = some .none)

/-- The quantum number `q` of parent and daughters, in this order, is passed as a list with the keyword. -/
def Spec.ReachesTriple (doc args : Tbl) (k q : String) : Prop :=
  ∀ v1 v2 v3, At doc (Spec.path ["mode_info", "parent", q]) v1 → At doc (Spec.path ["mode_info", "daughter_1", q]) v2 →
    At doc (Spec.path ["mode_info", "daughter_2", q]) v3 → find k.toList args = some (.arr [v1, v2, v3])

theorem val_at {doc : Tbl} {p : List Str} {v : Val} (h : At doc p v) : val doc p = v := by rw [val, getHa_at h]; rfl
theorem val_missing {doc : Tbl} {p : List Str} (h : Missing doc p) : val doc p = .none := by rw [val, getHa_missing h]; rfl

theorem reaches_of (doc args : Tbl) (l : List (String × List String))
    (h : ∀ kp ∈ l, find kp.1.toList args = some (val doc (Spec.path kp.2))) : ∀ kp ∈ l, Spec.Reaches doc args kp.1 kp.2 :=
  fun kp hk => ⟨fun v hv => by rw [h kp hk, val_at hv], fun hm => by rw [h kp hk, val_missing hm]⟩

theorem reachesTriple_of (doc args : Tbl) (k q : String)
    (h : find k.toList args = some (.arr ((qpaths q).map (val doc)))) : Spec.ReachesTriple doc args k q := by
  intro v1 v2 v3 h1 h2 h3
  rw [h]
  have e : (qpaths q).map (val doc) = [val doc (Spec.path ["mode_info", "parent", q]), val doc (Spec.path ["mode_info", "daughter_1", q]),
    val doc (Spec.path ["mode_info", "daughter_2", q])] := rfl
  rw [e, val_at h1, val_at h2, val_at h3]

/-! ### The calls, explicitly -/

/-- The flags. -/
def gridFlag (doc : Tbl) : Bool := truthy (val doc (Spec.path ["computation", "compute_grid_models"]))
def profileFlag (doc : Tbl) : Bool := truthy (val doc (Spec.path ["computation", "compute_coefficient_profile"]))
def polyFlag (doc : Tbl) : Bool := truthy (val doc (Spec.path ["coupling_coefficient", "compute_for_polytrope"]))

/-- The arguments common to all calls, in the order of the code. -/
def commonArgs (doc : Tbl) (path : Val) (useToml : Bool) : Tbl :=
  [("inlist_path".toList, path), ("toml_use".toList, .bool useToml),
    ("use_parallel".toList, val doc (Spec.path ["computation", "parallel_mode_coupling"])),
    ("get_debug_info".toList, val doc (Spec.path ["verbosity-debug", "get_debug_info"])),
    ("progress_bars".toList, val doc (Spec.path ["computation", "display_progress"]))]

/-- Arguments of a grid computation. -/
def gridArgs (doc : Tbl) (poly : Bool) (path : Val) (useToml : Bool) : Tbl :=
  (if poly then table doc (polyItems.take 4) else table doc (modeInfoItems.take 4)) ++ table doc computationInfoItems ++
  table doc polyModelItems ++ table doc angularItems ++
  [("mode_selection_dict".toList, .tbl (table doc selectionItems ++ quantum doc)),
   ("ad_path".toList, if poly then val doc (Spec.path ["POLY_selection", "specifier", "modes"])
      else val doc (Spec.path ["GYRE_selection", "specifier", "adiabatic"])),
   ("nad_path".toList, if poly then .none else val doc (Spec.path ["GYRE_selection", "specifier", "nonadiabatic"]))] ++
  commonArgs doc path useToml

/-- Arguments of a profile computation. -/
def profileArgs (doc : Tbl) (path : Val) (useToml : Bool) (name : Val) : Tbl :=
  table doc (modeInfoItems.take 4) ++ table doc computationInfoItems ++ table doc polyModelItems ++ table doc angularItems ++
  [("cc_profile_selection_dict".toList, .tbl (table doc profileItems ++ quantum doc)),
   ("ad_path".toList, val doc (Spec.path ["GYRE_selection", "specifier", "adiabatic"])),
   ("nad_path".toList, val doc (Spec.path ["GYRE_selection", "specifier", "nonadiabatic"]))] ++ commonArgs doc path useToml ++
  [("save_name".toList, name)] ++ table doc profilePlotItems

theorem call_ok (params : List Str) (keys : List Str) (args : Tbl) (hk : args.map (·.1) = keys)
    (h : (decide keys.Nodup && keys.all fun k => decide (k ∈ params)) = true) : call params args = .ok args := by
  unfold call
  rw [hk, if_pos]
  rw [Bool.and_eq_true, List.all_eq_true] at h
  exact ⟨of_decide_eq_true h.1, fun k hk => of_decide_eq_true (h.2 k hk)⟩

theorem call_grid (doc : Tbl) (poly : Bool) (path : Val) (useToml : Bool) :
    call gridParams (gridArgs doc poly path useToml) = .ok (gridArgs doc poly path useToml) := by
  cases poly with
  | true => exact call_ok gridParams ((gridArgs [] true .none false).map (·.1)) _ rfl (by decide +kernel)
  | false => exact call_ok gridParams ((gridArgs [] false .none false).map (·.1)) _ rfl (by decide +kernel)

theorem call_profile (doc : Tbl) (path : Val) (useToml : Bool) (name : Val) :
    call profileParams (profileArgs doc path useToml name) = .ok (profileArgs doc path useToml name) :=
  call_ok profileParams ((profileArgs [] .none false .none).map (·.1)) _ rfl (by decide +kernel)

attribute [local irreducible] call in
theorem perform_eq (doc : Tbl) (path : Val) (useToml : Bool) (name : Val) :
    perform (readAll doc) path useToml name =
      if gridFlag doc && profileFlag doc then .error .runtime
      else if gridFlag doc then .ok (.grid (gridArgs doc (polyFlag doc) path useToml))
      else if profileFlag doc then .ok (.profile (profileArgs doc path useToml name)) else .error .runtime := by
  unfold perform
  have hg : truthy (entry (readAll doc).comp "compute_grid") = gridFlag doc := rfl
  have hp : truthy (entry (readAll doc).comp "compute_profile") = profileFlag doc := rfl
  have hq : truthy (entry (readAll doc).modeComp "polytrope_comp") = polyFlag doc := rfl
  have l1 : ∃ n, adjustLogger 20 (readAll doc).polySelect = .ok (n, table doc (polyItems.take 4)) := ⟨_, rfl⟩
  have l2 : ∃ n, adjustLogger 20 (readAll doc).modeInfo = .ok (n, table doc (modeInfoItems.take 4)) := ⟨_, rfl⟩
  obtain ⟨n1, l1⟩ := l1
  obtain ⟨n2, l2⟩ := l2
  simp only [hg, hp, hq]
  split
  · rfl
  · split
    · cases hb : polyFlag doc with
      | true =>
        rw [if_pos rfl, l1]
        exact congrArg (Except.map Job.grid) (call_grid doc true path useToml)
      | false =>
        rw [if_neg (by decide), l2]
        exact congrArg (Except.map Job.grid) (call_grid doc false path useToml)
    · split
      · rw [l2]
        exact congrArg (Except.map Job.profile) (call_profile doc path useToml name)
      · rfl

end Verif.Runner
