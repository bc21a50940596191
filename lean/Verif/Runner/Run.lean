import Verif.Runner.Solve
/-! # Properties C120-C124: what the solver and the saver are called with (statements) -/
namespace Verif.Runner
open Verif.Opts (Val Tbl Item Arg PathInfo getHa readDict readList find setKey truthy mode1 findBase find_setKey At Missing
  getHa_at getHa_missing)
open Verif.Inlist (Str contains contains_of_infix)

set_option maxRecDepth 8000

/-- Everything that is read of an inlist. -/
def Spec.read : List (List String) :=
  (Spec.common ++ Spec.gyre ++ Spec.poly ++ Spec.gridModes ++ Spec.profileModes ++ Spec.profileView ++ Spec.saving).map (·.2) ++
  (["parent", "daughter_1", "daughter_2"].flatMap fun m => [["mode_info", m, "l"], ["mode_info", m, "m"]]) ++
  [["computation", "compute_grid_models"], ["computation", "compute_coefficient_profile"], ["verbosity-debug", "verbose"],
   ["verbosity-debug", "debug"]]

/-- A usable inlist: nothing that is read is looked up below a value that is not a table, and the terms to conjugate are a list. -/
def Spec.Usable (doc : Tbl) : Prop :=
  (∀ p ∈ Spec.read, (∃ v, At doc (Spec.path p) v) ∨ Missing doc (Spec.path p)) ∧
  ∃ l, At doc (Spec.path ["coupling_coefficient", "terms_cc_conj"]) (.arr l)

/-- Is the option switched on. -/
def Spec.On (doc : Tbl) (p : List String) : Prop := ∃ v, At doc (Spec.path p) v ∧ truthy v = true

theorem allPaths_read : ∀ p ∈ allPaths, p ∈ Spec.read.map Spec.path := by decide +kernel

theorem usable_read (doc : Tbl) (h : Spec.Usable doc) : readToml doc = .ok (readAll doc) := by
  rw [readToml_ok]
  refine ⟨h.2, fun p hp => ?_, rfl⟩
  obtain ⟨q, hq, rfl⟩ := List.mem_map.1 (allPaths_read p hp)
  rcases h.1 q hq with ⟨v, hv⟩ | hm
  · rw [getHa_at hv]; rfl
  · rw [getHa_missing hm]; rfl

theorem on_iff (doc : Tbl) (p : List String) (h : (∃ v, At doc (Spec.path p) v) ∨ Missing doc (Spec.path p)) :
    Spec.On doc p ↔ truthy (val doc (Spec.path p)) = true := by
  constructor
  · rintro ⟨v, hv, ht⟩
    rwa [val_at hv]
  · intro ht
    rcases h with ⟨v, hv⟩ | hm
    · exact ⟨v, hv, by rwa [val_at hv] at ht⟩
    · rw [val_missing hm] at ht
      cases ht

theorem mem_read (p : List String) (h : p ∈ Spec.read := by decide +kernel) : p ∈ Spec.read := h

/-- **C124.** A usable inlist leads to a computation exactly if one and only one of the two kinds (grid, coefficient profile) is
switched on, and it is of that kind; otherwise the run ends with a runtime error before anything is computed. -/
theorem C124_kind (doc : Tbl) (h : Spec.Usable doc) (path : Val) (useToml : Bool) (name : Val) :
    ∃ a, readToml doc = .ok a ∧
      ((∃ args, perform a path useToml name = .ok (.grid args)) ↔
        Spec.On doc ["computation", "compute_grid_models"] ∧ ¬ Spec.On doc ["computation", "compute_coefficient_profile"]) ∧
      ((∃ args, perform a path useToml name = .ok (.profile args)) ↔
        Spec.On doc ["computation", "compute_coefficient_profile"] ∧ ¬ Spec.On doc ["computation", "compute_grid_models"]) ∧
      ((Spec.On doc ["computation", "compute_grid_models"] ↔ Spec.On doc ["computation", "compute_coefficient_profile"]) →
        perform a path useToml name = .error .runtime) := by
  refine ⟨readAll doc, usable_read doc h, ?_⟩
  rw [on_iff doc _ (h.1 _ (mem_read ["computation", "compute_grid_models"])),
    on_iff doc _ (h.1 _ (mem_read ["computation", "compute_coefficient_profile"])), perform_eq]
  change ((∃ args, _) ↔ gridFlag doc = true ∧ ¬ profileFlag doc = true) ∧ ((∃ args, _) ↔ profileFlag doc = true ∧ ¬ gridFlag doc = true) ∧
    ((gridFlag doc = true ↔ profileFlag doc = true) → _)
  cases gridFlag doc <;> cases profileFlag doc <;> simp

theorem perform_grid_inv (doc : Tbl) (path : Val) (useToml : Bool) (name : Val) (args : Tbl)
    (h : perform (readAll doc) path useToml name = .ok (.grid args)) : args = gridArgs doc (polyFlag doc) path useToml := by
  rw [perform_eq] at h
  cases hg : gridFlag doc <;> cases hp : profileFlag doc <;> rw [hg, hp] at h <;> cases h
  rfl

theorem perform_profile_inv (doc : Tbl) (path : Val) (useToml : Bool) (name : Val) (args : Tbl)
    (h : perform (readAll doc) path useToml name = .ok (.profile args)) : args = profileArgs doc path useToml name := by
  rw [perform_eq] at h
  cases hg : gridFlag doc <;> cases hp : profileFlag doc <;> rw [hg, hp] at h <;> cases h
  rfl

/-- **C120.** Grid computations: every option of the inlist reaches the solver under its keyword, with the directories
of the polytropes or of the stars as requested, and so do the modes. -/
theorem C120_grid (doc : Tbl) (h : Spec.Usable doc) (path : Val) (useToml : Bool) (name : Val) (a : SolveArgs) (args : Tbl)
    (ha : readToml doc = .ok a) (hj : perform a path useToml name = .ok (.grid args)) :
    (∀ kp ∈ Spec.common, Spec.Reaches doc args kp.1 kp.2) ∧
    (Spec.On doc ["coupling_coefficient", "compute_for_polytrope"] →
      (∀ kp ∈ Spec.poly, Spec.Reaches doc args kp.1 kp.2) ∧ find "nad_path".toList args = some .none) ∧
    (¬ Spec.On doc ["coupling_coefficient", "compute_for_polytrope"] → ∀ kp ∈ Spec.gyre, Spec.Reaches doc args kp.1 kp.2) ∧
    (∃ modes, find "mode_selection_dict".toList args = some (.tbl modes) ∧ (∀ kp ∈ Spec.gridModes, Spec.Reaches doc modes kp.1 kp.2) ∧
      Spec.ReachesTriple doc modes "mode_l" "l" ∧ Spec.ReachesTriple doc modes "mode_m" "m") ∧
    find "inlist_path".toList args = some path ∧ find "toml_use".toList args = some (.bool useToml) := by
  rw [usable_read doc h] at ha
  cases ha
  obtain rfl := perform_grid_inv _ _ _ _ _ hj
  rw [on_iff doc _ (h.1 _ (mem_read ["coupling_coefficient", "compute_for_polytrope"]))]
  change _ ∧ (polyFlag doc = true → _) ∧ (¬ polyFlag doc = true → _) ∧ _
  refine ⟨?_, ?_, ?_, ⟨table doc selectionItems ++ quantum doc, ?_, ?_, ?_, ?_⟩, ?_, ?_⟩
  · refine reaches_of _ _ _ ?_
    cases polyFlag doc
    all_goals
      unfold Spec.common
      simp only [List.forall_mem_cons]
      refine ⟨?_, ?_, ?_, ?_, ?_, ?_, ?_, ?_, ?_, ?_, ?_, ?_, ?_, ?_, ?_, ?_, ?_, ?_, ?_, by simp⟩ <;> rfl
  · intro hp
    rw [hp]
    refine ⟨reaches_of _ _ _ ?_, rfl⟩
    unfold Spec.poly
    simp only [List.forall_mem_cons]
    refine ⟨?_, ?_, ?_, ?_, by simp⟩ <;> rfl
  · intro hp
    rw [Bool.not_eq_true] at hp
    rw [hp]
    refine reaches_of _ _ _ ?_
    unfold Spec.gyre
    simp only [List.forall_mem_cons]
    refine ⟨?_, ?_, ?_, ?_, ?_, by simp⟩ <;> rfl
  · cases polyFlag doc <;> rfl
  · refine reaches_of _ _ _ ?_
    unfold Spec.gridModes
    simp only [List.forall_mem_cons]
    refine ⟨?_, ?_, ?_, ?_, ?_, ?_, by simp⟩ <;> rfl
  · exact reachesTriple_of _ _ _ _ rfl
  · exact reachesTriple_of _ _ _ _ rfl
  · cases polyFlag doc <;> rfl
  · cases polyFlag doc <;> rfl

/-- **C120 (partial).** Profile computations of stars: every option of the inlist reaches the solver under its keyword. -/
theorem C120_profile_partial (doc : Tbl) (h : Spec.Usable doc) (path : Val) (useToml : Bool) (name : Val) (a : SolveArgs) (args : Tbl)
    (ha : readToml doc = .ok a) (hj : perform a path useToml name = .ok (.profile args)) :
    (∀ kp ∈ Spec.common ++ Spec.profileView, Spec.Reaches doc args kp.1 kp.2) ∧
    (¬ Spec.On doc ["coupling_coefficient", "compute_for_polytrope"] → ∀ kp ∈ Spec.gyre, Spec.Reaches doc args kp.1 kp.2) ∧
    (∃ modes, find "cc_profile_selection_dict".toList args = some (.tbl modes) ∧
      (∀ kp ∈ Spec.profileModes, Spec.Reaches doc modes kp.1 kp.2) ∧
      Spec.ReachesTriple doc modes "mode_l" "l" ∧ Spec.ReachesTriple doc modes "mode_m" "m") ∧
    find "inlist_path".toList args = some path ∧ find "toml_use".toList args = some (.bool useToml) ∧
    find "save_name".toList args = some name := by
  rw [usable_read doc h] at ha
  cases ha
  obtain rfl := perform_profile_inv _ _ _ _ _ hj
  refine ⟨?_, ?_, ⟨table doc profileItems ++ quantum doc, ?_, ?_, ?_, ?_⟩, rfl, rfl, rfl⟩
  · refine reaches_of _ _ _ ?_
    unfold Spec.common Spec.profileView
    simp only [List.cons_append, List.nil_append, List.forall_mem_cons]
    refine ⟨?_, ?_, ?_, ?_, ?_, ?_, ?_, ?_, ?_, ?_, ?_, ?_, ?_, ?_, ?_, ?_, ?_, ?_, ?_, ?_, ?_, by simp⟩ <;> rfl
  · intro _
    refine reaches_of _ _ _ ?_
    unfold Spec.gyre
    simp only [List.forall_mem_cons]
    refine ⟨?_, ?_, ?_, ?_, ?_, by simp⟩ <;> rfl
  · rfl
  · refine reaches_of _ _ _ ?_
    unfold Spec.profileModes
    simp only [List.forall_mem_cons]
    refine ⟨?_, ?_, ?_, by simp⟩ <;> rfl
  · exact reachesTriple_of _ _ _ _ rfl
  · exact reachesTriple_of _ _ _ _ rfl

/-- **C120 (refutation).** Profile computations of polytropes are sent to the directories of the stars. -/
theorem C120_polytrope_profile_wrong (doc : Tbl) (h : Spec.Usable doc) (path : Val) (useToml : Bool) (name : Val) (a : SolveArgs)
    (args : Tbl) (ha : readToml doc = .ok a) (hj : perform a path useToml name = .ok (.profile args))
    (_hp : Spec.On doc ["coupling_coefficient", "compute_for_polytrope"]) :
    (∀ kp ∈ Spec.gyre, Spec.Reaches doc args kp.1 kp.2) ∧
    ∀ v w, At doc (Spec.path ["POLY_selection", "mode_path"]) v → At doc (Spec.path ["GYRE_selection", "gyre_dir_path"]) w → v ≠ w →
      find "base_dir".toList args ≠ some v := by
  rw [usable_read doc h] at ha
  cases ha
  obtain rfl := perform_profile_inv _ _ _ _ _ hj
  have key : ∀ kp ∈ Spec.gyre, Spec.Reaches doc (profileArgs doc path useToml name) kp.1 kp.2 := by
    refine reaches_of _ _ _ ?_
    unfold Spec.gyre
    simp only [List.forall_mem_cons]
    refine ⟨?_, ?_, ?_, ?_, ?_, by simp⟩ <;> rfl
  refine ⟨key, fun v w _ hw hne hc => hne ?_⟩
  have := (key ("base_dir", ["GYRE_selection", "gyre_dir_path"]) (by simp [Spec.gyre])).1 w hw
  exact Option.some.inj (hc.symm.trans this)

/-! ### C121: processes and threads -/

/-- The document with another number of parallel processes. -/
def Spec.withProcesses (doc : Tbl) (v : Val) : Tbl :=
  match find "computation".toList doc with
  | some (.tbl t) => setKey doc "computation".toList (.tbl (setKey t "nr_parallel_processes".toList v))
  | _ => doc

theorem getHa_withProcesses (doc : Tbl) (v : Val) (p : List Str) (h : p.take 2 ≠ ["computation".toList, "nr_parallel_processes".toList])
    (h' : 2 ≤ p.length) : getHa (.tbl (Spec.withProcesses doc v)) p = getHa (.tbl doc) p := by
  unfold Spec.withProcesses
  split
  · rename_i t ht
    match p, h' with
    | k :: k' :: r, _ =>
      rw [getHa, getHa, find_setKey]
      by_cases hk : k = "computation".toList
      · rw [if_pos hk, hk, ht]
        dsimp only
        rw [if_neg (by simp), if_neg (by simp), getHa, getHa, find_setKey, if_neg]
        rintro rfl
        exact h (by rw [hk]; rfl)
      · rw [if_neg hk]
  · rfl

/-- **C121 (refutation).** The number of parallel processes in the inlist has no effect: the options read are the same with any
other value. -/
theorem C121_processes_wrong (doc : Tbl) (v : Val) : readToml (Spec.withProcesses doc v) = readToml doc := by
  have hp : ∀ p ∈ allPaths, p.take 2 ≠ ["computation".toList, "nr_parallel_processes".toList] ∧ 2 ≤ p.length := by decide +kernel
  have hg : ∀ p ∈ allPaths, getHa (.tbl (Spec.withProcesses doc v)) p = getHa (.tbl doc) p :=
    fun p h => getHa_withProcesses doc v p (hp p h).1 (hp p h).2
  have hv : ∀ p ∈ allPaths, val (Spec.withProcesses doc v) p = val doc p := fun p h => by rw [val, val, hg p h]
  have hd : Defined (Spec.withProcesses doc v) allPaths ↔ Defined doc allPaths := by
    unfold Defined
    exact forall₂_congr fun p h => by rw [hg p h]
  have hf : find "coupling_coefficient".toList (Spec.withProcesses doc v) = find "coupling_coefficient".toList doc := by
    unfold Spec.withProcesses
    split
    · rw [find_setKey, if_neg (by decide)]
    · rfl
  have hc : convertTuple (Spec.withProcesses doc v) = (convertTuple doc).map fun _ => Spec.withProcesses doc v := by
    unfold convertTuple
    rw [hf]
    split
    · split <;> rfl
    · rfl
    · rfl
  have ht : ∀ is : List Item, (∀ i ∈ is, i.path ∈ allPaths) → table (Spec.withProcesses doc v) is = table doc is := by
    intro is h
    unfold table
    exact List.map_congr_left fun i hi => by rw [hv i.path (h i hi)]
  have hq : quantum (Spec.withProcesses doc v) = quantum doc := by
    unfold quantum
    have : ∀ q, (∀ p ∈ qpaths q, p ∈ allPaths) → (qpaths q).map (val (Spec.withProcesses doc v)) = (qpaths q).map (val doc) :=
      fun q h => List.map_congr_left fun p hp => hv p (h p hp)
    rw [this "l" (by decide +kernel), this "m" (by decide +kernel)]
  have ha : readAll (Spec.withProcesses doc v) = readAll doc := by
    unfold readAll
    rw [ht _ (by decide +kernel), ht _ (by decide +kernel), ht _ (by decide +kernel), ht _ (by decide +kernel), ht _ (by decide +kernel),
      ht _ (by decide +kernel), ht _ (by decide +kernel), ht _ (by decide +kernel), ht _ (by decide +kernel), ht _ (by decide +kernel), hq,
      hv _ (by decide +kernel), hv _ (by decide +kernel), hv _ (by decide +kernel), hv _ (by decide +kernel)]
  have hdict : ∀ is : List Item, (∀ i ∈ is, i.path ∈ allPaths) →
      readDict (.tbl (Spec.withProcesses doc v)) is = readDict (.tbl doc) is := by
    intro is h
    have l3 : ∀ d, Opts.loop3 (.tbl (Spec.withProcesses doc v)) d is = Opts.loop3 (.tbl doc) d is := by
      induction is with
      | nil => intro d; rfl
      | cons i is ih =>
        intro d
        rw [Opts.loop3, Opts.loop3, hg _ (h i (by simp))]
        split
        · rfl
        · split
          · rfl
          · exact ih (fun j hj => h j (by simp [hj])) _
    have l2 : ∀ d, Opts.loop2 (.tbl (Spec.withProcesses doc v)) d is = Opts.loop2 (.tbl doc) d is := by
      clear l3
      induction is with
      | nil => intro d; rfl
      | cons i is ih =>
        intro d
        rw [Opts.loop2, Opts.loop2, hg _ (h i (by simp))]
        split
        · rfl
        · exact Option.bind_congr fun w _ => ih (fun j hj => h j (by simp [hj])) _
    unfold readDict
    rw [l3]
    split
    · rfl
    · exact l2 _
    · rfl
  have hlist : ∀ ps : List (List Str), (∀ p ∈ ps, p ∈ allPaths) → (∀ p ∈ ps.head?, p.length ≠ 2) →
      readList (.tbl (Spec.withProcesses doc v)) (ps.map Arg.path) = readList (.tbl doc) (ps.map Arg.path) := by
    intro ps h h0
    cases ps with
    | nil => rfl
    | cons p ps =>
      apply Option.ext
      intro vs
      change readList _ _ = some vs ↔ readList _ _ = some vs
      rw [readList_exact _ p ps (h0 p rfl), readList_exact _ p ps (h0 p rfl)]
      have e1 : Defined (Spec.withProcesses doc v) (p :: ps) ↔ Defined doc (p :: ps) := by
        unfold Defined
        exact forall₂_congr fun q hq => by rw [hg q (h q hq)]
      have e2 : (p :: ps).map (val (Spec.withProcesses doc v)) = (p :: ps).map (val doc) :=
        List.map_congr_left fun q hq => hv q (h q hq)
      rw [e1, e2]
  unfold readToml
  rw [hc]
  cases hcc : convertTuple doc with
  | error e => rfl
  | ok d =>
    obtain ⟨rfl, -⟩ := (convertTuple_ok doc d).1 hcc
    have hl : ∀ q, (∀ p ∈ qpaths q, p ∈ allPaths) → readList (.tbl (Spec.withProcesses d v)) (quantumPaths q) =
        readList (.tbl d) (quantumPaths q) := fun q h => hlist (qpaths q) h (by simp [qpaths])
    have hr : readList (.tbl (Spec.withProcesses d v)) restPaths = readList (.tbl d) restPaths :=
      hlist rpaths (by decide +kernel) (by simp [rpaths])
    simp only [Except.map, bind, Except.bind]
    rw [hdict _ (by decide +kernel), hdict _ (by decide +kernel), hdict _ (by decide +kernel), hdict _ (by decide +kernel),
      hdict _ (by decide +kernel), hdict _ (by decide +kernel), hdict _ (by decide +kernel), hdict _ (by decide +kernel),
      hdict _ (by decide +kernel), hdict _ (by decide +kernel), hl "l" (by decide +kernel), hl "m" (by decide +kernel), hr]

/-- **C121 (partial).** Whether mode coupling is computed in parallel is passed on. -/
theorem C121_parallel_partial (doc : Tbl) (h : Spec.Usable doc) (path : Val) (useToml : Bool) (name : Val) (a : SolveArgs) (args : Tbl)
    (ha : readToml doc = .ok a)
    (hj : perform a path useToml name = .ok (.grid args) ∨ perform a path useToml name = .ok (.profile args)) :
    Spec.Reaches doc args "use_parallel" ["computation", "parallel_mode_coupling"] := by
  rcases hj with hj | hj
  · exact (C120_grid doc h path useToml name a args ha hj).1 ("use_parallel", _) (by simp [Spec.common])
  · exact (C120_profile_partial doc h path useToml name a args ha hj).1 ("use_parallel", _) (by simp [Spec.common])

/-- **C121 (refutation).** The number of threads is never passed to the solver, so its default always holds. -/
theorem C121_threads_wrong (doc : Tbl) (path : Val) (useToml : Bool) (name : Val) (a : SolveArgs) (args : Tbl)
    (ha : readToml doc = .ok a)
    (hj : perform a path useToml name = .ok (.grid args) ∨ perform a path useToml name = .ok (.profile args)) :
    find "nr_omp_threads".toList args = none := by
  obtain ⟨-, -, rfl⟩ := (readToml_ok doc a).1 ha
  rcases hj with hj | hj
  · obtain rfl := perform_grid_inv _ _ _ _ _ hj
    cases polyFlag doc <;> rfl
  · obtain rfl := perform_profile_inv _ _ _ _ _ hj
    rfl

/-! ### C122: inlists in the custom format -/

/-- **C122 (refutation).** A run whose inlist does not end in `.toml` ends with an exception, whatever it contains, also if the
save name could be read. -/
theorem C122_custom_wrong (methods : List String) (fs : FS) (docs : List Str → Tbl) (argv inlist : List Str)
    (h : inlistPath .solve fs argv = .ok inlist) (hs : Opts.lastPart (inlist.getLast?.getD []) ≠ "toml".toList) (o : Outcome) :
    solveRun methods fs docs argv ≠ .ok o := by
  intro ho
  unfold solveRun at ho
  obtain ⟨inlist', hi, ho⟩ := (bind_ok _ _ _).1 ho
  rw [h] at hi
  cases hi
  obtain ⟨p, hp, ho⟩ := (bind_ok _ _ _).1 ho
  obtain ⟨a, ha, -⟩ := (bind_ok _ _ _).1 ho
  have : p.info.suffix ≠ "toml".toList := by
    unfold parserInit at hp
    split at hp
    · cases hp
    · rename_i i hi
      unfold mode1 at hi
      obtain ⟨b, _, rfl⟩ := Option.map_eq_some_iff.1 hi
      split at hp
      · cases hq : parseArgs (parserOpts methods) (defaults (parserOpts methods)) argv.tail with
        | error e => rw [hq] at hp; cases hp
        | ok ns => rw [hq] at hp; cases hp; exact hs
      · cases hp
  unfold readArgs at ha
  rw [if_neg this] at ha
  cases ha

/-- **C122 (partial).** With a usable TOML inlist the options are read. -/
theorem C122_toml_partial (i : PathInfo) (hi : i.suffix = "toml".toList) (doc : Tbl) (h : Spec.Usable doc) :
    ∃ a, readArgs i doc = .ok a ∧ readToml doc = .ok a :=
  ⟨readAll doc, by rw [readArgs, if_pos hi]; exact usable_read doc h, usable_read doc h⟩

/-! ### C123: verbosity -/

/-- **C123.** Debug mode sets the level 10 (debug), otherwise non-verbose mode 30 (warnings), otherwise the level is kept; both
options are removed and all others stay. -/
theorem C123_logger (level : ℕ) (d : Tbl) (dbg vb : Val) (h1 : find "debug".toList d = some dbg) (h2 : find "verbose".toList d = some vb) :
    ∃ l d', adjustLogger level d = .ok (l, d') ∧
      (truthy dbg = true → l = 10) ∧ (truthy dbg = false → truthy vb = false → l = 30) ∧
      (truthy dbg = false → truthy vb = true → l = level) ∧
      ∀ k, find k d' = if k = "debug".toList ∨ k = "verbose".toList then none else find k d := by
  unfold adjustLogger
  rw [h1, h2]
  refine ⟨_, _, rfl, fun h => by rw [if_pos h], fun h h' => by rw [h, h']; rfl, fun h h' => by rw [h, h']; rfl, fun k => ?_⟩
  unfold find
  rw [List.find?_filter]
  split_ifs with hk
  · rw [Option.map_eq_none_iff, List.find?_eq_none]
    intro e _ hc
    obtain ⟨c, c3⟩ := of_decide_eq_true hc
    obtain ⟨c1, c2⟩ := (Bool.and_eq_true _ _).mp c
    have e3 : e.1 = k := beq_iff_eq.1 c3
    rcases hk with rfl | rfl
    · exact of_decide_eq_true c1 e3
    · exact of_decide_eq_true c2 e3
  · rw [not_or] at hk
    congr 2
    funext e
    by_cases hek : e.1 = k
    · have h3 : (e.1 == k) = true := beq_iff_eq.2 hek
      rw [h3]
      refine decide_eq_true ⟨?_, rfl⟩
      rw [hek]
      exact (Bool.and_eq_true _ _).mpr ⟨decide_eq_true hk.1, decide_eq_true hk.2⟩
    · have h3 : (e.1 == k) = false := beq_eq_false_iff_ne.2 hek
      rw [h3]
      exact decide_eq_false fun hc => by cases hc.2

/-- **C123.** Without one of the two options (which a TOML inlist always yields) it is a key error. -/
theorem C123_missing (level : ℕ) (d : Tbl) (h : find "debug".toList d = none ∨ find "verbose".toList d = none) :
    adjustLogger level d = .error .key := by
  unfold adjustLogger
  rcases h with h | h
  · rw [h]
  · rw [h]
    cases find "debug".toList d <;> rfl

/-! ### C124: saving -/

/-- **C124.** The saver is called for grid computations only, with the save name, the saving options, the kind of model and three
modes. -/
theorem C124_saved (doc : Tbl) (h : Spec.Usable doc) (name : Val) (a : SolveArgs) (ha : readToml doc = .ok a) :
    (¬ Spec.On doc ["computation", "compute_grid_models"] → saveData a name = .ok none) ∧
    (Spec.On doc ["computation", "compute_grid_models"] → ∃ args, saveData a name = .ok (some args) ∧
      find "save_name".toList args = some name ∧ find "nr_modes".toList args = some (.num 3) ∧
      Spec.Reaches doc args "polytropic" ["coupling_coefficient", "compute_for_polytrope"] ∧
      ∀ kp ∈ Spec.saving, Spec.Reaches doc args kp.1 kp.2) := by
  rw [usable_read doc h] at ha
  cases ha
  rw [on_iff doc _ (h.1 _ (mem_read ["computation", "compute_grid_models"]))]
  have hg : truthy (entry (readAll doc).comp "compute_grid") = truthy (val doc (Spec.path ["computation", "compute_grid_models"])) := rfl
  unfold saveData
  rw [hg]
  refine ⟨fun hn => by rw [if_neg hn], fun hy => ?_⟩
  rw [if_pos hy]
  let args (doc : Tbl) (name : Val) : Tbl := [("save_name".toList, name), ("solving_object".toList, .none),
      ("polytropic".toList, val doc (Spec.path ["coupling_coefficient", "compute_for_polytrope"])), ("nr_modes".toList, .num 3)] ++ table doc saveItems
  have hc : call saverParams (args doc name) = .ok (args doc name) :=
    call_ok saverParams ((args [] .none).map (·.1)) _ rfl (by decide +kernel)
  refine ⟨args doc name, congrArg (Except.map some) hc, rfl, rfl, ?_, ?_⟩
  · exact reaches_of doc _ [("polytropic", ["coupling_coefficient", "compute_for_polytrope"])]
      (by simp only [List.mem_singleton, forall_eq]; rfl) ("polytropic", _) (by simp)
  · refine reaches_of _ _ _ ?_
    unfold Spec.saving
    simp only [List.forall_mem_cons]
    refine ⟨?_, ?_, ?_, ?_, by simp⟩ <;> rfl

/-- **C124.** In a successful run (possible only if the hook had the right name, C117) the save name of the last argument is that
of the profile figure or of the saved grid. -/
theorem C124_run (methods : List String) (hm : "_set_up_specific_argparser_groups_arguments" ∈ methods) (fs : FS) (docs : List Str → Tbl)
    (argv : List Str) (o : Outcome) (h : solveRun methods fs docs argv = .ok o) (hu : ∀ f, Spec.Usable (docs f))
    (hn : ∀ a ∈ argv, a ≠ "-nil".toList ∧ a ≠ "--no_inlist".toList) :
    ∃ name, argv.getLast? = some name ∧
      ((∃ args s, o.job = .grid args ∧ o.saved = some s ∧ find "save_name".toList s = some (.str name)) ∨
       (∃ args, o.job = .profile args ∧ o.saved = none ∧ find "save_name".toList args = some (.str name))) := by
  unfold solveRun at h
  obtain ⟨inlist, h1, h⟩ := (bind_ok _ _ _).1 h
  obtain ⟨p, h2, h⟩ := (bind_ok _ _ _).1 h
  obtain ⟨a, h3, h⟩ := (bind_ok _ _ _).1 h
  obtain ⟨nm, h4, h⟩ := (bind_ok _ _ _).1 h
  obtain ⟨fd, hf, -⟩ := (bind_ok _ _ _).1 h1
  obtain ⟨name, hl, hs⟩ := C117_renamed_partial _ methods hm fs inlist argv fd.1 fd.2 hf p h2
  rw [hs] at h4
  cases h4
  refine ⟨name, hl, ?_⟩
  dsimp only at h
  obtain ⟨job, h5, h⟩ := (bind_ok _ _ _).1 h
  obtain ⟨saved, h6, h⟩ := (bind_ok _ _ _).1 h
  cases h
  have hdoc : Spec.Usable (p.doc fs docs) := by
    have : find "no_inlist".toList p.ns = some (.bool false) := by
      unfold parserInit at h2
      split at h2
      · cases h2
      · split at h2
        · cases hq : parseArgs (parserOpts methods) (defaults (parserOpts methods)) argv.tail with
          | error e => rw [hq] at h2; cases h2
          | ok ns =>
            rw [hq] at h2
            cases h2
            have key : ∀ (l : List Str) (ns ns' : Namespace), (∀ a ∈ l, a ≠ "-nil".toList ∧ a ≠ "--no_inlist".toList) →
                parseArgs (parserOpts methods) ns l = .ok ns' → find "no_inlist".toList ns = some (.bool false) →
                find "no_inlist".toList ns' = some (.bool false) := by
              have hopt : ∀ o ∈ parserOpts methods, o.dest = "no_inlist".toList →
                  ∀ f ∈ o.flags, f = "-nil".toList ∨ f = "--no_inlist".toList := by
                unfold parserOpts
                split_ifs <;> decide +kernel
              intro l
              induction l using List.twoStepInduction with
              | nil => intro ns ns' _ h hf; rw [parseArgs] at h; cases h; exact hf
              | singleton a =>
                intro ns ns' hl h hf
                rw [parseArgs] at h
                split at h
                · rw [parseArgs] at h; cases h; exact hf
                · rename_i o ho
                  split at h
                  · cases h
                  · rw [parseArgs] at h
                    cases h
                    rw [find_setKey, if_neg]
                    · exact hf
                    · intro hd
                      have := hopt o (List.mem_of_find?_eq_some ho) hd.symm a (by have := List.find?_some ho; simpa using this)
                      have hx := hl a (by simp)
                      tauto
              | cons_cons a b l ih1 ih2 =>
                intro ns ns' hl h hf
                rw [parseArgs] at h
                split at h
                · exact ih2 b ns ns' (fun x hx => hl x (by simp at hx ⊢; tauto)) h hf
                · rename_i o ho
                  have hne : "no_inlist".toList ≠ o.dest := by
                    intro hd
                    have := hopt o (List.mem_of_find?_eq_some ho) hd.symm a (by have := List.find?_some ho; simpa using this)
                    have hx := hl a (by simp)
                    tauto
                  split at h
                  · dsimp only at h
                    split at h
                    · cases h
                    · refine ih1 _ ns' (fun x hx => hl x (by simp [hx])) h ?_
                      rw [find_setKey, if_neg hne]
                      exact hf
                  · refine ih2 b _ ns' (fun x hx => hl x (by simp at hx ⊢; tauto)) h ?_
                    rw [find_setKey, if_neg hne]
                    exact hf
            refine key argv.tail _ ns (fun a ha => hn a (List.mem_of_mem_tail ha)) hq ?_
            unfold parserOpts
            split_ifs <;> rfl
        · cases h2
    unfold Parser.doc
    rw [this]
    exact hu _
  have ha : readToml (p.doc fs docs) = .ok a := by
    unfold readArgs at h3
    split at h3
    · exact h3
    · cases h3
  obtain ⟨a', ha', k1, k2, -⟩ := C124_kind _ hdoc (.arr ((p.inlist fs).map .str))
    (Opts.lastPart (inlist.getLast?.getD []) = "toml".toList) (.str name)
  rw [ha] at ha'
  cases ha'
  obtain ⟨s1, s2⟩ := C124_saved _ hdoc (.str name) a ha
  cases job with
  | grid args =>
    left
    obtain ⟨s, hs1, hs2, -⟩ := s2 (k1.1 ⟨args, h5⟩).1
    rw [hs1] at h6
    cases h6
    exact ⟨args, s, rfl, rfl, hs2⟩
  | profile args =>
    right
    have := s1 (k2.1 ⟨args, h5⟩).2
    rw [this] at h6
    cases h6
    exact ⟨args, rfl, rfl, (C120_profile_partial _ hdoc _ _ _ a args ha h5).2.2.2.2.2⟩

/-! ### A concrete case -/

/-- A small inlist: a grid computation, everything else missing. -/
def exDoc (grid poly : Bool) : Tbl :=
  [("coupling_coefficient".toList, .tbl [("terms_cc_conj".toList, .arr [.bool true, .bool false, .bool false]),
      ("compute_for_polytrope".toList, .bool poly)]),
   ("computation".toList, .tbl [("compute_grid_models".toList, .bool grid), ("compute_coefficient_profile".toList, .bool !grid),
      ("nr_parallel_processes".toList, .num 8)]),
   ("GYRE_selection".toList, .tbl [("gyre_dir_path".toList, .str "stars".toList)]),
   ("POLY_selection".toList, .tbl [("mode_path".toList, .str "polytropes".toList)])]

/-- Lookup with a decision. -/
def status (doc : Tbl) : List Str → Bool
  | [] => false
  | k :: r => match find k doc with
    | none => true
    | some (.tbl t) => if r = [] then true else status t r
    | some _ => r = []

theorem status_ok (doc : Tbl) (p : List Str) (h : status doc p = true) : (∃ v, At doc p v) ∨ Missing doc p := by
  induction p generalizing doc with
  | nil => cases h
  | cons k r ih =>
    rw [status] at h
    split at h
    · rename_i hk; exact Or.inr (.here hk)
    · rename_i t hk
      split at h
      · rename_i hr; subst hr; exact Or.inl ⟨_, .here hk⟩
      · rcases ih t h with ⟨v, hv⟩ | hm
        · exact Or.inl ⟨v, .deep hk hv⟩
        · exact Or.inr (.deep hk hm)
    · rename_i v _ hk
      have hr : r = [] := by simpa using h
      subst hr
      exact Or.inl ⟨v, .here hk⟩

theorem exDoc_usable (grid poly : Bool) : Spec.Usable (exDoc grid poly) := by
  have h : ∀ grid poly, (Spec.read.all fun p => status (exDoc grid poly) (Spec.path p)) = true := by decide +kernel
  refine ⟨fun p hp => status_ok _ _ (List.all_eq_true.1 (h grid poly) p hp), _, .deep rfl (.here rfl)⟩

/-- The files: one inlist in a checkout called AESolver. -/
def exFS : FS := ⟨["home".toList, "AESolver".toList],
  fun p => decide (p = ["home".toList, "AESolver".toList, "inlists".toList, "inlist.toml".toList])⟩

example : ∀ w ∈ exFS.cwd, Spec.Plain w := by unfold Spec.Plain; decide
example : Spec.ScriptDir exFS.cwd "run_scripts/solve_quadratic.py".toList (exFS.cwd ++ ["run_scripts".toList]) :=
  .relative ["run_scripts".toList] "solve_quadratic.py".toList (by decide) (by unfold Spec.Plain; decide) (by unfold Spec.Plain; decide)

/-- With the hook renamed the run succeeds, and it is a grid run that is saved. -/
example : (match solveRun ["_set_up_specific_argparser_groups_arguments"] exFS (fun _ => exDoc true false)
    ["run_scripts/solve_quadratic.py".toList, Spec.flag, "out".toList] with
    | .ok ⟨.grid _, some _⟩ => true | _ => false) = true := by decide +kernel
/-- ... and as the code is, it ends with the missing attribute, although all else is in order. -/
example : (match solveRun (classMethods .solve) exFS (fun _ => exDoc true false)
    ["run_scripts/solve_quadratic.py".toList, Spec.flag, "out".toList] with
    | .error .attribute => true | _ => false) = true := by decide +kernel
/-- In this checkout the plot script does not start. -/
example : (match inlistPath .plot exFS ["run_scripts/plot_quadratic.py".toList] with
    | .ok i => (match parserInit (baseName .plot) (classMethods .plot) exFS i ["run_scripts/plot_quadratic.py".toList] with
      | .error .group => true | _ => false)
    | _ => false) = true := by decide +kernel
/-- A profile computation of a polytrope. -/
example : ∃ a args, readToml (exDoc false true) = .ok a ∧ perform a .none true .none = .ok (.profile args) ∧
    Spec.On (exDoc false true) ["coupling_coefficient", "compute_for_polytrope"] :=
  ⟨_, _, usable_read _ (exDoc_usable false true), rfl, .bool true, .deep rfl (.here rfl), rfl⟩
example : Spec.On (exDoc true true) ["computation", "compute_grid_models"] := ⟨.bool true, .deep rfl (.here rfl), rfl⟩

end Verif.Runner
