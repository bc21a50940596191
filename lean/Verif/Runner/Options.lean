import Verif.Runner.Paths
/-! # Properties C120-C124: how the options of the inlist reach the solver and the saver -/
namespace Verif.Runner
open Verif.Opts (Val Tbl Item Arg PathInfo getHa readDict readList find setKey truthy mode1 findBase find_setKey At Missing
  getHa_at getHa_missing loop3 loop2 listLoop listElem fallbackElem)
open Verif.Inlist (Str contains contains_of_infix)

/-! ### Exact results of the readers -/

/-- The value looked up. -/
def val (doc : Tbl) (p : List Str) : Val := (getHa (.tbl doc) p).getD .none

theorem setKey_new (d : Tbl) (k : Str) (v : Val) (h : k ∉ d.map (·.1)) : setKey d k v = d ++ [(k, v)] := by
  unfold setKey
  rw [if_neg]
  intro hc
  obtain ⟨e, he, hk⟩ := List.any_eq_true.1 hc
  exact h (List.mem_map.2 ⟨e, he, by simpa using hk⟩)

theorem loop3_exact (doc : Tbl) (items : List Item) (d : Tbl) (hneg : ∀ i ∈ items, i.neg = some false)
    (hnd : (d.map (·.1) ++ items.map (·.key)).Nodup) :
    loop3 (.tbl doc) d items = if ∀ i ∈ items, (getHa (.tbl doc) i.path).isSome
      then .done (d ++ items.map fun i => (i.key, val doc i.path)) else .raise := by
  induction items generalizing d with
  | nil => simp [loop3]
  | cons i is ih =>
    rw [loop3, hneg i (by simp)]
    dsimp only
    cases hg : getHa (.tbl doc) i.path with
    | none =>
      rw [if_neg]
      intro hc
      have := hc i (by simp)
      rw [hg] at this
      cases this
    | some v =>
      dsimp only
      have hk : i.key ∉ d.map (·.1) := by
        intro hc
        exact (List.nodup_append.1 hnd).2.2 i.key hc i.key (by simp) rfl
      rw [setKey_new d _ _ hk, ih]
      · have : (∀ j ∈ i :: is, (getHa (.tbl doc) j.path).isSome) ↔ ∀ j ∈ is, (getHa (.tbl doc) j.path).isSome := by
          rw [List.forall_mem_cons, hg]; simp
        simp only [this, List.map_cons, List.append_assoc, List.singleton_append]
        have hv : Opts.negIf false v = val doc i.path := by rw [val, hg]; rfl
        rw [hv]
      · exact fun j hj => hneg j (by simp [hj])
      · simpa using hnd

theorem loop2_exact (doc : Tbl) (items : List Item) (d : Tbl) (hneg : ∀ i ∈ items, i.neg = none)
    (hnd : (d.map (·.1) ++ items.map (·.key)).Nodup) :
    loop2 (.tbl doc) d items = if ∀ i ∈ items, (getHa (.tbl doc) i.path).isSome
      then some (d ++ items.map fun i => (i.key, val doc i.path)) else none := by
  induction items generalizing d with
  | nil => simp [loop2]
  | cons i is ih =>
    rw [loop2, hneg i (by simp)]
    dsimp only
    cases hg : getHa (.tbl doc) i.path with
    | none =>
      rw [if_neg]
      · rfl
      · intro hc
        have := hc i (by simp)
        rw [hg] at this
        cases this
    | some v =>
      have hk : i.key ∉ d.map (·.1) := by
        intro hc
        exact (List.nodup_append.1 hnd).2.2 i.key hc i.key (by simp) rfl
      rw [Option.bind_some, setKey_new d _ _ hk, ih]
      · have : (∀ j ∈ i :: is, (getHa (.tbl doc) j.path).isSome) ↔ ∀ j ∈ is, (getHa (.tbl doc) j.path).isSome := by
          rw [List.forall_mem_cons, hg]; simp
        simp only [this, List.map_cons, List.append_assoc, List.singleton_append]
        have hv : v = val doc i.path := by rw [val, hg]; rfl
        rw [← hv]
      · exact fun j hj => hneg j (by simp [hj])
      · simpa using hnd

/-- All lookups of a table of options are defined. -/
def Defined (doc : Tbl) (ps : List (List Str)) : Prop := ∀ p ∈ ps, (getHa (.tbl doc) p).isSome

theorem readDict_exact (doc : Tbl) (items : List Item) (ng : Option Bool) (hng : ng ≠ some true)
    (hneg : ∀ i ∈ items, i.neg = ng) (h0 : items ≠ []) (hnd : (items.map (·.key)).Nodup) (t : Tbl) :
    readDict (.tbl doc) items = some t ↔ Defined doc (items.map (·.path)) ∧ t = items.map fun i => (i.key, val doc i.path) := by
  have hD : Defined doc (items.map (·.path)) ↔ ∀ i ∈ items, (getHa (.tbl doc) i.path).isSome := by
    unfold Defined
    simp
  rw [hD]
  unfold readDict
  match ng, hng with
  | some false, _ =>
    rw [loop3_exact doc items [] hneg (by simpa using hnd)]
    split_ifs with h
    · exact ⟨fun e => ⟨h, by injection e with e; exact e.symm⟩, fun e => by rw [e.2]; rfl⟩
    · exact ⟨fun e => (by cases e), fun e => absurd e.1 h⟩
  | none, _ =>
    have h3 : loop3 (.tbl doc) [] items = .valueError [] := by
      cases items with
      | nil => exact absurd rfl h0
      | cons i is => rw [loop3, hneg i (by simp)]
    rw [h3]
    dsimp only
    rw [loop2_exact doc items [] hneg (by simpa using hnd)]
    split_ifs with h
    · exact ⟨fun e => ⟨h, by injection e with e; exact e.symm⟩, fun e => by rw [e.2]; rfl⟩
    · exact ⟨fun e => (by cases e), fun e => absurd e.1 h⟩

theorem fallback_exact (doc : Tbl) (ps : List (List Str)) :
    (ps.map Arg.path).mapM (fallbackElem (.tbl doc)) = if ∀ p ∈ ps, (getHa (.tbl doc) p).isSome then some (ps.map (val doc)) else none := by
  induction ps with
  | nil => simp
  | cons p ps ih =>
    rw [List.map_cons, List.mapM_cons, ih, fallbackElem]
    cases hg : getHa (.tbl doc) p with
    | none =>
      have hn : ¬ ∀ j ∈ p :: ps, (getHa (.tbl doc) j).isSome := by
        intro hc
        have := hc p (by simp)
        rw [hg] at this
        cases this
      rw [if_neg hn]
      rfl
    | some v =>
      have : (∀ j ∈ p :: ps, (getHa (.tbl doc) j).isSome) ↔ ∀ j ∈ ps, (getHa (.tbl doc) j).isSome := by
        rw [List.forall_mem_cons, hg]; simp
      simp only [this]
      have hv : v = val doc p := by rw [val, hg]; rfl
      split_ifs <;> simp [hv]

theorem readList_exact (doc : Tbl) (p : List Str) (ps : List (List Str)) (hp : p.length ≠ 2) (vs : List Val) :
    readList (.tbl doc) ((p :: ps).map Arg.path) = some vs ↔ Defined doc (p :: ps) ∧ vs = (p :: ps).map (val doc) := by
  have h : listLoop (.tbl doc) ((p :: ps).map Arg.path) = none := by
    rw [List.map_cons, listLoop]
    have : listElem (.tbl doc) (.path p) = none := by
      match p, hp with
      | [], _ => rfl
      | [_], _ => rfl
      | _ :: _ :: _ :: _, _ => rfl
    rw [this]
  unfold readList
  rw [h]
  dsimp only
  rw [fallback_exact]
  unfold Defined
  split_ifs with h
  · exact ⟨fun e => ⟨h, by injection e with e; exact e.symm⟩, fun e => by rw [e.2]⟩
  · exact ⟨fun e => (by cases e), fun e => absurd e.1 h⟩

theorem bind_ok {α β : Type} (x : M α) (f : α → M β) (b : β) : (x >>= f) = .ok b ↔ ∃ a, x = .ok a ∧ f a = .ok b := by
  cases x with
  | error e => simp [bind, Except.bind]
  | ok a => simp [bind, Except.bind]

theorem lift_ok {α : Type} (e : Err) (o : Option α) (a : α) : lift e o = .ok a ↔ o = some a := by
  cases o <;> simp [lift]

theorem convertTuple_ok (doc d : Tbl) : convertTuple doc = .ok d ↔
    d = doc ∧ ∃ l, At doc ["coupling_coefficient".toList, "terms_cc_conj".toList] (.arr l) := by
  constructor
  · intro h
    unfold convertTuple at h
    split at h
    · rename_i t ht
      split at h
      · rename_i l hl
        cases h
        exact ⟨rfl, l, .deep ht (.here hl)⟩
      · cases h
      · cases h
    · cases h
    · cases h
  · rintro ⟨rfl, l, h⟩
    cases h with
    | deep h1 h2 =>
      cases h2 with
      | here h3 =>
        unfold convertTuple
        rw [h1]
        dsimp only
        rw [h3]
      | deep h3 h4 => cases h4

/-- The paths of a table. -/
def paths (is : List Item) : List (List Str) := is.map (·.path)
/-- The paths of a quantum number of the three modes. -/
def qpaths (q : String) : List (List Str) := ["parent", "daughter_1", "daughter_2"].map fun i => ["mode_info".toList, i.toList, q.toList]
/-- The paths at the end. -/
def rpaths : List (List Str) :=
  [["GYRE_selection".toList, "specifier".toList, "adiabatic".toList], ["GYRE_selection".toList, "specifier".toList, "nonadiabatic".toList],
   ["POLY_selection".toList, "specifier".toList, "modes".toList], ["verbosity-debug".toList, "get_debug_info".toList]]
/-- The entries of a table of options. -/
def table (doc : Tbl) (is : List Item) : Tbl := is.map fun i => (i.key, val doc i.path)
/-- All paths that are read. -/
def allPaths : List (List Str) :=
  paths modeInfoItems ++ paths polyItems ++ paths selectionItems ++ qpaths "l" ++ qpaths "m" ++ paths computationInfoItems ++
  paths computationItems ++ paths saveItems ++ paths polyModelItems ++ paths angularItems ++ paths profileItems ++
  paths profilePlotItems ++ rpaths
/-- The quantum numbers. -/
def quantum (doc : Tbl) : Tbl :=
  [("mode_l".toList, .arr ((qpaths "l").map (val doc))), ("mode_m".toList, .arr ((qpaths "m").map (val doc)))]
/-- All options. -/
def readAll (doc : Tbl) : SolveArgs where
  save := table doc saveItems
  modeInfo := table doc modeInfoItems
  profileSel := table doc profileItems ++ quantum doc
  profilePlot := table doc profilePlotItems
  modeSel := table doc selectionItems ++ quantum doc
  modeComp := table doc computationInfoItems
  comp := table doc computationItems
  polySelect := table doc polyItems
  polyModel := table doc polyModelItems
  angular := table doc angularItems
  ad := val doc ["GYRE_selection".toList, "specifier".toList, "adiabatic".toList]
  nad := val doc ["GYRE_selection".toList, "specifier".toList, "nonadiabatic".toList]
  polyModes := val doc ["POLY_selection".toList, "specifier".toList, "modes".toList]
  debugInfo := val doc ["verbosity-debug".toList, "get_debug_info".toList]

theorem readToml_ok (doc : Tbl) (a : SolveArgs) : readToml doc = .ok a ↔
    (∃ l, At doc ["coupling_coefficient".toList, "terms_cc_conj".toList] (.arr l)) ∧ Defined doc allPaths ∧ a = readAll doc := by
  have hD : ∀ l l', Defined doc (l ++ l') ↔ Defined doc l ∧ Defined doc l' := by
    intro l l'
    unfold Defined
    simp only [List.mem_append, or_imp, forall_and]
  have r3 : ∀ (items : List Item) (t : Tbl), (items.all fun i => i.neg == some false) = true → items ≠ [] → (items.map (·.key)).Nodup →
      (readDict (.tbl doc) items = some t ↔ Defined doc (paths items) ∧ t = table doc items) := by
    intro items t h h0 hnd
    exact readDict_exact doc items (some false) (by decide) (by simpa using h) h0 hnd t
  have r2 := readDict_exact doc selectionItems none (by decide) (by decide) (by decide) (by decide)
  have rl := fun q vs => readList_exact doc ["mode_info".toList, "parent".toList, String.toList q]
    [["mode_info".toList, "daughter_1".toList, q.toList], ["mode_info".toList, "daughter_2".toList, q.toList]] (by simp) vs
  have rr := fun vs => readList_exact doc ["GYRE_selection".toList, "specifier".toList, "adiabatic".toList]
    [["GYRE_selection".toList, "specifier".toList, "nonadiabatic".toList], ["POLY_selection".toList, "specifier".toList, "modes".toList],
     ["verbosity-debug".toList, "get_debug_info".toList]] (by simp) vs
  have rl' : ∀ q vs, readList (.tbl doc) (quantumPaths q) = some vs ↔ Defined doc (qpaths q) ∧ vs = (qpaths q).map (val doc) := rl
  have rr' : ∀ vs, readList (.tbl doc) restPaths = some vs ↔ Defined doc rpaths ∧ vs = rpaths.map (val doc) := rr
  unfold readToml
  simp only [bind_ok, lift_ok, convertTuple_ok]
  constructor
  · rintro ⟨d, ⟨rfl, hc⟩, t1, h1, t2, h2, t3, h3, t4, h4, t5, h5, t6, h6, t7, h7, t8, h8, t9, h9, t10, h10, t11, h11, t12, h12, t13, h13,
      t14, h14, t15, h15, h⟩
    rw [r3 _ _ (by decide) (by decide) (by decide)] at h1 h2 h6 h7 h8 h9 h10 h11 h14
    rw [r2] at h3
    rw [rl'] at h4 h5 h12 h13
    rw [rr'] at h15
    obtain ⟨d1, rfl⟩ := h1
    obtain ⟨d2, rfl⟩ := h2
    obtain ⟨d3, rfl⟩ := h3
    obtain ⟨d4, rfl⟩ := h4
    obtain ⟨d5, rfl⟩ := h5
    obtain ⟨d6, rfl⟩ := h6
    obtain ⟨d7, rfl⟩ := h7
    obtain ⟨d8, rfl⟩ := h8
    obtain ⟨d9, rfl⟩ := h9
    obtain ⟨d10, rfl⟩ := h10
    obtain ⟨d11, rfl⟩ := h11
    obtain ⟨d12, rfl⟩ := h12
    obtain ⟨d13, rfl⟩ := h13
    obtain ⟨d14, rfl⟩ := h14
    obtain ⟨d15, rfl⟩ := h15
    refine ⟨hc, ?_, ?_⟩
    · unfold allPaths
      simp only [hD]
      exact ⟨⟨⟨⟨⟨⟨⟨⟨⟨⟨⟨⟨d1, d2⟩, d3⟩, d4⟩, d5⟩, d6⟩, d7⟩, d8⟩, d9⟩, d10⟩, d11⟩, d14⟩, d15⟩
    · injection h with h
      rw [← h]
      rfl
  · rintro ⟨hc, hd, rfl⟩
    unfold allPaths at hd
    simp only [hD] at hd
    obtain ⟨⟨⟨⟨⟨⟨⟨⟨⟨⟨⟨⟨d1, d2⟩, d3⟩, d4⟩, d5⟩, d6⟩, d7⟩, d8⟩, d9⟩, d10⟩, d11⟩, d14⟩, d15⟩ := hd
    exact ⟨doc, ⟨rfl, hc⟩, _, (r3 _ _ (by decide) (by decide) (by decide)).2 ⟨d1, rfl⟩,
      _, (r3 _ _ (by decide) (by decide) (by decide)).2 ⟨d2, rfl⟩, _, (r2 _).2 ⟨d3, rfl⟩, _, (rl' _ _).2 ⟨d4, rfl⟩,
      _, (rl' _ _).2 ⟨d5, rfl⟩, _, (r3 _ _ (by decide) (by decide) (by decide)).2 ⟨d6, rfl⟩,
      _, (r3 _ _ (by decide) (by decide) (by decide)).2 ⟨d7, rfl⟩, _, (r3 _ _ (by decide) (by decide) (by decide)).2 ⟨d8, rfl⟩,
      _, (r3 _ _ (by decide) (by decide) (by decide)).2 ⟨d9, rfl⟩, _, (r3 _ _ (by decide) (by decide) (by decide)).2 ⟨d10, rfl⟩,
      _, (r3 _ _ (by decide) (by decide) (by decide)).2 ⟨d11, rfl⟩, _, (rl' _ _).2 ⟨d4, rfl⟩, _, (rl' _ _).2 ⟨d5, rfl⟩,
      _, (r3 _ _ (by decide) (by decide) (by decide)).2 ⟨d14, rfl⟩, _, (rr' _).2 ⟨d15, rfl⟩, rfl⟩

end Verif.Runner
