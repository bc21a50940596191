import Verif.Load.SI
/-!
# C125 (polytropes), C128–C130: contents of files, directories
-/
namespace Verif.Load
open Verif.Inlist (Str)

noncomputable section

/-! ### Contents of a file -/

section read
variable {α : Type} (columns header : Str → Option α)

/-- The value found for a name. -/
def found (k : Str) : Option α := match columns k with
  | some v => some v
  | none => header k

theorem readFile_step (d : Dict α) (k : Str) : (match columns k with
    | some v => put d k v
    | none => match header k with
      | some v => put d k v
      | none => d) = match found columns header k with
    | some v => put d k v
    | none => d := by
  unfold found
  cases columns k <;> rfl

theorem readFile_fold (attrs : List Str) : ∀ d : Dict α, (d.map (·.1)).Nodup →
    let e := attrs.foldl (fun d k => match columns k with
      | some v => put d k v
      | none => match header k with
        | some v => put d k v
        | none => d) d
    (e.map (·.1)).Nodup ∧ (∀ k, get e k = if k ∈ attrs ∧ (found columns header k).isSome then found columns header k else get d k) := by
  induction attrs with
  | nil => intro d hd; exact ⟨hd, fun k => by simp⟩
  | cons a as ih =>
    intro d hd
    simp only [List.foldl_cons]
    rw [readFile_step columns header d a]
    cases hf : found columns header a with
    | none =>
      obtain ⟨h1, h2⟩ := ih d hd
      refine ⟨h1, fun k => ?_⟩
      rw [h2 k]
      by_cases hk : k = a
      · subst hk; simp [hf]
      · simp [hk]
    | some v =>
      obtain ⟨h1, h2⟩ := ih (put d a v) (nodup_put hd a v)
      refine ⟨h1, fun k => ?_⟩
      rw [h2 k, get_put]
      by_cases hk : k = a
      · subst hk; simp [hf]
      · have : ¬ a = k := fun q => hk q.symm
        simp [hk, this]

/-- C128: exactly the known quantities that are in the file are read, each once, a data set (column) before an attribute (header
entry) of the same name, with the value found. -/
theorem C128_contents (attrs : List Str) :
    ((readFile columns header attrs).map (·.1)).Nodup ∧
    (∀ k, k ∈ attrs → get (readFile columns header attrs) k = match columns k with
      | some v => some v
      | none => header k) ∧
    ∀ k, k ∉ attrs → get (readFile columns header attrs) k = none := by
  obtain ⟨h1, h2⟩ := readFile_fold columns header attrs [] List.nodup_nil
  refine ⟨h1, fun k hk => ?_, fun k hk => ?_⟩
  · refine (h2 k).trans ?_
    show _ = found columns header k
    cases hf : found columns header k with
    | none => simp [get_nil]
    | some v => simp [hk]
  · refine (h2 k).trans ?_
    simp [hk, get_nil]

end read

/-- The names that are looked for in a file (E:42-57). -/
def attrs (t : Table) : List Str := t.map (·.1)

/-- C128: the unit conversion knows every name that was read, so that in cgs units the data of a profile are what was read. -/
theorem C128_no_unknown_name (columns header : Str → Option V) (sys : Str) (hs : sys ≠ "SI".toList) (t : Table) :
    unitConvert t sys (readFile columns header (attrs t)) = some (readFile columns header (attrs t)) := by
  apply unitConvert_other hs
  intro k hk
  by_contra hc
  exact get_none.1 ((C128_contents columns header (attrs t)).2.2 k hc) hk

/-- C128: every quantity with a documented unit, every profile that is a unit, and the stellar parameters are known quantities: what
the file of a mode holds under these names is read. -/
theorem C128_known (columns header : Str → Option V) (s : Star) (k : String)
    (hk : (∃ e ∈ scalarUnits s, k ∈ e.1) ∨ (∃ e ∈ profileUnits, k = e.1 ∨ k = e.2) ∨
      k ∈ ["M_star", "R_star", "l", "m", "n_pg", "omega", "freq", "x"]) :
    get (readFile columns header (attrs detailTable)) k.toList = match columns k.toList with
      | some v => some v
      | none => header k.toList := by
  suffices hm : k.toList ∈ attrs detailTable by
    rw [(C128_contents columns header (attrs detailTable)).2.1 _ hm]
    cases columns k.toList <;> rfl
  have h1 : ∀ k ∈ (scalarUnits s).flatMap (·.1), k.toList ∈ attrs detailTable := by
    have : (scalarUnits s).flatMap (·.1) = ["xi_r", "xi_h", "xi_r_ref", "xi_h_ref", "eul_phi", "eul_phi_ref", "deul_phi",
      "deul_phi_ref", "Omega_rot", "Delta_p", "Delta_g", "E", "E_p", "E_g", "dE_dx", "H", "W", "W_eps", "tau_ss", "tau_tr",
      "dW_dx", "dW_eps_dx", "dtau_ss_dx", "dtau_tr_dx"] := rfl
    rw [this]
    decide +kernel
  have h2 : ∀ e ∈ profileUnits, e.1.toList ∈ attrs detailTable ∧ e.2.toList ∈ attrs detailTable := by decide +kernel
  have h3 : ∀ k ∈ ["M_star", "R_star", "l", "m", "n_pg", "omega", "freq", "x"], k.toList ∈ attrs detailTable := by decide +kernel
  rcases hk with ⟨e, he, hk⟩ | ⟨e, he, rfl | rfl⟩ | hk
  · exact h1 k (List.mem_flatMap.2 ⟨e, he, hk⟩)
  · exact (h2 e he).1
  · exact (h2 e he).2
  · exact h3 k hk

/-- C128: from the file to the loaded mode: the displacement in cgs units. -/
theorem C128_mode (columns header : Str → Option V) (gS gC R : ℝ) (zs : List (ℝ × ℝ)) (d' : Dict V)
    (h : loadDetail gS gC "CGS".toList (readFile columns header (attrs detailTable)) = some d')
    (h1 : columns "xi_r".toList = some (.pairs zs)) (h2 : columns "R_star".toList = none) (h3 : header "R_star".toList = some (.sc R)) :
    ∃ w, get d' "xi_r_dim".toList = some w ∧ vals w = zs.map fun z => (⟨z.1, z.2⟩ : ℂ) * (R : ℂ) := by
  obtain ⟨c1, c2, _⟩ := C128_contents columns header (attrs detailTable)
  have hx : get (readFile columns header (attrs detailTable)) "xi_r".toList = some (.pairs zs) := by
    rw [c2 _ (by decide +kernel), h1]
  have hR : get (readFile columns header (attrs detailTable)) "R_star".toList = some (.sc R) := by
    rw [c2 _ (by decide +kernel), h2, h3]
  obtain ⟨_, u, w, hu, hw, hg⟩ := (detail_kinds c1 h).2.2.1 "xi_r".toList _ .radius (mem_put_of_mem (get_mem hx) (by decide))
    (by decide +kernel) (by decide +kernel)
  refine ⟨w, hg, ?_⟩
  have : u = .sc R := by
    unfold Fac.eval at hu
    dsimp only at hu
    rw [get_put, if_neg (by decide), hR] at hu
    exact (Option.some.inj hu).symm
  subst this
  rw [dimVal_sc hw]
  simp [vals]

/-! ### Polytropes -/

theorem poly_nodim : ∀ k ∈ strs ["G", "M_star", "R_star"] ++ polyOscTable.map (·.1),
    ∀ k' ∈ strs ["G", "M_star", "R_star"] ++ polyOscTable.map (·.1), k' ≠ k ++ "_dim".toList := by decide +kernel

theorem mem_keys_put {α : Type} {d : Dict α} {k k' : Str} {v : α} (h : k' ∈ (put d k v).map (·.1)) : k' = k ∨ k' ∈ d.map (·.1) := by
  rw [keys_put] at h
  split_ifs at h
  · exact Or.inr h
  · rcases List.mem_append.1 h with g | g
    · exact Or.inr g
    · exact Or.inl (List.mem_singleton.1 g)

/-- C125: for polytropes, too, what was read stays as the same numbers; the gravitational constant, the mass and the radius are added
as given, and nothing else. -/
theorem C125_polytrope (gS gC : ℝ) (sys : Str) (m r : ℝ) (d d' : Dict V) (hd : (d.map (·.1)).Nodup)
    (hk : ∀ k ∈ d.map (·.1), k ∈ polyOscTable.map (·.1)) (h : loadPolyOsc gS gC sys m r d = some d') :
    (∀ k v, get d k = some v → ∃ w, get d' k = some w ∧ SameNumbers w v) ∧
    get d' "G".toList = some (.sc (gFor gS gC sys)) ∧ get d' "M_star".toList = some (.sc m) ∧ get d' "R_star".toList = some (.sc r) ∧
    ∀ n, get d' n ≠ none → n ∈ strs ["G", "M_star", "R_star"] ∨ ∃ v, get d n = some v := by
  unfold loadPolyOsc at h
  generalize hb : put (put (put d "G".toList (.sc (gFor gS gC sys))) "M_star".toList (.sc m)) "R_star".toList (.sc r) = b at h
  have hnd : (b.map (·.1)).Nodup := by
    rw [← hb]
    exact nodup_put (nodup_put (nodup_put hd _ _) _ _) _ _
  have hin : ∀ k ∈ b.map (·.1), k ∈ strs ["G", "M_star", "R_star"] ++ polyOscTable.map (·.1) := by
    intro k hkb
    rw [← hb] at hkb
    rcases mem_keys_put hkb with q | q
    · exact List.mem_append_left _ (by rw [q]; decide)
    rcases mem_keys_put q with q | q
    · exact List.mem_append_left _ (by rw [q]; decide)
    rcases mem_keys_put q with q | q
    · exact List.mem_append_left _ (by rw [q]; decide)
    exact List.mem_append_right _ (hk k q)
  have hno : NoDim b := by
    intro a ha c hc
    exact poly_nodim _ (hin _ (List.mem_map_of_mem (f := (·.1)) ha)) _ (hin _ (List.mem_map_of_mem (f := (·.1)) hc))
  obtain ⟨k1, k2, _, k4⟩ := dim_get hnd hno h
  have hnone : ∀ k, get reImPoly.facs (upper k) = none := fun _ => rfl
  have one : ∀ k v, (k, v) ∈ b → ∃ w, get d' k = some w ∧ SameNumbers w v ∧ (k ∉ reImPoly.complex → w = v) := by
    intro k v hkv
    by_cases ha : k ∈ reImPoly.avoid
    · exact ⟨v, k1 k v hkv ha, Or.inl rfl, fun _ => rfl⟩
    · obtain ⟨w, hw, hg⟩ := k2 k v hkv ha (hnone k)
      refine ⟨w, hg, ?_⟩
      unfold dimVal at hw
      split_ifs at hw with hc
      · obtain ⟨q, zs, rfl⟩ := reIm_sc hw
        refine ⟨Or.inr ⟨zs, rfl, ?_⟩, fun q => absurd hc q⟩
        simpa [vals] using q.symm
      · exact ⟨Or.inl (vmul_one hw), fun _ => vmul_one hw⟩
  have hgb : ∀ k, get b k = if "R_star".toList = k then some (.sc r) else if "M_star".toList = k then some (.sc m) else
      if "G".toList = k then some (.sc (gFor gS gC sys)) else get d k := by
    intro k
    rw [← hb, get_put, get_put, get_put]
  have const : ∀ k x, get b k = some x → k ∉ reImPoly.complex → get d' k = some x := by
    intro k x hx hc
    obtain ⟨w, h1, _, h2⟩ := one k x (get_mem hx)
    rw [h1, h2 hc]
  have hne : ∀ k ∈ strs ["G", "M_star", "R_star"], k ∉ polyOscTable.map (·.1) := by decide +kernel
  refine ⟨?_, ?_, ?_, ?_, ?_⟩
  · intro k v hkv
    have hkt := hk k (List.mem_map_of_mem (f := (·.1)) (get_mem hkv))
    have n1 : ∀ s ∈ strs ["G", "M_star", "R_star"], s ≠ k := fun s hs q => hne s hs (q ▸ hkt)
    have : get b k = some v := by
      rw [hgb, if_neg (n1 _ (by decide)), if_neg (n1 _ (by decide)), if_neg (n1 _ (by decide)), hkv]
    obtain ⟨w, h1, h2, _⟩ := one k v (get_mem this)
    exact ⟨w, h1, h2⟩
  · exact const _ _ (by rw [hgb, if_neg (by decide), if_neg (by decide), if_pos rfl]) (by decide +kernel)
  · exact const _ _ (by rw [hgb, if_neg (by decide), if_pos rfl]) (by decide +kernel)
  · exact const _ _ (by rw [hgb, if_pos rfl]) (by decide +kernel)
  · intro n hn
    rcases k4 n hn with ⟨v, hv⟩ | ⟨k, v, f, _, _, hf, _⟩
    · have := get_of_mem hnd hv
      rw [hgb] at this
      split_ifs at this with q1 q2 q3
      · exact Or.inl (q1 ▸ by decide)
      · exact Or.inl (q2 ▸ by decide)
      · exact Or.inl (q3 ▸ by decide)
      · exact Or.inr ⟨v, this⟩
    · cases hf

example : ∃ d', loadPolyOsc 1 1 "CGS".toList 3 4 [("xi_r".toList, .pairs [(1, 2)]), ("l".toList, .sc 2), ("x".toList, .ar [0, 1])] =
    some d' := ⟨_, rfl⟩

/-! ### C129: directories given by the user -/

/-- The directory a user means (load_models.py 56-61, docstring): relative to the base directory if there is one, else absolute. -/
def documented (base : Option Str) (sub : Str) : Str := match base with
  | some b => b ++ sub
  | none => sub

/-- C129: what is used. With a base directory, the directories given are used as they are, whether or not they are to be inferred. -/
theorem C129_as_given_partial (ls : Str → Option (List Entry)) (b : Str) (infer : Bool) (d d' : Dirs)
    (h : loaderDirs ls (some b) infer d = some d') :
    (∀ s, d.mesa = some s → d'.mesa = some s) ∧ (∀ s, d.gyre = some s → d'.gyre = some s) ∧
    (∀ s, d.polyModel = some s → d'.polyModel = some s) ∧ ∀ s, d.polyOsc = some s → d'.polyOsc = some s := by
  have hi : ∀ o : Option Str, initDirPath (some b) o = o := by intro o; cases o <;> rfl
  have hid : initDirs (some b) d = d := by
    unfold initDirs
    rw [hi, hi, hi, hi]
  unfold loaderDirs at h
  rw [hid] at h
  unfold inferDirs at h
  split_ifs at h with hc
  · obtain ⟨l, _, h⟩ := Option.map_eq_some_iff.1 h
    subst h
    have ho : ∀ w o s, o = some s → inferOne w b l o = some s := by rintro w o s rfl; rfl
    exact ⟨fun s hs => ho _ _ s hs, fun s hs => ho _ _ s hs, fun s hs => ho _ _ s hs, fun s hs => ho _ _ s hs⟩
  · have := Option.some.inj h
    subst this
    exact ⟨fun _ h => h, fun _ h => h, fun _ h => h, fun _ h => h⟩

/-- C129 is refuted: a directory given together with a base directory is not looked for in the base directory. -/
theorem C129_not_relative_wrong (ls : Str → Option (List Entry)) (b s : Str) (hb : b ≠ []) (infer : Bool) (d d' : Dirs)
    (hs : d.mesa = some s) (h : loaderDirs ls (some b) infer d = some d') :
    d'.mesa = some s ∧ s ≠ documented (some b) s := by
  refine ⟨(C129_as_given_partial ls b infer d d' h).1 s hs, ?_⟩
  intro q
  have h1 := congrArg List.length q
  unfold documented at h1
  dsimp only at h1
  rw [List.length_append] at h1
  have : b.length ≠ 0 := fun h0 => hb (List.length_eq_zero_iff.1 h0)
  omega

/-- C129 is refuted: without a base directory the path is put behind the word `None`, so that no absolute path is used. -/
theorem C129_none_prefix_wrong (ls : Str → Option (List Entry)) (infer : Bool) (d d' : Dirs) (h : loaderDirs ls none infer d = some d') :
    (∀ s, d.mesa = some s → d'.mesa = some ("None".toList ++ s)) ∧ (∀ s, d.gyre = some s → d'.gyre = some ("None".toList ++ s)) ∧
    (∀ s, d.polyModel = some s → d'.polyModel = some ("None".toList ++ s)) ∧
    (∀ s, d.polyOsc = some s → d'.polyOsc = some ("None".toList ++ s)) ∧
    ∀ s, documented none s ≠ "None".toList ++ s := by
  unfold loaderDirs inferDirs at h
  split_ifs at h with hc
  · have := Option.some.inj h
    subst this
    have hi : ∀ (o : Option Str) s, o = some s → initDirPath none o = some ("None".toList ++ s) := by rintro o s rfl; rfl
    refine ⟨fun s hs => hi _ s hs, fun s hs => hi _ s hs, fun s hs => hi _ s hs, fun s hs => hi _ s hs, ?_⟩
    intro s q
    have h1 := congrArg List.length q
    unfold documented at h1
    dsimp only at h1
    rw [List.length_append] at h1
    have : ("None".toList).length = 4 := by decide
    omega

example (ls : Str → Option (List Entry)) : (loaderDirs ls none false ⟨some "/data/mesa".toList, some "/data/gyre".toList, none, none⟩).isSome :=
  rfl

/-- C129 is refuted: without a base directory the program exits if a directory is missing that is not needed, e.g. those of
polytropes when the modes of a MESA model are to be loaded. -/
theorem C129_exit_wrong (ls : Str → Option (List Entry)) (m g : Str) : loaderDirs ls none true ⟨some m, some g, none, none⟩ = none := rfl

/-- C129 is refuted: a directory that is not given, and not inferred, is not left out: the working directory is searched. -/
theorem C129_working_directory_wrong (ls : Str → Option (List Entry)) (b : Option Str) (d d' : Dirs) (hm : d.mesa = none)
    (h : loaderDirs ls b false d = some d') : d'.mesa = none ∧ scanned d'.mesa = ".".toList := by
  unfold loaderDirs inferDirs at h
  simp only [Bool.false_and, Bool.false_eq_true, if_false, Option.some.injEq] at h
  subst h
  have : (initDirs b d).mesa = none := by
    unfold initDirs
    rw [hm]
    rfl
  rw [this]
  exact ⟨rfl, rfl⟩

/-! ### C130: inferred directories -/

/-- A directory of the base directory with the word in its name. -/
def Fits (word : Str) (e : Entry) : Prop := e.isDir = true ∧ word <:+: lower e.name

theorem candidates_eq (word b : Str) (l : List Entry) : ∃ f : List Entry, (∀ e, e ∈ f ↔ e ∈ l ∧ Fits word e) ∧ f.Sublist l ∧
    candidates word b l = f.map fun e => joinPath b e.name := by
  refine ⟨_, ?_, List.filter_sublist, rfl⟩
  intro e
  rw [List.mem_filter]
  unfold Fits
  simp

/-- C130: a directory that is not given is the one whose name contains the word, if there is exactly one; otherwise there is none. -/
theorem C130_inferred (ls : Str → Option (List Entry)) (b : Str) (l : List Entry) (hl : ls b = some l) (hnd : (l.map (·.name)).Nodup)
    (d d' : Dirs) (h : loaderDirs ls (some b) true d = some d') (word : String) (sel : Dirs → Option Str)
    (hw : (word, sel) ∈ [("mesa", Dirs.mesa), ("gyre", Dirs.gyre), ("polytrope_model", Dirs.polyModel),
      ("polytrope_oscillation", Dirs.polyOsc)]) (hn : sel d = none) :
    (∀ p, sel d' = some p ↔ ∃ e ∈ l, Fits word.toList e ∧ p = joinPath b e.name ∧ ∀ e' ∈ l, Fits word.toList e' → e' = e) := by
  have hi : ∀ o : Option Str, initDirPath (some b) o = o := by intro o; cases o <;> rfl
  have hid : initDirs (some b) d = d := by
    unfold initDirs
    rw [hi, hi, hi, hi]
  have key : sel d' = resultsInfer none (candidates word.toList b l) := by
    unfold loaderDirs at h
    rw [hid] at h
    unfold inferDirs at h
    have hc : (true && (d.mesa.isNone || d.gyre.isNone || d.polyModel.isNone || d.polyOsc.isNone)) = true := by
      simp only [List.mem_cons, List.not_mem_nil, or_false, Prod.mk.injEq] at hw
      rcases hw with ⟨_, rfl⟩ | ⟨_, rfl⟩ | ⟨_, rfl⟩ | ⟨_, rfl⟩ <;> simp [hn]
    rw [if_pos hc] at h
    dsimp only at h
    rw [hl] at h
    have := Option.some.inj h
    subst this
    simp only [List.mem_cons, List.not_mem_nil, or_false, Prod.mk.injEq] at hw
    rcases hw with ⟨rfl, rfl⟩ | ⟨rfl, rfl⟩ | ⟨rfl, rfl⟩ | ⟨rfl, rfl⟩ <;> (dsimp only; rw [hn]; rfl)
  intro p
  rw [key]
  obtain ⟨f, hf, hsub, hc⟩ := candidates_eq word.toList b l
  have hfn : f.Nodup := hsub.nodup (List.Nodup.of_map _ hnd)
  rw [hc]
  match f, hf, hfn with
  | [], hf, _ =>
    constructor
    · intro q; cases q
    · rintro ⟨e, he, hfit, _⟩
      exact absurd ((hf e).2 ⟨he, hfit⟩) (by simp)
  | [x], hf, _ =>
    have hx := (hf x).1 (by simp)
    constructor
    · intro q
      refine ⟨x, hx.1, hx.2, (Option.some.inj q).symm, ?_⟩
      intro e' he' hfit
      simpa using (hf e').2 ⟨he', hfit⟩
    · rintro ⟨e, he, hfit, hp, _⟩
      have : e = x := by simpa using (hf e).2 ⟨he, hfit⟩
      rw [hp, this]
      rfl
  | x :: y :: r, hf, hfn =>
    constructor
    · intro q; cases q
    · rintro ⟨e, he, hfit, _, hall⟩
      have h1 := hall x ((hf x).1 (by simp)).1 ((hf x).1 (by simp)).2
      have h2 := hall y ((hf y).1 (by simp)).1 ((hf y).1 (by simp)).2
      rw [List.nodup_cons] at hfn
      exact absurd (by rw [h1, ← h2]; simp) hfn.1

/-- A base directory for which the hypotheses hold, with `MESA` inferred and `gyre` ambiguous. -/
example : let ls : Str → Option (List Entry) := fun _ => some [⟨"MESA_out".toList, true⟩, ⟨"gyre_ad".toList, true⟩,
      ⟨"GYRE_nad".toList, true⟩, ⟨"mesa.txt".toList, false⟩]
    ∃ d', loaderDirs ls (some "/base".toList) true ⟨none, none, some "p".toList, none⟩ = some d' ∧
      d'.mesa = some "/base/MESA_out".toList ∧ d'.gyre = none ∧ d'.polyModel = some "p".toList := by
  refine ⟨_, rfl, ?_, ?_, rfl⟩ <;> decide +kernel

end

end Verif.Load
