import Verif.Opts.Props
/-! # C174: the two ways of naming the inlist of a parser

`util-tools/generic_parser/generic_parser.py` 96-327: `_initialize_path_info`, `_initialization_mode_1`,
`_initialization_mode_2`, `_check_if_string`. -/
namespace Verif.Opts
open Verif.Inlist (Str contains)

/-- A Python value passed as argument: `None`, a string, an absolute `Path` (the directories below the root and the last
component), or another object without an attribute `name`. -/
inductive PyArg
  | none
  | str (s : Str)
  | path (dirs : List Str) (file : Str)
  | other

/-- The collected exceptions: `TypeError` of `_check_if_string` (321), `TypeError` of the path (191, 215, 227, 232),
`FileNotFoundError` of the base directory (208). -/
inductive InitErr
  | notString (what : String)
  | notPath
  | noBase
deriving DecidableEq

/-- The attributes `_base_dir`, `_inlist_dir`, `_inlist_name`, `_inlist_suffix`. -/
structure Stored where
  base : Str
  dir : Str
  name : Str
  suffix : Str
deriving DecidableEq

/-- `'/'.join(ws)`. -/
def slashed : List Str → Str
  | [] => []
  | [w] => w
  | w :: ws => w ++ '/' :: slashed ws

/-- `str(path)` of an absolute path. -/
def absText (ws : List Str) : Str := '/' :: slashed ws

/-- `str(path)` of a relative path; the empty one is a dot. -/
def relText (ws : List Str) : Str := if ws = [] then ['.'] else slashed ws

/-- The object under construction: its attributes, and the list of collected exceptions. -/
structure InitState where
  stored : Option Stored
  errs : List InitErr

/-- `_check_if_string` (299-327). -/
def checkString (what : String) (a : PyArg) (s : InitState) : Bool × InitState :=
  match a with
  | .str _ => (true, s)
  | _ => (false, { s with errs := s.errs ++ [.notString what] })

/-- `_initialization_mode_2` (246-297): both checks are made (`&`), the attributes are stored if both pass. -/
def initMode2 (base name : PyArg) (dir : Option Str) (suffix : Str) (s : InitState) : Bool × InitState :=
  let r1 := checkString "base directory" base s
  let r2 := checkString "inlist_name" name r1.2
  if r1.1 && r2.1 then
    match base, name with
    | .str b, .str n => (true, { r2.2 with stored := some ⟨b, dir.getD "inlists/user_input".toList, n, suffix⟩ })
    | _, _ => (false, r2.2)
  else (false, r2.2)

/-- `_initialization_mode_1` (159-244): the attributes are stored only at the end (239-242); a value without `name` ends
in the outer handler. -/
def initMode1 (baseName : Str) (full : PyArg) (s : InitState) : Bool × InitState :=
  match full with
  | .path dirs file =>
    match mode1 baseName dirs file with
    | some i => (true, { s with stored := some ⟨absText i.base, relText i.dir, i.name, i.suffix⟩ })
    | Option.none => (false, { s with errs := s.errs ++ [.noBase] })
  | _ => (false, { s with errs := s.errs ++ [.notPath] })

/-- `_initialize_path_info` (96-157): mode 2 first, then the preferred mode 1; an `ExceptionGroup` if both failed. -/
def initPaths (baseName : Str) (full base name : PyArg) (dir : Option Str) (suffix : Str) :
    Except (List InitErr) (Option Stored) :=
  let m2 := initMode2 base name dir suffix ⟨Option.none, []⟩
  let m1 := initMode1 baseName full m2.2
  if (m1.1 && !m2.1) || (m2.1 && !m1.1) then .ok m1.2.stored
  else if m1.1 && m2.1 then .ok m1.2.stored
  else .error m1.2.errs

namespace Spec

/-- The path names a file below a directory whose name contains `baseName`; `b` ends in the nearest such directory. -/
def Below (baseName : Str) (full : PyArg) (b d : List Str) (file : Str) : Prop :=
  full = .path (b ++ d) file ∧ (∃ l, b.getLast? = some l ∧ contains baseName l = true) ∧ ∀ x ∈ d, contains baseName x = false

/-- What is wrong with the three arguments, in the order of the checks. -/
def wrong (baseName : Str) (full base name : PyArg) : List InitErr :=
  (match base with | .str _ => [] | _ => [.notString "base directory"]) ++
  (match name with | .str _ => [] | _ => [.notString "inlist_name"]) ++
  (match full with | .path _ _ => [.noBase] | _ => [.notPath])

end Spec

theorem findBase_of_below (baseName : Str) (b d : List Str) (hl : ∃ l, b.getLast? = some l ∧ contains baseName l = true)
    (hd : ∀ x ∈ d, contains baseName x = false) : findBase baseName (b ++ d) = some (b, d) := by
  obtain ⟨l, hl, hc⟩ := hl
  obtain ⟨b', rfl⟩ : ∃ b', b = b' ++ [l] := by
    refine ⟨b.dropLast, ?_⟩
    rw [List.getLast?_eq_some_iff] at hl
    obtain ⟨ys, rfl⟩ := hl
    simp
  have hi : (b' ++ [l] ++ d).reverse.findIdx? (contains baseName) = some d.length := by
    rw [List.findIdx?_eq_some_iff_getElem]
    refine ⟨by simp, ?_, ?_⟩
    · have : (b' ++ [l] ++ d).reverse = d.reverse ++ (l :: b'.reverse) := by simp
      simp only [this]
      rw [List.getElem_append_right (by simp)]
      simpa using hc
    · intro j hj
      have : (b' ++ [l] ++ d).reverse = d.reverse ++ (l :: b'.reverse) := by simp
      simp only [this]
      rw [List.getElem_append_left (by simpa using hj)]
      have := hd (d.reverse[j]'(by simpa using hj)) (List.mem_reverse.1 (List.getElem_mem _))
      rw [this]; exact Bool.false_ne_true
  have hlen : (b' ++ [l] ++ d).length - d.length = (b' ++ [l]).length := by
    rw [List.length_append (as := b' ++ [l])]; exact Nat.add_sub_cancel _ _
  simp only [findBase, hi, hlen, List.take_left, List.drop_left]

theorem below_of_findBase (baseName : Str) (dirs b d : List Str) (h : findBase baseName dirs = some (b, d)) :
    b ++ d = dirs ∧ (∃ l, b.getLast? = some l ∧ contains baseName l = true) ∧ ∀ x ∈ d, contains baseName x = false := by
  refine ⟨findBase_split _ _ _ _ h, ?_⟩
  have hex : ∃ x ∈ dirs, contains baseName x = true := by
    unfold findBase at h
    cases hf : dirs.reverse.findIdx? (contains baseName) with
    | none => simp [hf] at h
    | some i =>
      rw [List.findIdx?_eq_some_iff_getElem] at hf
      obtain ⟨hlt, hc, -⟩ := hf
      exact ⟨_, List.mem_reverse.1 (List.getElem_mem hlt), hc⟩
  obtain ⟨i, hi, -, hl, hd, -⟩ := C61_default_path_partial baseName dirs [] [] (by simp) (by simp) hex
  simp only [mode1, h, Option.map_some, Option.some.injEq] at hi
  subst hi
  exact ⟨hl, hd⟩

/-- **C174.** A full path below a directory with the given name decides all four attributes, whatever the other arguments
are: base directory, directory below it, and the name and suffix of the file. -/
theorem C174_full_path (baseName : Str) (b d : List Str) (name suffix : Str) (h1 : '.' ∉ name) (h2 : '.' ∉ suffix)
    (full : PyArg) (h : Spec.Below baseName full b d (name ++ '.' :: suffix)) (base' name' : PyArg) (dir' : Option Str)
    (suffix' : Str) :
    initPaths baseName full base' name' dir' suffix' = .ok (some ⟨absText b, relText d, name, suffix⟩) := by
  obtain ⟨rfl, hl, hd⟩ := h
  have hm : mode1 baseName (b ++ d) (name ++ '.' :: suffix) = some ⟨b, d, name, suffix⟩ := by
    rw [mode1, findBase_of_below _ _ _ hl hd]
    have hn : firstPart (name ++ '.' :: suffix) = name := takeW_dot name h1 suffix
    have hs : lastPart (name ++ '.' :: suffix) = suffix := by
      unfold lastPart
      have : (name ++ '.' :: suffix).reverse = suffix.reverse ++ '.' :: name.reverse := by simp
      rw [this, takeW_dot _ (by simpa using h2), List.reverse_reverse]
    simp [hn, hs]
  unfold initPaths initMode1
  simp only [hm]
  cases (initMode2 base' name' dir' suffix' ⟨none, []⟩).1 <;> rfl

/-- **C174.** Without such a path, a base directory and an inlist name given as strings are stored as they are, with the
default directory `inlists/user_input`. -/
theorem C174_named (baseName : Str) (full : PyArg) (h : ¬ ∃ b d file, Spec.Below baseName full b d file) (base name : Str)
    (dir : Option Str) (suffix : Str) :
    initPaths baseName full (.str base) (.str name) dir suffix =
      .ok (some ⟨base, dir.getD "inlists/user_input".toList, name, suffix⟩) := by
  have hm : ∀ s, (initMode1 baseName full s).1 = false ∧ (initMode1 baseName full s).2.stored = s.stored := by
    intro s
    unfold initMode1
    cases full with
    | path dirs file =>
      cases hf : findBase baseName dirs with
      | none => simp [mode1, hf]
      | some bd =>
        obtain ⟨b, d⟩ := bd
        obtain ⟨e, hl, hd⟩ := below_of_findBase _ _ _ _ hf
        exact absurd ⟨b, d, file, by rw [e], hl, hd⟩ h
    | _ => exact ⟨rfl, rfl⟩
  unfold initPaths
  simp only [hm]
  rfl

/-- **C174.** The parser is refused exactly if neither way works, and then the group holds one exception for each of the
arguments that is wrong. -/
theorem C174_refused (baseName : Str) (full base name : PyArg) (dir : Option Str) (suffix : Str) (errs : List InitErr) :
    initPaths baseName full base name dir suffix = .error errs ↔
      (¬ ∃ b d file, Spec.Below baseName full b d file) ∧ (¬ ∃ s t, base = .str s ∧ name = .str t) ∧
        errs = Spec.wrong baseName full base name := by
  by_cases hb : ∃ b d file, Spec.Below baseName full b d file
  · obtain ⟨b, d, file, rfl, hl, hd⟩ := hb
    have : (initPaths baseName (.path (b ++ d) file) base name dir suffix) =
        .ok (some ⟨absText b, relText d, firstPart file, lastPart file⟩) := by
      unfold initPaths initMode1
      simp only [mode1, findBase_of_below _ _ _ hl hd, Option.map_some]
      cases (initMode2 base name dir suffix ⟨none, []⟩).1 <;> rfl
    rw [this]
    simp only [reduceCtorEq, false_iff]
    rintro ⟨hn, -⟩
    exact hn ⟨b, d, file, rfl, hl, hd⟩
  · have hm : ∀ s, initMode1 baseName full s = (false, { s with errs := s.errs ++
        (match full with | .path _ _ => [.noBase] | _ => [.notPath]) }) := by
      intro s
      unfold initMode1
      cases full with
      | path dirs file =>
        cases hf : findBase baseName dirs with
        | none => simp [mode1, hf]
        | some bd =>
          obtain ⟨b, d⟩ := bd
          obtain ⟨e, hl, hd⟩ := below_of_findBase _ _ _ _ hf
          exact absurd ⟨b, d, file, by rw [e], hl, hd⟩ hb
      | _ => rfl
    unfold initPaths
    simp only [hm]
    cases base <;> cases name <;> cases full <;>
      simp [initMode2, checkString, Spec.wrong, hb, eq_comm]

/-- Hypotheses met: the path of the default inlist of the solve script; the arguments of mode 2 are ignored. -/
example : initPaths "AESolver".toList (.path ["home".toList, "AESolver".toList, "inlists".toList] "inlist.toml".toList)
    (.str "elsewhere".toList) (.str "other".toList) none "in".toList =
      .ok (some ⟨"/home/AESolver".toList, "inlists".toList, "inlist".toList, "toml".toList⟩) := by
  refine C174_full_path _ ["home".toList, "AESolver".toList] ["inlists".toList] "inlist".toList "toml".toList (by decide)
    (by decide) _ ⟨rfl, ⟨_, rfl, ?_⟩, ?_⟩ _ _ _ _
  · decide
  · simp only [List.mem_singleton, forall_eq]; decide

example : initPaths "AESolver".toList .none (.str "/d".toList) .none none [] =
    .error [.notString "inlist_name", .notPath] := rfl

end Verif.Opts
