import Verif.Runner.Claims
import Verif.Inlist.Typing
import Verif.Opts.Props
/-! # Properties C117-C119: save name, search of the inlist, name of the checkout -/
namespace Verif.Runner
open Verif.Opts (Val Tbl Item Arg PathInfo getHa readDict readList find setKey truthy mode1 findBase find_setKey)
open Verif.Inlist (Str contains contains_of_infix)

/-- The flag that introduces the save name. -/
abbrev Spec.flag : Str := "--save_file_name".toList

theorem parse_last (opts : List CliOpt) (o : CliOpt) (flag v : Str) (ho : opts.find? (fun o => decide (flag ∈ o.flags)) = some o)
    (hv : o.takesValue = true) (hf : flag.head? = some '-') (l : List Str) (ns ns' : Namespace)
    (h : parseArgs opts ns (l ++ [flag, v]) = .ok ns') : find o.dest ns' = some (.str v) := by
  have base : ∀ ns, parseArgs opts ns [flag, v] = .ok ns' → find o.dest ns' = some (.str v) := by
    intro ns h
    rw [parseArgs, ho] at h
    dsimp only at h
    rw [if_pos hv] at h
    split at h
    · cases h
    · rw [parseArgs] at h
      cases h
      rw [find_setKey, if_pos rfl]
  induction l using List.twoStepInduction generalizing ns with
  | nil => exact base ns h
  | singleton a =>
    rw [List.singleton_append, parseArgs] at h
    split at h
    · exact base ns h
    · split at h
      · dsimp only at h
        rw [if_pos hf] at h
        cases h
      · exact base _ h
  | cons_cons a b l ih1 ih2 =>
    rw [List.cons_append, parseArgs] at h
    split at h
    · exact ih2 b ns h
    · split at h
      · rw [List.cons_append] at h
        dsimp only at h
        split at h
        · cases h
        · exact ih1 _ h
      · exact ih2 b _ h

/-! ### C118: which inlist -/

/-- **C118.** The solve script accepts exactly two command lines: the save name alone (default inlist), or name, suffix and
directory of an inlist before it. -/
theorem C118_solve_arguments (argv : List Str) (file dir : Str) :
    inlistFile .solve argv = .ok (file, dir) ↔
      (∃ script name, argv = [script, Spec.flag, name] ∧ file = "inlist.toml".toList ∧ dir = "./inlists/".toList) ∨
      (∃ script f x name, argv = [script, f, x, dir, Spec.flag, name] ∧ file = f ++ ['.'] ++ x) := by
  constructor
  · intro h
    unfold inlistFile at h
    dsimp only at h
    split_ifs at h with h1 h2
    · right
      match argv, h1 with
      | [a, b, c, d, e, f], _ =>
        unfold checkSaveFileName at h
        simp only [List.getD_cons_succ, List.getD_cons_zero] at h
        split_ifs at h with h3
        · cases h
        · rw [not_not] at h3
          subst h3
          simp only [Except.map, Except.ok.injEq, Prod.mk.injEq] at h
          obtain ⟨rfl, rfl⟩ := h
          exact ⟨a, b, c, f, rfl, by simp⟩
    · left
      match argv, h2 with
      | [a, b, c], _ =>
        unfold checkSaveFileName at h
        simp only [List.getD_cons_succ, List.getD_cons_zero] at h
        split_ifs at h with h3
        · cases h
        · rw [not_not] at h3
          subst h3
          simp only [Except.map, Except.ok.injEq, Prod.mk.injEq] at h
          obtain ⟨rfl, rfl⟩ := h
          exact ⟨a, c, rfl, rfl, rfl⟩
  · rintro (⟨script, name, rfl, rfl, rfl⟩ | ⟨script, f, x, name, rfl, rfl⟩)
    · rfl
    · rw [List.append_assoc]; rfl

/-- **C118.** The plot and analysis scripts accept exactly two command lines: none, or name, suffix and directory. -/
theorem C118_other_arguments (s : Script) (hs : s ≠ .solve) (argv : List Str) (file dir : Str) :
    inlistFile s argv = .ok (file, dir) ↔
      (∃ script, argv = [script] ∧ file = "inlist.toml".toList ∧ dir = "./inlists/".toList) ∨
      (∃ script f x, argv = [script, f, x, dir] ∧ file = f ++ ['.'] ++ x) := by
  constructor
  · intro h
    replace h : (if argv.length = 4 then (.ok (argv.getD 1 [] ++ '.' :: argv.getD 2 [], argv.getD 3 []) : M (Str × Str))
        else if argv.length = 1 then .ok ("inlist.toml".toList, "./inlists/".toList) else .error .runtime) = .ok (file, dir) := by
      cases s with
      | solve => exact absurd rfl hs
      | plot => exact h
      | analyze => exact h
    split_ifs at h with h1 h2
    · right
      match argv, h1 with
      | [a, b, c, d], _ =>
        simp only [List.getD_cons_succ, List.getD_cons_zero, Except.ok.injEq, Prod.mk.injEq] at h
        obtain ⟨rfl, rfl⟩ := h
        exact ⟨a, b, c, rfl, by simp⟩
    · left
      match argv, h2 with
      | [a], _ =>
        cases h
        exact ⟨a, rfl, rfl, rfl⟩
  · cases s with
    | solve => exact absurd rfl hs
    | plot =>
      rintro (⟨script, rfl, rfl, rfl⟩ | ⟨script, f, x, rfl, rfl⟩)
      · rfl
      · rw [List.append_assoc]; rfl
    | analyze =>
      rintro (⟨script, rfl, rfl, rfl⟩ | ⟨script, f, x, rfl, rfl⟩)
      · rfl
      · rw [List.append_assoc]; rfl

/-- An ordinary file or directory name. -/
def Spec.Plain (w : Str) : Prop := w ≠ [] ∧ w ≠ ['.'] ∧ w ≠ ['.', '.'] ∧ '/' ∉ w

/-- The names separated by slashes. -/
def Spec.text (ws : List Str) : Str := List.intercalate ['/'] ws

theorem splitSlash_append (w r : Str) (h : '/' ∉ w) : splitSlash (w ++ '/' :: r) = w :: splitSlash r := by
  induction w with
  | nil => simp [splitSlash]
  | cons c cs ih =>
    have hc : c ≠ '/' := fun e => h (by simp [e])
    have := ih (fun e => h (by simp [e]))
    rw [List.cons_append, splitSlash, if_neg hc, this]

theorem splitSlash_plain (w : Str) (h : '/' ∉ w) : splitSlash w = [w] := by
  induction w with
  | nil => rfl
  | cons c cs ih =>
    have hc : c ≠ '/' := fun e => h (by simp [e])
    rw [splitSlash, if_neg hc, ih (fun e => h (by simp [e]))]

theorem text_cons (w w' : Str) (ws : List Str) : Spec.text (w :: w' :: ws) = w ++ '/' :: Spec.text (w' :: ws) := by
  simp [Spec.text, List.intercalate]

theorem splitSlash_text (ws : List Str) (h0 : ws ≠ []) (h : ∀ w ∈ ws, Spec.Plain w) (r : Str) :
    splitSlash (Spec.text ws) = ws ∧ splitSlash (Spec.text ws ++ '/' :: r) = ws ++ splitSlash r := by
  induction ws with
  | nil => exact absurd rfl h0
  | cons w ws ih =>
    have hw := (h w (by simp)).2.2.2
    cases ws with
    | nil =>
      have : Spec.text [w] = w := by simp [Spec.text, List.intercalate]
      rw [this, splitSlash_plain w hw, splitSlash_append w r hw]
      exact ⟨rfl, rfl⟩
    | cons w' ws =>
      obtain ⟨h1, h2⟩ := ih (by simp) (fun x hx => h x (by simp [hx]))
      rw [text_cons, splitSlash_append w _ hw, h1, List.append_assoc, List.cons_append, splitSlash_append w _ hw, h2]
      exact ⟨rfl, rfl⟩

theorem filter_plain (ws : List Str) (h : ∀ w ∈ ws, Spec.Plain w) : (ws.filter fun w => w ≠ [] && w ≠ ['.']) = ws := by
  rw [List.filter_eq_self]
  intro w hw
  simp [(h w hw).1, (h w hw).2.1]

theorem head_text (ws : List Str) (h0 : ws ≠ []) (h : ∀ w ∈ ws, Spec.Plain w) (r : Str) :
    ((Spec.text ws ++ r).head? == some '/') = false := by
  cases ws with
  | nil => exact absurd rfl h0
  | cons w ws =>
    obtain ⟨h1, _, _, h4⟩ := h w (by simp)
    cases w with
    | nil => exact absurd rfl h1
    | cons c cs =>
      have hc : c ≠ '/' := fun e => h4 (by simp [e])
      cases ws with
      | nil => simp [Spec.text, List.intercalate, hc]
      | cons w' ws => rw [text_cons]; simp [hc]

theorem toPath_text (ws : List Str) (h0 : ws ≠ []) (h : ∀ w ∈ ws, Spec.Plain w) (file : Str) (hf : Spec.Plain file) :
    toPath (Spec.text ws ++ '/' :: file) = ⟨false, ws ++ [file]⟩ := by
  unfold toPath
  rw [head_text ws h0 h, (splitSlash_text ws h0 h file).2, splitSlash_plain file hf.2.2.2]
  rw [filter_plain]
  intro w hw
  rcases List.mem_append.1 hw with hw | hw
  · exact h w hw
  · rw [List.mem_singleton.1 hw]; exact hf

theorem normalise_plain (ws acc : List Str) (h : ∀ w ∈ ws, w ≠ ['.', '.']) (r : List Str) :
    normalise acc (ws ++ r) = normalise (ws.reverse ++ acc) r := by
  induction ws generalizing acc with
  | nil => rfl
  | cons w ws ih =>
    rw [List.cons_append, normalise, if_neg (h w (by simp)), ih _ (fun x hx => h x (by simp [hx]))]
    simp

/-- Where a script given by the text `script` lies, seen from the working directory: with an absolute path its own
directories, with a relative one (or a bare name) those below the working directory. -/
inductive Spec.ScriptDir (cwd : List Str) : Str → List Str → Prop
  | bare (name : Str) : Spec.Plain name → Spec.ScriptDir cwd name cwd
  | relative (ws : List Str) (name : Str) : ws ≠ [] → (∀ w ∈ ws, Spec.Plain w) → Spec.Plain name →
      Spec.ScriptDir cwd (Spec.text ws ++ '/' :: name) (cwd ++ ws)
  | absolute (ws : List Str) (name : Str) : ws ≠ [] → (∀ w ∈ ws, Spec.Plain w) → Spec.Plain name →
      Spec.ScriptDir cwd ('/' :: Spec.text ws ++ '/' :: name) ws

theorem dirname_bare (name : Str) (h : '/' ∉ name) : dirname name = [] := by
  unfold dirname
  have := List.dropWhile_append_of_pos (p := (· ≠ '/')) (l₁ := name.reverse) (l₂ := []) (by
    intro x hx
    rw [List.mem_reverse] at hx
    have : x ≠ '/' := fun e => h (e ▸ hx)
    simpa using this)
  rw [List.append_nil] at this
  rw [this]
  rfl

theorem dirname_slash (d name : Str) (h : '/' ∉ name) : dirname (d ++ '/' :: name) = d ++ ['/'] := by
  unfold dirname
  have : (d ++ '/' :: name).reverse = name.reverse ++ ('/' :: d.reverse) := by simp
  rw [this, List.dropWhile_append_of_pos]
  · simp
  · intro x hx
    rw [List.mem_reverse] at hx
    have : x ≠ '/' := fun e => h (e ▸ hx)
    simpa using this

theorem toPath_textslash (ws : List Str) (h0 : ws ≠ []) (h : ∀ w ∈ ws, Spec.Plain w) : toPath (Spec.text ws ++ ['/']) = ⟨false, ws⟩ := by
  unfold toPath
  rw [head_text ws h0 h, (splitSlash_text ws h0 h []).2, List.filter_append, filter_plain ws h]
  simp [splitSlash]

theorem toPath_abs (ws : List Str) (h0 : ws ≠ []) (h : ∀ w ∈ ws, Spec.Plain w) : toPath ('/' :: Spec.text ws ++ ['/']) = ⟨true, ws⟩ := by
  unfold toPath
  rw [List.cons_append, splitSlash, if_pos rfl, (splitSlash_text ws h0 h []).2, List.filter_cons_of_neg (by simp), List.filter_append,
    filter_plain ws h]
  simp [splitSlash]

theorem scriptDir_resolve (cwd : List Str) (hc : ∀ w ∈ cwd, Spec.Plain w) (script : Str) (d : List Str)
    (h : Spec.ScriptDir cwd script d) : resolve cwd (toPath (dirname script)) = d ∧ ∀ w ∈ d, Spec.Plain w := by
  have nn : ∀ ws : List Str, (∀ w ∈ ws, Spec.Plain w) → normalise [] ws = ws := by
    intro ws hw
    have := normalise_plain ws [] (fun w h => (hw w h).2.2.1) []
    rw [List.append_nil] at this
    rw [this]
    simp [normalise]
  cases h with
  | bare _ hn =>
    rw [dirname_bare _ hn.2.2.2]
    refine ⟨?_, hc⟩
    have : toPath [] = ⟨false, []⟩ := by rfl
    rw [this, resolve]
    simpa using nn _ hc
  | relative ws name h0 h hn =>
    rw [dirname_slash _ _ hn.2.2.2, toPath_textslash ws h0 h]
    have hp : ∀ w ∈ cwd ++ ws, Spec.Plain w := fun w hw => (List.mem_append.1 hw).elim (hc w) (h w)
    exact ⟨by simpa [resolve] using nn _ hp, hp⟩
  | absolute ws name h0 h hn =>
    rw [dirname_slash _ name hn.2.2.2, toPath_abs d h0 h]
    exact ⟨by simpa [resolve] using nn _ h, h⟩

theorem resolveFile_spec (fs : FS) (hc : ∀ w ∈ fs.cwd, Spec.Plain w) (argv : List Str) (script : Str) (d ps : List Str)
    (file dir : Str) (h0 : argv.head? = some script) (hs : Spec.ScriptDir fs.cwd script d) (hp : ∀ w ∈ ps, Spec.Plain w)
    (ht : toPath (dir ++ '/' :: file) = ⟨false, ps⟩) :
    resolveFile fs argv file dir =
      if fs.present (fs.cwd ++ ps) then .ok (fs.cwd ++ ps)
      else if fs.present (d.dropLast ++ ps) then .ok (d.dropLast ++ ps) else .error .fileNotFound := by
  obtain ⟨hr, hd⟩ := scriptDir_resolve fs.cwd hc script d hs
  have nn : ∀ ws : List Str, (∀ w ∈ ws, Spec.Plain w) → normalise [] ws = ws := by
    intro ws hw
    have := normalise_plain ws [] (fun w h => (hw w h).2.2.1) []
    rw [List.append_nil] at this
    rw [this]
    simp [normalise]
  have ha : argv.getD 0 [] = script := by
    cases argv with
    | nil => cases h0
    | cons a l => simpa using h0
  have h1 : resolve fs.cwd ⟨false, ps⟩ = fs.cwd ++ ps := by
    simpa [resolve] using nn _ (fun w hw => (List.mem_append.1 hw).elim (hc w) (hp w))
  have h2 : resolve fs.cwd (join (join ⟨true, d⟩ ⟨false, [['.', '.']]⟩) ⟨false, ps⟩) = d.dropLast ++ ps := by
    simp only [join, Bool.false_eq_true, if_false, resolve, if_true, List.append_assoc]
    rw [normalise_plain d [] (fun w h => (hd w h).2.2.1), List.singleton_append, normalise, if_pos rfl, List.append_nil]
    have := normalise_plain ps d.reverse.tail (fun w h => (hp w h).2.2.1) []
    rw [List.append_nil] at this
    rw [this, normalise]
    simp
  unfold resolveFile
  rw [ht, ha, hr]
  simp only [h1, h2]

/-- **C118.** The default inlist is `inlists/inlist.toml` below the working directory if that exists, otherwise the one below the
parent of the directory of the script; otherwise the file is reported missing. -/
theorem C118_default (s : Script) (fs : FS) (hc : ∀ w ∈ fs.cwd, Spec.Plain w) (script name : Str) (d : List Str)
    (hs : Spec.ScriptDir fs.cwd script d) (argv : List Str)
    (ha : argv = match (generalizing := false) s with | .solve => [script, Spec.flag, name] | _ => [script]) :
    inlistPath s fs argv =
      if fs.present (fs.cwd ++ ["inlists".toList, "inlist.toml".toList]) then .ok (fs.cwd ++ ["inlists".toList, "inlist.toml".toList])
      else if fs.present (d.dropLast ++ ["inlists".toList, "inlist.toml".toList]) then
        .ok (d.dropLast ++ ["inlists".toList, "inlist.toml".toList])
      else .error .fileNotFound := by
  have hf : inlistFile s argv = .ok ("inlist.toml".toList, "./inlists/".toList) := by
    cases s <;> subst ha <;> rfl
  have h0 : argv.head? = some script := by cases s <;> subst ha <;> rfl
  rw [inlistPath, hf]
  exact resolveFile_spec fs hc argv script d _ _ _ h0 hs (by unfold Spec.Plain; decide) (by decide)

/-- **C118.** A chosen inlist `file.suffix` in the directory `a/b/...` is searched for below the working directory, then below
the parent of the directory of the script. -/
theorem C118_custom_partial (s : Script) (fs : FS) (hc : ∀ w ∈ fs.cwd, Spec.Plain w) (script f x name : Str) (dirs d : List Str)
    (hs : Spec.ScriptDir fs.cwd script d) (h0 : dirs ≠ []) (hd : ∀ w ∈ dirs, Spec.Plain w) (hf : Spec.Plain (f ++ ['.'] ++ x))
    (argv : List Str) (ha : argv = match (generalizing := false) s with
      | .solve => [script, f, x, Spec.text dirs, Spec.flag, name] | _ => [script, f, x, Spec.text dirs]) :
    inlistPath s fs argv =
      if fs.present (fs.cwd ++ dirs ++ [f ++ ['.'] ++ x]) then .ok (fs.cwd ++ dirs ++ [f ++ ['.'] ++ x])
      else if fs.present (d.dropLast ++ dirs ++ [f ++ ['.'] ++ x]) then .ok (d.dropLast ++ dirs ++ [f ++ ['.'] ++ x])
      else .error .fileNotFound := by
  have hfile : inlistFile s argv = .ok (f ++ ['.'] ++ x, Spec.text dirs) := by
    cases s with
    | solve => exact (C118_solve_arguments argv _ _).2 (Or.inr ⟨script, f, x, name, ha, rfl⟩)
    | plot => exact (C118_other_arguments .plot (by decide) argv _ _).2 (Or.inr ⟨script, f, x, ha, rfl⟩)
    | analyze => exact (C118_other_arguments .analyze (by decide) argv _ _).2 (Or.inr ⟨script, f, x, ha, rfl⟩)
  have hh : argv.head? = some script := by cases s <;> subst ha <;> rfl
  rw [inlistPath, hfile]
  have := resolveFile_spec fs hc argv script d (dirs ++ [f ++ ['.'] ++ x]) _ _ hh hs
    (fun w hw => (List.mem_append.1 hw).elim (hd w) (fun h => by rw [List.mem_singleton.1 h]; exact hf))
    (toPath_text dirs h0 hd _ hf)
  show resolveFile _ _ _ _ = _
  simpa only [List.append_assoc] using this

/-- **C118 (refutation).** With an empty directory name the inlist is not searched for in the working directory but in the
root directory. -/
theorem C118_empty_dir_wrong (fs : FS) (script f x name : Str) (hf : Spec.Plain (f ++ ['.'] ++ x)) :
    inlistPath .solve fs [script, f, x, [], Spec.flag, name] =
      if fs.present [f ++ ['.'] ++ x] then .ok [f ++ ['.'] ++ x] else .error .fileNotFound := by
  have hfile := (C118_solve_arguments [script, f, x, [], Spec.flag, name] (f ++ ['.'] ++ x) []).2
    (Or.inr ⟨script, f, x, name, rfl, rfl⟩)
  rw [inlistPath, hfile]
  have ht : toPath ([] ++ '/' :: (f ++ ['.'] ++ x)) = ⟨true, [f ++ ['.'] ++ x]⟩ := by
    unfold toPath
    rw [List.nil_append, splitSlash, if_pos rfl, splitSlash_plain _ hf.2.2.2, List.filter_cons_of_neg (by simp),
      filter_plain _ (by intro w hw; rw [List.mem_singleton.1 hw]; exact hf)]
    simp
  have h1 : ∀ cwd, resolve cwd ⟨true, [f ++ ['.'] ++ x]⟩ = [f ++ ['.'] ++ x] := by
    intro cwd
    have := normalise_plain [f ++ ['.'] ++ x] [] (by intro w hw; rw [List.mem_singleton.1 hw]; exact hf.2.2.1) []
    simpa [resolve, normalise] using this
  show resolveFile fs _ _ _ = _
  unfold resolveFile
  simp only [ht, join, if_true, h1]
  split_ifs <;> rfl

/-! ### C117: the save name -/

/-- **C117 (partial).** If the hook carried the name that the generic parser calls, a run with an accepted command line would get
the last argument as save name. -/
theorem C117_renamed_partial (base : Str) (methods : List String) (hm : "_set_up_specific_argparser_groups_arguments" ∈ methods)
    (fs : FS) (inlist argv : List Str) (file dir : Str) (ha : inlistFile .solve argv = .ok (file, dir)) (p : Parser)
    (hp : parserInit base methods fs inlist argv = .ok p) :
    ∃ name, argv.getLast? = some name ∧ getSaveName p = .ok (.str name) := by
  have hl : ∃ l name, argv.tail = l ++ [Spec.flag, name] ∧ argv.getLast? = some name := by
    rcases (C118_solve_arguments argv file dir).1 ha with ⟨script, name, rfl, -, -⟩ | ⟨script, f, x, name, rfl, -⟩
    · exact ⟨[], name, rfl, rfl⟩
    · exact ⟨[f, x, dir], name, rfl, rfl⟩
  obtain ⟨l, name, hl, hlast⟩ := hl
  refine ⟨name, hlast, ?_⟩
  unfold parserInit at hp
  split at hp
  · cases hp
  · split at hp
    · rename_i i _ _
      cases hq : parseArgs (parserOpts methods) (defaults (parserOpts methods)) argv.tail with
      | error e => rw [hq] at hp; cases hp
      | ok ns =>
        rw [hq] at hp
        cases hp
        rw [hl] at hq
        have hfind : (parserOpts methods).find? (fun o => decide (Spec.flag ∈ o.flags)) = some saveOpt := by
          unfold parserOpts
          rw [if_pos hm]
          rfl
        have := parse_last _ saveOpt Spec.flag name hfind rfl (by decide) l _ ns hq
        unfold getSaveName
        rw [show "save_file_name".toList = saveOpt.dest from rfl, this]
    · cases hp

/-! ### C119: the name of the checkout -/

theorem contains_infix (sub s : Str) : contains sub s = true ↔ ∃ l r, s = l ++ sub ++ r := by
  constructor
  · intro h
    induction s with
    | nil =>
      rw [contains] at h
      have : sub = [] := by simpa using h
      exact ⟨[], [], by simp [this]⟩
    | cons c cs ih =>
      rw [contains, Bool.or_eq_true] at h
      rcases h with h | h
      · obtain ⟨r, hr⟩ := List.isPrefixOf_iff_prefix.1 h
        exact ⟨[], r, by simpa using hr.symm⟩
      · obtain ⟨l, r, rfl⟩ := ih h
        exact ⟨c :: l, r, rfl⟩
  · rintro ⟨l, r, rfl⟩
    exact contains_of_infix sub l r

/-- **C119 (refutation).** A script starts only if a directory above the inlist has, somewhere in its name, the name of the
checkout that the script expects; and this is another one for the solve script than for the plot and analysis scripts.  In a
checkout called `AESolver`, in no other directory of the expected name, plots and analyses end with an exception group. -/
theorem C119_other_name_wrong (s : Script) (methods : List String) (fs : FS) (dirs : List Str) (file : Str) (argv : List Str) :
    (∀ p, parserInit (baseName s) methods fs (dirs ++ [file]) argv = .ok p → ∃ d ∈ dirs, ∃ l r, d = l ++ baseName s ++ r) ∧
    ((¬ ∃ d ∈ dirs, ∃ l r, d = l ++ "amplitude_equations_solver".toList ++ r) → s ≠ .solve →
      parserInit (baseName s) methods fs (dirs ++ [file]) argv = .error .group) := by
  have key : (¬ ∃ d ∈ dirs, ∃ l r, d = l ++ baseName s ++ r) →
      parserInit (baseName s) methods fs (dirs ++ [file]) argv = .error .group := by
    intro h
    have hm : mode1 (baseName s) (dirs ++ [file]).dropLast ((dirs ++ [file]).getLast?.getD []) = none := by
      unfold mode1 findBase
      have : dirs.reverse.findIdx? (contains (baseName s)) = none := by
        rw [List.findIdx?_eq_none_iff]
        intro d hd
        rw [List.mem_reverse] at hd
        cases hc : contains (baseName s) d with
        | false => rfl
        | true => exact absurd ⟨d, hd, (contains_infix _ _).1 hc⟩ h
      simp [this]
    unfold parserInit
    rw [hm]
  refine ⟨fun p hp => ?_, fun h hs => key ?_⟩
  · by_contra hc
    rw [key hc] at hp
    cases hp
  · cases s with
    | solve => exact absurd rfl hs
    | plot => exact h
    | analyze => exact h

/-- **C119 (partial).** If a directory above the inlist `name.suffix` (no further dots) has the expected name in its own, the
inlist exists and the command line has no option without its value, the parser starts, and reads this inlist unless
another is named on the command line. -/
theorem C119_starts_partial (s : Script) (methods : List String) (fs : FS) (dirs : List Str) (name suffix : Str)
    (h1 : '.' ∉ name) (h2 : '.' ∉ suffix) (d : Str) (hd : d ∈ dirs) (hb : ∃ l r, d = l ++ baseName s ++ r)
    (he : fs.present (dirs ++ [name ++ ['.'] ++ suffix]) = true) (argv : List Str)
    (ha : ∀ a ∈ argv, ∀ o ∈ parserOpts methods, a ∉ o.flags) :
    ∃ p, parserInit (baseName s) methods fs (dirs ++ [name ++ ['.'] ++ suffix]) argv = .ok p ∧
      p.inlist fs = dirs ++ [name ++ ['.'] ++ suffix] ∧ p.info.suffix = suffix := by
  obtain ⟨i, hi, hp, -, -, hpr⟩ := Opts.C61_default_path_partial (baseName s) dirs name suffix h1 h2
    ⟨d, hd, (contains_infix _ _).2 hb⟩
  have hs : i.suffix = suffix := by
    unfold mode1 at hi
    obtain ⟨b, _, rfl⟩ := Option.map_eq_some_iff.1 hi
    unfold Opts.lastPart
    have : (name ++ '.' :: suffix).reverse = suffix.reverse ++ '.' :: name.reverse := by simp
    rw [this, Opts.takeW_dot _ (by simpa using h2), List.reverse_reverse]
  have hparse : ∀ l ns, (∀ a ∈ l, ∀ o ∈ parserOpts methods, a ∉ o.flags) → parseArgs (parserOpts methods) ns l = .ok ns := by
    intro l
    induction l with
    | nil => intro ns _; rw [parseArgs]
    | cons a l ih =>
      intro ns h
      have hn : (parserOpts methods).find? (fun o => decide (a ∈ o.flags)) = none := by
        rw [List.find?_eq_none]
        intro o ho
        simpa using h a (by simp) o ho
      rw [parseArgs, hn]
      exact ih ns (fun b hb => h b (by simp [hb]))
  have hf : name ++ ['.'] ++ suffix = name ++ '.' :: suffix := by simp
  rw [hf] at he ⊢
  have hpres : PathInfo.present fs i = true := by
    unfold PathInfo.present
    rw [hp]
    exact he
  refine ⟨⟨i, defaults (parserOpts methods)⟩, ?_, ?_, hs⟩
  · unfold parserInit
    rw [List.dropLast_concat, List.getLast?_concat, Option.getD_some, hi]
    dsimp only
    rw [if_pos hpres, hparse _ _ (fun a h => ha a (List.mem_of_mem_tail h))]
    rfl
  · unfold Parser.inlist
    have : find "inlist_name".toList (defaults (parserOpts methods)) = some .none := by
      unfold parserOpts
      split_ifs <;> rfl
    dsimp only
    rw [this]
    dsimp only
    rw [hp]

end Verif.Runner
