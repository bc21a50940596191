import Verif.ProfRun.KernClaims
import Verif.Runner.Paths
import Verif.Store.C72
/-!
# C152: the files of a profile run

`aesolver/aesolver/solver/profile_plot_classes/setup_for_plotting.py` (below: sp) and `quadratic_profile.py` (qp).
-/
namespace Verif.ProfRun
open Inlist (Str)
open Runner (toPath join PurePath splitSlash)
open Store (dec joinU)

/-- The request of a profile run, as far as it is used for the names: the substrings that select the profile of the stellar model, the
rotation rate, the save name, the three radial orders, degrees and azimuthal orders (given as lists), and the two options. -/
structure Req where
  mesa : List Str
  rot : ℤ
  save : Str
  n : List ℤ
  l : List ℤ
  m : List ℤ
  terms : Bool
  kernels : Bool

/-- `get_model_dependent_part_save_name` (sp 17-42). -/
def namePart (r : Req) : Str :=
  '_' :: r.save ++ "_n".toList ++ joinU (r.n.map dec) ++ "_l".toList ++ joinU (r.l.map dec) ++ "_m".toList ++ joinU (r.m.map dec)

/-- `get_figure_output_base_path` (sp 45-77) with the arguments of qp 344-351: the last substring is left out. -/
def outDir (r : Req) : PurePath :=
  toPath ("./figure_output/profiles_isolated_mode_triads".toList ++ ('/' :: List.intercalate ['/'] r.mesa.dropLast) ++
    ('/' :: "rot_".toList ++ dec r.rot))

/-- `str(path)`. -/
def pathText (p : PurePath) : Str := (if p.abs then ['/'] else []) ++ List.intercalate ['/'] p.parts

/-- The path given to `savefig` (sp 89-101, qp 523-526, ap 140, 187, rp 129, 174). -/
def figPath (r : Req) (f : Str × Str × Str) : Str :=
  pathText (join (outDir r) (toPath (f.1 ++ ['/']))) ++ '/' :: f.2.1 ++ namePart r ++ '.' :: f.2.2

/-- The kernel figures of one kind. -/
def kernelFiles (kind : String) (cols : ℤ → List ℕ × Bool) : List (Str × Str × Str) :=
  [1, 2, 3, 4].flatMap fun nr : ℕ => (List.range (cols nr).1.length).map fun i =>
    ((kind ++ "_kernels").toList, kernelBase kind nr (cols nr).2 i, "png".toList)

/-- The figures that are saved, in order (qp 356-698). -/
def figureList (r : Req) : List (Str × Str × Str) :=
  [("coupling_coefficient".toList, "cc_profile_single".toList, "pdf".toList),
   ("coupling_coefficient".toList, "cc_profile".toList, "png".toList)] ++
  (if r.terms then [("coupling_coefficient_contributions".toList, "cc_contributions_profile".toList, "png".toList)] else []) ++
  (if r.kernels then kernelFiles "angular" angCols ++ kernelFiles "radial" radCols else [])

/-- All figures there can be. -/
def allFigures : List (Str × Str × Str) := figureList ⟨[], 0, [], [], [], [], true, true⟩

theorem mem_all (r : Req) (f : Str × Str × Str) (h : f ∈ figureList r) : f ∈ allFigures := by
  unfold allFigures
  unfold figureList at h ⊢
  simp only [if_true] at h ⊢
  rcases List.mem_append.1 h with h | h
  · rcases List.mem_append.1 h with h | h
    · exact List.mem_append_left _ (List.mem_append_left _ h)
    · split at h
      · exact List.mem_append_left _ (List.mem_append_right _ h)
      · cases h
  · split at h
    · exact List.mem_append_right _ h
    · cases h

theorem joinU_inj : ∀ a b : List ℤ, joinU (a.map dec) = joinU (b.map dec) → a = b := by
  have hne : ∀ n : ℤ, dec n ≠ [] := by
    intro n e
    unfold dec at e
    split at e
    · cases e
    · unfold Store.decNat at e
      split at e
      · cases e
      · next h1 h2 =>
        rw [List.map_eq_nil_iff, List.reverse_eq_nil_iff, Nat.digits_eq_nil_iff_eq_zero] at e
        exact h2 e
  have hu : ∀ n : ℤ, '_' ∉ dec n := fun n hc => (Store.dec_chars n '_' hc).1 rfl
  have first : ∀ (a a' r r' : Str), '_' ∉ a → '_' ∉ a' → a ++ '_' :: r = a' ++ '_' :: r' → a = a' ∧ r = r' := by
    intro a
    induction a with
    | nil =>
      intro a' r r' _ h' e
      cases a' with
      | nil => simpa using e
      | cons b a' => simp at e; exact absurd (by simp [← e.1]) h'
    | cons b a ih =>
      intro a' r r' h h' e
      cases a' with
      | nil => simp at e; exact absurd (by simp [e.1]) h
      | cons b' a' =>
        simp only [List.cons_append, List.cons.injEq] at e
        obtain ⟨h1, h2⟩ := ih a' r r' (fun m => h (by simp [m])) (fun m => h' (by simp [m])) e.2
        exact ⟨by rw [e.1, h1], h2⟩
  intro a
  induction a with
  | nil =>
    intro b e
    match b with
    | [] => rfl
    | [x] => exact absurd e.symm (hne x)
    | x :: y :: l => simp [joinU] at e
  | cons x a ih =>
    intro b e
    match a, b with
    | [], [] => exact absurd e (hne x)
    | [], [y] => rw [Store.dec_inj e]
    | [], y :: z :: l =>
      simp only [List.map_cons, List.map_nil, joinU] at e
      exact absurd (e ▸ (by simp : '_' ∈ dec y ++ '_' :: joinU (dec z :: l.map dec))) (hu x)
    | x' :: a, [] => simp [joinU] at e
    | x' :: a, [y] =>
      simp only [List.map_cons, List.map_nil, joinU] at e
      exact absurd (e ▸ (by simp : '_' ∈ dec x ++ '_' :: joinU (dec x' :: a.map dec))) (hu y)
    | x' :: a, y :: y' :: b =>
      simp only [List.map_cons, joinU] at e
      obtain ⟨h1, h2⟩ := first _ _ _ _ (hu x) (hu y) e
      rw [Store.dec_inj h1, ih (y' :: b) h2]

theorem decNat_digits (n : ℕ) : ∀ c ∈ Store.decNat n, c ∈ "0123456789".toList := by
  intro c hc
  unfold Store.decNat at hc
  split at hc
  · simp only [List.mem_singleton] at hc; rw [hc]; decide
  · obtain ⟨d, hd, rfl⟩ := List.mem_map.1 hc
    have hd := Nat.digits_lt_base (b := 10) (by norm_num) (List.mem_reverse.1 hd)
    interval_cases d <;> decide

theorem dec_digits (n : ℤ) : ∀ c ∈ dec n, c ∈ "-0123456789".toList := by
  have h : ∀ c ∈ "0123456789".toList, c ∈ "-0123456789".toList := by decide
  intro c hc
  unfold dec at hc
  split at hc
  · rcases List.mem_cons.1 hc with rfl | hc
    · decide
    · exact h c (decNat_digits _ c hc)
  · exact h c (decNat_digits _ c hc)

theorem joinU_chars : ∀ (a : List ℤ), ∀ c ∈ joinU (a.map dec), c ∈ "_-0123456789".toList := by
  have h : ∀ c ∈ "-0123456789".toList, c ∈ "_-0123456789".toList := by decide
  intro a
  induction a with
  | nil => intro c hc; cases hc
  | cons x a ih =>
    intro c hc
    cases a with
    | nil => exact h c (dec_digits x c hc)
    | cons y a =>
      simp only [List.map_cons, joinU] at hc
      rcases List.mem_append.1 hc with hc | hc
      · exact h c (dec_digits x c hc)
      · rcases List.mem_cons.1 hc with rfl | hc
        · decide
        · exact ih c hc

theorem joinU_free (a : List ℤ) (c : Char) (hc : c ∉ "_-0123456789".toList) : c ∉ joinU (a.map dec) :=
  fun h => hc (joinU_chars a c h)

/-- A usable request: the substrings are ordinary names and the save name has no slash. -/
structure Spec.Usable (r : Req) : Prop where
  mesa : ∀ w ∈ r.mesa, Runner.Spec.Plain w
  save : '/' ∉ r.save

theorem rot_plain (z : ℤ) : Runner.Spec.Plain ("rot_".toList ++ dec z) := by
  refine ⟨?_, ?_, ?_, ?_⟩
  · intro e; cases e
  · intro e; cases e
  · intro e; cases e
  · rw [List.mem_append, not_or]
    exact ⟨by decide, fun hc => (Store.dec_chars z '/' hc).2 rfl⟩

theorem text_append (ws : List Str) (w : Str) (h : ws ≠ []) : Runner.Spec.text (ws ++ [w]) = Runner.Spec.text ws ++ '/' :: w := by
  induction ws with
  | nil => exact absurd rfl h
  | cons a ws ih =>
    cases ws with
    | nil => simp [Runner.Spec.text, List.intercalate]
    | cons b ws =>
      rw [List.cons_append, List.cons_append, Runner.text_cons, ← List.cons_append, ih (by simp), Runner.text_cons]
      simp

/-- The output directory. -/
theorem outDir_eq (r : Req) (h : Spec.Usable r) :
    outDir r = ⟨false, ["figure_output".toList, "profiles_isolated_mode_triads".toList] ++ r.mesa.dropLast ++ ["rot_".toList ++ dec r.rot]⟩ := by
  have hp : ∀ w ∈ r.mesa.dropLast, Runner.Spec.Plain w := fun w hw => h.mesa w (List.mem_of_mem_dropLast hw)
  have hrot := (rot_plain r.rot).2.2.2
  unfold outDir toPath
  have hhead : (("./figure_output/profiles_isolated_mode_triads".toList ++ ('/' :: List.intercalate ['/'] r.mesa.dropLast) ++
    ('/' :: "rot_".toList ++ dec r.rot)).head? == some '/') = false := rfl
  rw [hhead]
  have hsplit : splitSlash ("./figure_output/profiles_isolated_mode_triads".toList ++ ('/' :: List.intercalate ['/'] r.mesa.dropLast) ++
      ('/' :: "rot_".toList ++ dec r.rot)) = ['.'] :: "figure_output".toList :: "profiles_isolated_mode_triads".toList ::
        ((if r.mesa.dropLast = [] then [[]] else r.mesa.dropLast) ++ ["rot_".toList ++ dec r.rot]) := by
    have e : "./figure_output/profiles_isolated_mode_triads".toList = ['.'] ++ '/' :: ("figure_output".toList ++ '/' ::
        "profiles_isolated_mode_triads".toList) := by decide +kernel
    have h1 : '/' ∉ ['.'] := by decide
    have h2 : '/' ∉ "figure_output".toList := by decide +kernel
    have h3 : '/' ∉ "profiles_isolated_mode_triads".toList := by decide +kernel
    rw [e]
    have assoc : ['.'] ++ '/' :: ("figure_output".toList ++ '/' :: "profiles_isolated_mode_triads".toList) ++
        ('/' :: List.intercalate ['/'] r.mesa.dropLast) ++ ('/' :: "rot_".toList ++ dec r.rot) =
        ['.'] ++ '/' :: ("figure_output".toList ++ '/' :: ("profiles_isolated_mode_triads".toList ++ '/' ::
          (List.intercalate ['/'] r.mesa.dropLast ++ '/' :: ("rot_".toList ++ dec r.rot)))) := by
      simp only [List.append_assoc, List.cons_append]
    rw [assoc, Runner.splitSlash_append _ _ h1, Runner.splitSlash_append _ _ h2, Runner.splitSlash_append _ _ h3]
    congr 3
    by_cases hm : r.mesa.dropLast = []
    · rw [hm, if_pos rfl]
      show splitSlash ([] ++ '/' :: ("rot_".toList ++ dec r.rot)) = _
      rw [Runner.splitSlash_append _ _ (by simp), Runner.splitSlash_plain _ hrot]
      rfl
    · rw [if_neg hm]
      have := (Runner.splitSlash_text r.mesa.dropLast hm hp ("rot_".toList ++ dec r.rot)).2
      rw [Runner.splitSlash_plain _ hrot] at this
      exact this
  rw [hsplit]
  refine congrArg (PurePath.mk false) ?_
  have f1 : ∀ w, Runner.Spec.Plain w → (decide (w ≠ []) && decide (w ≠ ['.'])) = true :=
    fun w hw => by simp [hw.1, hw.2.1]
  have p1 : Runner.Spec.Plain "figure_output".toList := ⟨by decide +kernel, by decide +kernel, by decide +kernel, by decide +kernel⟩
  have p2 : Runner.Spec.Plain "profiles_isolated_mode_triads".toList := ⟨by decide +kernel, by decide +kernel, by decide +kernel, by decide +kernel⟩
  rw [List.filter_cons_of_neg (by simp), List.filter_cons, if_pos (f1 _ p1), List.filter_cons, if_pos (f1 _ p2), List.filter_append,
    List.filter_cons, if_pos (f1 _ (rot_plain _)), List.filter_nil]
  have hf : (if r.mesa.dropLast = [] then [[]] else r.mesa.dropLast).filter (fun w : Str => w ≠ [] && w ≠ ['.']) = r.mesa.dropLast := by
    by_cases hm : r.mesa.dropLast = []
    · rw [hm, if_pos rfl]; rfl
    · rw [if_neg hm, Runner.filter_plain _ hp]
  rw [hf]
  rfl

/-- The name of a file in the directory of the figure. -/
def fileName (r : Req) (f : Str × Str × Str) : Str := f.2.1 ++ namePart r ++ '.' :: f.2.2

theorem all_plain : ∀ f ∈ allFigures, Runner.Spec.Plain f.1 ∧ '/' ∉ f.2.1 ∧ '/' ∉ f.2.2 ∧ '.' ∉ f.2.2 := by
  have : (allFigures.all fun f => decide (f.1 ≠ []) && decide (f.1 ≠ ['.']) && decide (f.1 ≠ ['.', '.']) && decide ('/' ∉ f.1) &&
    decide ('/' ∉ f.2.1) && decide ('/' ∉ f.2.2) && decide ('.' ∉ f.2.2)) = true := by decide +kernel
  intro f hf
  have := List.all_eq_true.1 this f hf
  simp only [Bool.and_eq_true, decide_eq_true_eq] at this
  exact ⟨⟨this.1.1.1.1.1.1, this.1.1.1.1.1.2, this.1.1.1.1.2, this.1.1.1.2⟩, this.1.1.2, this.1.2, this.2⟩

theorem file_noslash (r : Req) (h : Spec.Usable r) (f : Str × Str × Str) (hf : f ∈ allFigures) : '/' ∉ fileName r f := by
  obtain ⟨-, h2, h3, -⟩ := all_plain f hf
  have hj : ∀ a : List ℤ, '/' ∉ joinU (a.map dec) := fun a => joinU_free a '/' (by decide)
  simp only [fileName, namePart, List.mem_append, List.mem_cons, not_or]
  have a1 : '/' ∉ "_n".toList := by decide
  have a2 : '/' ∉ "_l".toList := by decide
  have a3 : '/' ∉ "_m".toList := by decide
  exact ⟨⟨h2, ⟨⟨⟨⟨⟨⟨by decide, h.save⟩, a1⟩, hj _⟩, a2⟩, hj _⟩, a3⟩, hj _⟩, by decide, h3⟩

theorem figPath_eq (r : Req) (h : Spec.Usable r) (f : Str × Str × Str) (hf : f ∈ allFigures) :
    figPath r f = Runner.Spec.text (["figure_output".toList, "profiles_isolated_mode_triads".toList] ++ r.mesa.dropLast ++
      ["rot_".toList ++ dec r.rot] ++ [f.1] ++ [fileName r f]) := by
  obtain ⟨h1, -⟩ := all_plain f hf
  have hsub : toPath (f.1 ++ ['/']) = ⟨false, [f.1]⟩ := by
    have := Runner.toPath_textslash [f.1] (by simp) (by simpa using h1)
    simpa [Runner.Spec.text, List.intercalate] using this
  unfold figPath
  rw [outDir_eq r h, hsub]
  unfold join pathText
  rw [text_append _ _ (by simp)]
  simp only [Bool.false_eq_true, if_false, List.nil_append, fileName, List.append_assoc]
  rfl

theorem namePart_inj (b b' : Str) (r r' : Req) (h : b ++ namePart r = b' ++ namePart r') :
    b ++ '_' :: r.save = b' ++ '_' :: r'.save ∧ r.n = r'.n ∧ r.l = r'.l ∧ r.m = r'.m := by
  have hn : "_n".toList = ['_', 'n'] := by decide
  have hl : "_l".toList = ['_', 'l'] := by decide
  have hm : "_m".toList = ['_', 'm'] := by decide
  have e : ∀ (b : Str) (r : Req), b ++ namePart r = (((((b ++ '_' :: r.save) ++ ['_']) ++ 'n' :: joinU (r.n.map dec)) ++ ['_']) ++
      'l' :: joinU (r.l.map dec) ++ ['_']) ++ 'm' :: joinU (r.m.map dec) := by
    intro b r
    simp only [namePart, hn, hl, hm, List.append_assoc, List.cons_append, List.nil_append]
  rw [e, e] at h
  obtain ⟨h, e1⟩ := Store.last_sep (joinU_free _ 'm' (by decide)) (joinU_free _ 'm' (by decide)) h
  have h := List.append_cancel_right h
  obtain ⟨h, e2⟩ := Store.last_sep (joinU_free _ 'l' (by decide)) (joinU_free _ 'l' (by decide)) h
  have h := List.append_cancel_right h
  obtain ⟨h, e3⟩ := Store.last_sep (joinU_free _ 'n' (by decide)) (joinU_free _ 'n' (by decide)) h
  have h := List.append_cancel_right h
  exact ⟨h, joinU_inj _ _ e3, joinU_inj _ _ e2, joinU_inj _ _ e1⟩

theorem bases_apart : ∀ f ∈ allFigures, ∀ g ∈ allFigures, f.1 = g.1 → f.2.2 = g.2.2 → (f.2.1 ++ ['_']) <+: (g.2.1 ++ ['_']) → f = g := by
  have : (allFigures.all fun f => allFigures.all fun g => decide (f = g) || !(f.1 == g.1 && f.2.2 == g.2.2 &&
    (f.2.1 ++ ['_']).isPrefixOf (g.2.1 ++ ['_']))) = true := by decide +kernel
  intro f hf g hg h1 h2 h3
  have := List.all_eq_true.1 (List.all_eq_true.1 this f hf) g hg
  rw [← List.isPrefixOf_iff_prefix] at h3
  simpa [h1, h2, h3] using this

theorem file_inj (r r' : Req) (f g : Str × Str × Str) (hf : f ∈ allFigures) (hg : g ∈ allFigures) (h1 : f.1 = g.1)
    (h : fileName r f = fileName r' g) : f = g ∧ r.save = r'.save ∧ r.n = r'.n ∧ r.l = r'.l ∧ r.m = r'.m := by
  obtain ⟨h, h2⟩ := Store.last_sep (all_plain f hf).2.2.2 (all_plain g hg).2.2.2 h
  obtain ⟨h, h3⟩ := namePart_inj _ _ r r' h
  have e : ∀ (b s : Str), b ++ '_' :: s = (b ++ ['_']) ++ s := by simp
  have h : (f.2.1 ++ ['_']) ++ r.save = (g.2.1 ++ ['_']) ++ r'.save := by rw [← e, ← e]; exact h
  have hfg : f = g := by
    rcases List.prefix_or_prefix_of_prefix (l₁ := f.2.1 ++ ['_']) (l₂ := g.2.1 ++ ['_']) ⟨r.save, rfl⟩ ⟨r'.save, h.symm⟩ with hp | hp
    · exact bases_apart f hf g hg h1 h2 hp
    · exact (bases_apart g hg f hf h1.symm h2.symm hp).symm
  subst hfg
  exact ⟨rfl, List.append_cancel_left h, h3⟩

theorem figPath_inj (r r' : Req) (h : Spec.Usable r) (h' : Spec.Usable r') (f g : Str × Str × Str) (hf : f ∈ allFigures)
    (hg : g ∈ allFigures) (e : figPath r f = figPath r' g) :
    f = g ∧ r.mesa.dropLast = r'.mesa.dropLast ∧ r.rot = r'.rot ∧ r.save = r'.save ∧ r.n = r'.n ∧ r.l = r'.l ∧ r.m = r'.m := by
  rw [figPath_eq r h f hf, figPath_eq r' h' g hg] at e
  have p1 : Runner.Spec.Plain "figure_output".toList := ⟨by decide +kernel, by decide +kernel, by decide +kernel, by decide +kernel⟩
  have p2 : Runner.Spec.Plain "profiles_isolated_mode_triads".toList := ⟨by decide +kernel, by decide +kernel, by decide +kernel, by decide +kernel⟩
  have hs : ∀ (r : Req) (f : Str × Str × Str), Spec.Usable r → f ∈ allFigures → splitSlash (Runner.Spec.text (["figure_output".toList,
      "profiles_isolated_mode_triads".toList] ++ r.mesa.dropLast ++ ["rot_".toList ++ dec r.rot] ++ [f.1] ++ [fileName r f])) =
      ["figure_output".toList, "profiles_isolated_mode_triads".toList] ++ r.mesa.dropLast ++ ["rot_".toList ++ dec r.rot] ++ [f.1] ++
        [fileName r f] := by
    intro r f h hf
    rw [text_append _ _ (by simp), (Runner.splitSlash_text _ (by simp) ?_ _).2, Runner.splitSlash_plain _ (file_noslash r h f hf)]
    intro w hw
    simp only [List.mem_append, List.mem_cons, List.not_mem_nil, or_false] at hw
    rcases hw with (((rfl | rfl) | hw) | rfl) | rfl
    · exact p1
    · exact p2
    · exact h.mesa w (List.mem_of_mem_dropLast hw)
    · exact rot_plain _
    · exact (all_plain f hf).1
  have e := congrArg splitSlash e
  rw [hs r f h hf, hs r' g h' hg] at e
  obtain ⟨e, e1⟩ := List.append_inj' e rfl
  obtain ⟨e, e2⟩ := List.append_inj' e rfl
  obtain ⟨e, e3⟩ := List.append_inj' e rfl
  have e := List.append_cancel_left e
  simp only [List.cons.injEq, and_true] at e1 e2 e3
  obtain ⟨h1, h2⟩ := file_inj r r' f g hf hg e2 e1
  exact ⟨h1, e, Store.dec_inj (List.append_cancel_left e3), h2⟩

/-- The numbers of figures. -/
theorem figureList_length (r : Req) : (figureList r).length = 2 + (if r.terms then 1 else 0) + (if r.kernels then 23 else 0) := by
  have : (kernelFiles "angular" angCols ++ kernelFiles "radial" radCols).length = 23 := by decide +kernel
  unfold figureList
  rw [List.length_append, List.length_append]
  have : (if r.kernels then kernelFiles "angular" angCols ++ kernelFiles "radial" radCols else []).length = if r.kernels then 23 else 0 := by
    split
    · exact this
    · rfl
  rw [this]
  split <;> rfl

/-- **C152.** A profile run saves its two, three, 25 or 26 figures in different files. -/
theorem C152_within (r : Req) (h : Spec.Usable r) : ((figureList r).map (figPath r)).Nodup ∧
    (figureList r).length = 2 + (if r.terms then 1 else 0) + (if r.kernels then 23 else 0) := by
  refine ⟨?_, figureList_length r⟩
  have hn : allFigures.Nodup := by decide +kernel
  have hsub : (figureList r).Nodup := by
    refine List.Nodup.sublist ?_ hn
    unfold allFigures figureList
    simp only [if_true]
    refine List.Sublist.append (List.Sublist.append_left ?_ _) ?_
    · split
      · exact List.Sublist.refl _
      · exact List.nil_sublist _
    · split
      · exact List.Sublist.refl _
      · exact List.nil_sublist _
  exact List.Nodup.map_on (fun f hf g hg e => (figPath_inj r r h h f g (mem_all r f hf) (mem_all r g hg) e).1) hsub

/-- **C152 (partial: the last of the substrings that select the stellar model is not part of the path).** A file of one run and a file of
another one have the same path only if they are the same figure and the runs agree in all substrings but the last, in the rotation rate,
in the save name and in all radial orders, degrees and azimuthal orders. -/
theorem C152_distinct_partial (r r' : Req) (h : Spec.Usable r) (h' : Spec.Usable r') (f g : Str × Str × Str)
    (hf : f ∈ figureList r) (hg : g ∈ figureList r') (e : figPath r f = figPath r' g) :
    f = g ∧ r.mesa.dropLast = r'.mesa.dropLast ∧ r.rot = r'.rot ∧ r.save = r'.save ∧ r.n = r'.n ∧ r.l = r'.l ∧ r.m = r'.m :=
  figPath_inj r r' h h' f g (mem_all r f hf) (mem_all r' g hg) e

/-- **C152 (refutation).** Runs for stellar models that are told apart by the last substring (as the default `profile`, `KIC6352430` does)
write the same files. -/
theorem C152_star_wrong (r : Req) (init : List Str) (star star' : Str) (f : Str × Str × Str) :
    figPath { r with mesa := init ++ [star] } f = figPath { r with mesa := init ++ [star'] } f := by
  unfold figPath outDir
  simp only [List.dropLast_concat]
  rfl

/-- Where the files are. -/
theorem C152_place (r : Req) (h : Spec.Usable r) (f : Str × Str × Str) (hf : f ∈ figureList r) :
    figPath r f = List.intercalate ['/'] (["figure_output".toList, "profiles_isolated_mode_triads".toList] ++ r.mesa.dropLast ++
      ["rot_".toList ++ dec r.rot] ++ [f.1] ++ [f.2.1 ++ '_' :: r.save ++ "_n".toList ++ joinU (r.n.map dec) ++ "_l".toList ++
        joinU (r.l.map dec) ++ "_m".toList ++ joinU (r.m.map dec) ++ '.' :: f.2.2]) := by
  rw [figPath_eq r h f (mem_all r f hf)]
  simp only [fileName, namePart, List.append_assoc, List.cons_append]
  rfl

/-- Non-vacuity, with two concrete runs. -/
example : Spec.Usable ⟨["profile".toList, "KIC6352430".toList], 20, "a".toList, [-20, -22, -25], [2, 1, 1], [2, 1, 1], true, true⟩ ∧
    figPath ⟨["profile".toList, "KIC6352430".toList], 20, "a".toList, [-20, -22, -25], [2, 1, 1], [2, 1, 1], true, true⟩
      ("coupling_coefficient".toList, "cc_profile".toList, "png".toList) =
      ("figure_output/profiles_isolated_mode_triads/profile/rot_20/coupling_coefficient/" ++
        "cc_profile_a_n-20_-22_-25_l2_1_1_m2_1_1.png").toList := by
  refine ⟨⟨?_, by decide⟩, by decide +kernel⟩
  intro w hw
  simp only [List.mem_cons, List.not_mem_nil, or_false] at hw
  rcases hw with rfl | rfl <;> exact ⟨by decide +kernel, by decide +kernel, by decide +kernel, by decide +kernel⟩

end Verif.ProfRun
