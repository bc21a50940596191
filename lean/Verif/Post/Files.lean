import Verif.Runner.Paths
/-!
# C165: the files of the plotter

`aesolver/aeplotter/quadratic_plotter.py` 126-170, 798-831 (PL), `resonance_sharpness/figure_class.py` 144-228 and
`overview_plot/figure_class.py` 56-72, 128-162 (the same code).  The drawing is not modelled; directories can be created.
-/
namespace Verif.Post
open Inlist (Str)
open Runner (toPath join PurePath splitSlash)

/-- The save information and the plots that are asked for. -/
structure SaveInfo where
  base : Str
  dir : Str
  extra : Str
  formats : List Str
  sharpName : Str
  sharpSub : Str
  overName : Str
  overSub : Str
  plotSharp : Bool
  plotOver : Bool

/-- `save_dir` of `_store_generic_save_information` (PL:126-141). -/
def saveDir (s : SaveInfo) : PurePath := join (toPath s.base) (toPath s.dir)

/-- The directory of a figure (`figure_class.py` 150-154, 63-67). -/
def figDir (s : SaveInfo) (sub : Str) : PurePath := if 0 < sub.length then join (saveDir s) (toPath sub) else saveDir s

/-- `file_template_name` (`figure_class.py` 148, 61). -/
def template (s : SaveInfo) (name : Str) : Str := name ++ (if 0 < s.extra.length then '_' :: s.extra else [])

/-- `str(path)`. -/
def strPath (p : PurePath) : Str :=
  if p.parts = [] then (if p.abs then ['/'] else ['.']) else (if p.abs then ['/'] else []) ++ List.intercalate ['/'] p.parts

/-- `_save_paths` (`figure_class.py` 156-159, 69-72).  (A path that starts with two slashes is the same file as with one.) -/
def savePaths (s : SaveInfo) (name sub : Str) : List PurePath :=
  s.formats.map fun fmt => toPath (strPath (figDir s sub) ++ '/' :: (template s name ++ '.' :: fmt))

/-- `path.suffix`: from the last dot of the last component, if something is before and after it. -/
def suffix (p : PurePath) : Str :=
  let name := p.parts.getLast?.getD []
  let ext := (name.reverse.takeWhile (· ≠ '.')).reverse
  if '.' ∈ name ∧ ext ≠ [] ∧ ext.length + 1 < name.length then '.' :: ext else []

/-- `save_plots` (`figure_class.py` 194-228, 128-162): path and format of every file. -/
def savePlots (paths : List PurePath) : List (PurePath × Str) := paths.map fun p => (p, (suffix p).drop 1)

/-- `generate_plots` (PL:798-831): the files that are written, in order. -/
def writtenFiles (s : SaveInfo) : List (PurePath × Str) :=
  (if s.plotSharp then savePlots (savePaths s s.sharpName s.sharpSub) else []) ++
    (if s.plotOver then savePlots (savePaths s s.overName s.overSub) else [])

/-! ### Specification -/

/-- Names without slashes; formats without slashes and dots, not empty. -/
structure Spec.UsableNames (s : SaveInfo) : Prop where
  extra : '/' ∉ s.extra
  sharp : '/' ∉ s.sharpName ∧ s.sharpName ≠ []
  over : '/' ∉ s.overName ∧ s.overName ≠ []
  formats : ∀ f ∈ s.formats, f ≠ [] ∧ '/' ∉ f ∧ '.' ∉ f

/-- The name of a file: name, extra part and format. -/
def Spec.fileName (s : SaveInfo) (name fmt : Str) : Str :=
  if s.extra = [] then name ++ ['.'] ++ fmt else name ++ ['_'] ++ s.extra ++ ['.'] ++ fmt

/-- The directory of a figure: base directory, save directory and subdirectory one after the other, from the last absolute one on. -/
def Spec.directory (s : SaveInfo) (sub : Str) : PurePath :=
  if (toPath sub).abs then toPath sub
  else if (toPath s.dir).abs then ⟨true, (toPath s.dir).parts ++ (toPath sub).parts⟩
  else ⟨(toPath s.base).abs, (toPath s.base).parts ++ (toPath s.dir).parts ++ (toPath sub).parts⟩

/-- The file of a figure in a format. -/
def Spec.file (s : SaveInfo) (name sub fmt : Str) : PurePath × Str :=
  (⟨(Spec.directory s sub).abs, (Spec.directory s sub).parts ++ [Spec.fileName s name fmt]⟩, fmt)

/-! ### Proofs -/

theorem splitSlash_free (s : Str) : ∀ w ∈ splitSlash s, '/' ∉ w := by
  induction s with
  | nil => simp [splitSlash]
  | cons c s ih =>
    unfold splitSlash
    split
    · intro w hw
      rcases List.mem_cons.1 hw with rfl | hw
      · simp
      · exact ih w hw
    · rename_i hc
      cases hs : splitSlash s with
      | nil =>
        intro w hw
        simp at hw
        subst hw
        simpa using fun e => hc e.symm
      | cons u us =>
        rw [hs] at ih
        intro w hw
        rcases List.mem_cons.1 hw with rfl | hw
        · simp only [List.mem_cons, not_or]
          exact ⟨fun e => hc e.symm, ih u List.mem_cons_self⟩
        · exact ih w (List.mem_cons_of_mem _ hw)

/-- The components of a path as `Path` makes them. -/
def Canon (p : PurePath) : Prop := ∀ w ∈ p.parts, w ≠ [] ∧ w ≠ ['.'] ∧ '/' ∉ w

theorem canon_toPath (s : Str) : Canon (toPath s) := by
  intro w hw
  unfold toPath at hw
  simp only [List.mem_filter, Bool.and_eq_true, decide_eq_true_eq] at hw
  exact ⟨hw.2.1, hw.2.2, splitSlash_free s w hw.1⟩

theorem canon_join (p q : PurePath) (hp : Canon p) (hq : Canon q) : Canon (join p q) := by
  unfold join
  split
  · exact hq
  · intro w hw
    rcases List.mem_append.1 hw with h | h
    · exact hp w h
    · exact hq w h

theorem figDir_eq (s : SaveInfo) (sub : Str) : figDir s sub = Spec.directory s sub ∧ Canon (figDir s sub) := by
  have hsave : Canon (saveDir s) := canon_join _ _ (canon_toPath _) (canon_toPath _)
  have h0 : sub = [] → toPath sub = ⟨false, []⟩ := by rintro rfl; rfl
  unfold figDir
  split
  · refine ⟨?_, canon_join _ _ hsave (canon_toPath _)⟩
    unfold Spec.directory saveDir join
    split
    · rfl
    · split <;> simp_all
  · rename_i h
    have : sub = [] := by simpa using h
    refine ⟨?_, hsave⟩
    unfold Spec.directory
    rw [h0 this]
    unfold saveDir join
    simp only [Bool.false_eq_true, if_false, List.append_nil]
    split
    · rename_i hd
      rw [← hd]
    · rfl

theorem split_canon (ws : List Str) (h : ∀ w ∈ ws, w ≠ [] ∧ w ≠ ['.'] ∧ '/' ∉ w) (h0 : ws ≠ []) (r : Str) :
    splitSlash (List.intercalate ['/'] ws ++ '/' :: r) = ws ++ splitSlash r := by
  induction ws with
  | nil => exact absurd rfl h0
  | cons w ws ih =>
    cases ws with
    | nil => simpa [List.intercalate] using Runner.splitSlash_append w r (h w List.mem_cons_self).2.2
    | cons u us =>
      have e : List.intercalate ['/'] (w :: u :: us) ++ '/' :: r = w ++ '/' :: (List.intercalate ['/'] (u :: us) ++ '/' :: r) := by
        simp [List.intercalate]
      rw [e, Runner.splitSlash_append _ _ (h w List.mem_cons_self).2.2, ih (fun w hw => h w (List.mem_cons_of_mem _ hw)) (by simp)]
      rfl

/-- A file below a directory. -/
theorem toPath_file (p : PurePath) (hp : Canon p) (file : Str) (h1 : file ≠ []) (h2 : file ≠ ['.']) (h3 : '/' ∉ file) :
    toPath (strPath p ++ '/' :: file) = ⟨p.abs, p.parts ++ [file]⟩ := by
  obtain ⟨ab, ws⟩ := p
  unfold strPath
  by_cases hw : ws = []
  · subst hw
    cases ab
    · show toPath (['.'] ++ '/' :: file) = _
      unfold toPath
      rw [Runner.splitSlash_append _ _ (by decide), Runner.splitSlash_plain _ h3]
      simp [h1, h2]
    · show toPath ([] ++ '/' :: ([] ++ '/' :: file)) = _
      unfold toPath
      rw [Runner.splitSlash_append _ _ (by simp), Runner.splitSlash_append _ _ (by simp), Runner.splitSlash_plain _ h3]
      simp [h1, h2]
  · have hf : (ws ++ [file]).filter (fun w => w ≠ [] && w ≠ ['.']) = ws ++ [file] := by
      rw [List.filter_eq_self]
      intro w hm
      rcases List.mem_append.1 hm with h | h
      · simp [(hp w h).1, (hp w h).2.1]
      · simp at h; subst h; simp [h1, h2]
    have hs := split_canon ws hp hw file
    rw [Runner.splitSlash_plain _ h3] at hs
    simp only [hw, if_false]
    cases ab
    · unfold toPath
      simp only [Bool.false_eq_true, if_false, List.nil_append]
      rw [hs, hf]
      congr 1
      cases ws with
      | nil => exact absurd rfl hw
      | cons w ws =>
        obtain ⟨n1, -, n3⟩ := hp w List.mem_cons_self
        cases w with
        | nil => exact absurd rfl n1
        | cons c w =>
          have : c ≠ '/' := fun e => n3 (by simp [e])
          simp [List.intercalate, List.intersperse]
          cases ws <;> simp [this]
    · unfold toPath
      simp only [if_true]
      have e : ['/'] ++ List.intercalate ['/'] ws ++ '/' :: file = [] ++ '/' :: (List.intercalate ['/'] ws ++ '/' :: file) := by simp
      rw [e, Runner.splitSlash_append _ _ (by simp), hs, List.filter_cons_of_neg (by simp), hf]
      rfl

theorem template_file (s : SaveInfo) (name fmt : Str) : template s name ++ '.' :: fmt = Spec.fileName s name fmt := by
  unfold template Spec.fileName
  by_cases h : s.extra = []
  · simp [h]
  · have : 0 < s.extra.length := List.length_pos_iff.2 h
    simp [this, h]

theorem suffix_file (ab : Bool) (ws : List Str) (t fmt : Str) (ht : t ≠ []) (hf : fmt ≠ []) (hd : '.' ∉ fmt) :
    suffix ⟨ab, ws ++ [t ++ '.' :: fmt]⟩ = '.' :: fmt := by
  have hext : (((t ++ '.' :: fmt).reverse.takeWhile (· ≠ '.')).reverse) = fmt := by
    have : (t ++ '.' :: fmt).reverse = fmt.reverse ++ '.' :: t.reverse := by simp
    rw [this, List.takeWhile_append_of_pos (by intro c hc; simp; rintro rfl; exact hd (by simpa using hc))]
    simp
  have hlen : 0 < t.length := List.length_pos_iff.2 ht
  unfold suffix
  simp only [List.getLast?_append, List.getLast?_singleton, Option.some_or, Option.getD_some]
  rw [hext, if_pos]
  exact ⟨by simp, hf, by simp; omega⟩

theorem savePlots_eq (s : SaveInfo) (name sub : Str) (hn : '/' ∉ name ∧ name ≠ []) (h : Spec.UsableNames s) :
    savePlots (savePaths s name sub) = s.formats.map (Spec.file s name sub) := by
  unfold savePlots savePaths
  rw [List.map_map]
  refine List.map_congr_left fun fmt hf => ?_
  obtain ⟨f1, f2, f3⟩ := h.formats fmt hf
  have ht : template s name ≠ [] := by simp [template, hn.2]
  have hs : '/' ∉ template s name ++ '.' :: fmt := by
    have hx : '/' ∉ (if 0 < s.extra.length then '_' :: s.extra else []) := by
      split
      · simpa using h.extra
      · simp
    simp only [template, List.mem_append, List.mem_cons, not_or]
    exact ⟨⟨hn.1, hx⟩, by decide, f2⟩
  have hp := toPath_file (figDir s sub) (figDir_eq s sub).2 (template s name ++ '.' :: fmt) (by simp) (by
    intro e
    have e1 := congrArg List.length e
    have : 0 < (template s name).length := List.length_pos_iff.2 ht
    simp only [List.length_append, List.length_cons, List.length_nil] at e1
    omega) hs
  simp only [Function.comp_apply]
  rw [hp, suffix_file _ _ _ _ ht f1 f3, (figDir_eq s sub).1, template_file]
  rfl

/-- **C165.** The plotter writes each requested figure once in each requested format, to the file
`directory/name[_extra].format`, where the directory is made of base directory, save directory and subdirectory. -/
theorem C165_files (s : SaveInfo) (h : Spec.UsableNames s) :
    writtenFiles s = (if s.plotSharp then s.formats.map (Spec.file s s.sharpName s.sharpSub) else []) ++
      (if s.plotOver then s.formats.map (Spec.file s s.overName s.overSub) else []) := by
  unfold writtenFiles
  rw [savePlots_eq s _ _ h.sharp h, savePlots_eq s _ _ h.over h]

theorem fileName_inj (s : SaveInfo) (n n' f f' : Str) (hf : '.' ∉ f) (hf' : '.' ∉ f') (h : Spec.fileName s n f = Spec.fileName s n' f') :
    n = n' ∧ f = f' := by
  have key : ∀ a b : Str, a ++ '.' :: f = b ++ '.' :: f' → a = b ∧ f = f' := by
    intro a b e
    have e' : f.reverse ++ '.' :: a.reverse = f'.reverse ++ '.' :: b.reverse := by
      have := congrArg List.reverse e
      simpa using this
    have tw : ∀ g c : Str, '.' ∉ g → (g.reverse ++ '.' :: c).takeWhile (· ≠ '.') = g.reverse := by
      intro g c hg
      rw [List.takeWhile_append_of_pos (by intro x hx; simp; rintro rfl; exact hg (by simpa using hx))]
      simp
    have e1 := congrArg (List.takeWhile (· ≠ '.')) e'
    rw [tw f _ hf, tw f' _ hf'] at e1
    have e2 := List.reverse_injective e1
    subst e2
    exact ⟨List.append_cancel_right e, rfl⟩
  rw [← template_file, ← template_file] at h
  obtain ⟨h1, h2⟩ := key _ _ h
  exact ⟨List.append_cancel_right h1, h2⟩

theorem file_path_inj (s : SaveInfo) (n n' sub sub' f f' : Str) (hf : '.' ∉ f) (hf' : '.' ∉ f') :
    (Spec.file s n sub f).1 = (Spec.file s n' sub' f').1 ↔ n = n' ∧ f = f' ∧ Spec.directory s sub = Spec.directory s sub' := by
  constructor
  · intro h
    obtain ⟨h1, h2⟩ := PurePath.mk.inj h
    obtain ⟨h3, h4⟩ := List.append_inj' h2 rfl
    obtain ⟨h5, h6⟩ := fileName_inj s n n' f f' hf hf' (List.cons.inj h4).1
    exact ⟨h5, h6, by cases hd : Spec.directory s sub; cases hd' : Spec.directory s sub'; rw [hd, hd'] at h1 h3; cases h1; cases h3; rfl⟩
  · rintro ⟨rfl, rfl, h⟩
    unfold Spec.file
    rw [h]

/-- **C165.** No file of a run overwrites another one of it exactly if no format is asked for twice and the two figures, if both are made,
differ in name or directory. -/
theorem C165_distinct (s : SaveInfo) (h : Spec.UsableNames s) (hp : s.plotSharp = true ∨ s.plotOver = true) :
    ((writtenFiles s).map (·.1)).Nodup ↔ s.formats.Nodup ∧ (s.plotSharp = true → s.plotOver = true → s.formats ≠ [] →
      s.sharpName ≠ s.overName ∨ Spec.directory s s.sharpSub ≠ Spec.directory s s.overSub) := by
  rw [C165_files s h]
  have one : ∀ n sub, ((s.formats.map (Spec.file s n sub)).map (·.1)).Nodup ↔ s.formats.Nodup := by
    intro n sub
    rw [List.map_map]
    refine ⟨List.Nodup.of_map _, fun hd => List.Nodup.map_on ?_ hd⟩
    intro a ha b hb e
    exact ((file_path_inj s n n sub sub a b (h.formats a ha).2.2 (h.formats b hb).2.2).1 e).2.1
  rw [List.map_append, List.nodup_append]
  cases hs : s.plotSharp <;> cases ho : s.plotOver
  · simp [hs, ho] at hp
  · simp only [Bool.false_eq_true, if_false, if_true, List.map_nil, List.nodup_nil, one, List.not_mem_nil]
    simp
  · simp only [Bool.false_eq_true, if_false, if_true, List.map_nil, List.nodup_nil, one, List.not_mem_nil]
    simp
  · simp only [if_true, one, true_implies]
    constructor
    · rintro ⟨h1, -, h3⟩
      refine ⟨h1, fun hne => ?_⟩
      obtain ⟨f, hf⟩ := List.exists_mem_of_ne_nil _ hne
      by_contra hc
      simp only [not_or, not_not, ne_eq] at hc
      refine h3 (Spec.file s s.sharpName s.sharpSub f).1 (by simpa using ⟨f, hf, rfl⟩) (Spec.file s s.overName s.overSub f).1
        (by simpa using ⟨f, hf, rfl⟩) ?_
      exact (file_path_inj _ _ _ _ _ _ _ (h.formats f hf).2.2 (h.formats f hf).2.2).2 ⟨hc.1, rfl, hc.2⟩
    · rintro ⟨h1, h2⟩
      refine ⟨h1, h1, ?_⟩
      intro a ha b hb e
      simp only [List.map_map, List.mem_map, Function.comp_apply] at ha hb
      obtain ⟨f, hf, rfl⟩ := ha
      obtain ⟨g, hg, rfl⟩ := hb
      obtain ⟨e1, -, e3⟩ := (file_path_inj _ _ _ _ _ _ _ (h.formats f hf).2.2 (h.formats g hg).2.2).1 e
      rcases h2 (List.ne_nil_of_mem hf) with h4 | h4
      · exact h4 e1
      · exact h4 e3

/-- **C165.** Where the names are not usable: without name and extra part the file is hidden and the format is lost (the empty format
is what `savefig` gets), and two figures with the same name and directory are written to the same files. -/
theorem C165_limits :
    (∀ (p : PurePath) (fmt : Str), Canon p → fmt ≠ [] → '/' ∉ fmt → '.' ∉ fmt →
      savePlots [toPath (strPath p ++ '/' :: ([] ++ '.' :: fmt))] = [(⟨p.abs, p.parts ++ ['.' :: fmt]⟩, [])]) ∧
    ∀ s : SaveInfo, Spec.UsableNames s → s.plotSharp = true → s.plotOver = true → s.sharpName = s.overName → s.sharpSub = s.overSub →
      ∃ l, writtenFiles s = l ++ l := by
  constructor
  · intro p fmt hp h1 h2 h3
    have hs : '/' ∉ '.' :: fmt := by simp [h2]
    rw [List.nil_append, savePlots, List.map_singleton, toPath_file p hp _ (by simp) (by simpa using h1) hs]
    congr 2
    have hext : ((('.' :: fmt).reverse.takeWhile (· ≠ '.')).reverse) = fmt := by
      rw [List.reverse_cons, List.takeWhile_append_of_pos (by intro x hx; simp; rintro rfl; exact h3 (by simpa using hx))]
      simp
    unfold suffix
    simp only [List.getLast?_append, List.getLast?_singleton, Option.some_or, Option.getD_some]
    rw [hext, if_neg (by simp)]
    rfl
  · intro s h hs ho hn hsub
    refine ⟨s.formats.map (Spec.file s s.overName s.overSub), ?_⟩
    rw [C165_files s h, hs, ho, hn, hsub]
    rfl

/-- Options of an inlist. -/
def sampleSave : SaveInfo :=
  ⟨"../figures".toList, "run/".toList, "x".toList, ["png".toList, "pdf".toList], "sharp".toList, [], "over".toList, "all".toList, true, true⟩

example : Spec.UsableNames sampleSave ∧ ((writtenFiles sampleSave).map (·.1)).Nodup ∧ (writtenFiles sampleSave).length = 4 ∧
    (writtenFiles sampleSave)[2]? = some (⟨false, ["..".toList, "figures".toList, "run".toList, "all".toList, "over_x.png".toList]⟩, "png".toList) := by
  refine ⟨⟨by decide, by decide, by decide, by decide⟩, by decide +kernel, by decide +kernel, by decide +kernel⟩

end Verif.Post
