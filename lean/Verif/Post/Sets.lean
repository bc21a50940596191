import Mathlib.Tactic.Linarith
import Mathlib.Tactic.NormNum
import Verif.Mask.Props
import Verif.Post.Claims
/-! # Properties C111-C115: models, classes and counts -/
namespace Verif.Post
noncomputable section

/-! ### C111: models stay separate -/

/-- The files of an entry. -/
def Spec.files : Entry → List String
  | .single p => [p]
  | .linked ps => ps

/-- One table per model, holding the rows of its files one after the other. -/
def Spec.Separate (fs : String → Option File) (paths : List Entry) (data : List (List Triad)) : Prop :=
  List.Forall₂ (fun e rows => ∃ files, (Spec.files e).mapM fs = some files ∧ rows = files.flatMap (·.rows)) paths data

theorem mapM_rows (fs : String → Option File) (ps : List String) :
    ps.mapM (fun p => (fs p).map (·.rows)) = (ps.mapM fs).map fun l => l.map (·.rows) := by
  induction ps with
  | nil => rfl
  | cons a l ih =>
    simp only [List.mapM_cons, Option.bind_eq_bind, Option.pure_def, ih]
    cases fs a <;> simp
    cases l.mapM fs <;> simp

/-- **C111 (partial).** If the first model consists of linked files and all files exist, every model gets its own table. -/
theorem C111_separate_partial (fs : String → Option File) (ps : List String) (rest : List Entry)
    (hex : ∀ e ∈ Entry.linked ps :: rest, ∀ p ∈ Spec.files e, (fs p).isSome)
    (hne : ∀ e ∈ Entry.linked ps :: rest, Spec.files e ≠ []) :
    ∃ data, loadData fs (.linked ps :: rest) = some data ∧ Spec.Separate fs (.linked ps :: rest) data := by
  generalize hl : Entry.linked ps :: rest = l at hex hne
  have key : ∀ l : List Entry, (∀ e ∈ l, ∀ p ∈ Spec.files e, (fs p).isSome) → (∀ e ∈ l, Spec.files e ≠ []) →
      ∃ data, (l.mapM fun e => match e with
      | .single p => (fs p).map (·.rows)
      | .linked ps => do
        let files ← ps.mapM fun p => (fs p).map (·.rows)
        concatenate files) = some data ∧ Spec.Separate fs l data := by
    intro l
    induction l with
    | nil => intro _ _; exact ⟨[], rfl, List.Forall₂.nil⟩
    | cons e l ih =>
      intro h1 h2
      obtain ⟨data, hd, hs⟩ := ih (fun e he => h1 e (List.mem_cons_of_mem _ he)) fun e he => h2 e (List.mem_cons_of_mem _ he)
      have hfiles : ∃ files, (Spec.files e).mapM fs = some files := by
        have : ∀ q : List String, (∀ p ∈ q, (fs p).isSome) → ∃ files, q.mapM fs = some files := by
          intro q
          induction q with
          | nil => intro _; exact ⟨[], rfl⟩
          | cons a q ih =>
            intro h
            obtain ⟨f, hf⟩ := Option.isSome_iff_exists.1 (h a List.mem_cons_self)
            obtain ⟨g, hg⟩ := ih fun p hp => h p (List.mem_cons_of_mem _ hp)
            exact ⟨f :: g, by simp [List.mapM_cons, hf, hg]⟩
        exact this _ (h1 e List.mem_cons_self)
      obtain ⟨files, hf⟩ := hfiles
      refine ⟨files.flatMap (·.rows) :: data, ?_, List.Forall₂.cons ⟨files, hf, rfl⟩ hs⟩
      rw [List.mapM_cons, hd]
      cases e with
      | single p =>
        simp only [Spec.files, List.mapM_cons, List.mapM_nil] at hf
        cases hfp : fs p with
        | none => simp [hfp] at hf
        | some f =>
          simp only [hfp, Option.bind_eq_bind, Option.bind_some, Option.pure_def, Option.some.injEq] at hf
          subst hf
          simp [hfp]
      | linked qs =>
        have hq : qs ≠ [] := h2 _ List.mem_cons_self
        have hf' : qs.mapM fs = some files := hf
        have hlen : files ≠ [] := by
          rintro rfl
          cases qs with
          | nil => exact hq rfl
          | cons a q =>
            simp only [List.mapM_cons, Option.bind_eq_bind, Option.pure_def] at hf'
            cases h : fs a <;> simp [h] at hf'
            cases h' : q.mapM fs <;> simp [h'] at hf'
        simp only [mapM_rows, hf', Option.map_some, Option.bind_eq_bind, Option.bind_some, concatenate, List.isEmpty_map]
        rw [if_neg (by simpa using hlen)]
        simp [List.flatMap]
  obtain ⟨data, hd, hs⟩ := key l hex hne
  refine ⟨data, ?_, hs⟩
  rw [← hl] at hd ⊢
  exact hd

/-- One file as a table. -/
def oneFile (fs : String → Option File) (e : Entry) : Option (List Triad) := match e with
  | .single p => (fs p).map (·.rows)
  | .linked _ => none

theorem loadData_single (fs : String → Option File) (a : String) (q : List Entry) :
    loadData fs (.single a :: q) = ((Entry.single a :: q).mapM (oneFile fs)).bind fun files => (concatenate files).map fun r => [r] := by
  unfold loadData
  simp only [Option.bind_eq_bind, Option.pure_def]
  congr 1
  funext files
  cases concatenate files <;> rfl

/-- **C111 (refutation).** If every model is a single file, the triads of all of them are put in one table, however many
models there are; the quantum numbers are kept per model. -/
theorem C111_merged_wrong (fs : String → Option File) (ps : List String) (files : List File) (h : ps.mapM fs = some files)
    (hne : 2 ≤ ps.length) :
    loadData fs (ps.map .single) = some [files.flatMap (·.rows)] ∧
      ¬ (∃ data, loadData fs (ps.map .single) = some data ∧ Spec.Separate fs (ps.map .single) data) ∧
      ∃ attrs, loadAttrs fs (ps.map .single) = some attrs ∧ attrs.length = ps.length := by
  have hl : loadData fs (ps.map .single) = some [files.flatMap (·.rows)] := by
    cases ps with
    | nil => simp at hne
    | cons a q =>
      have e : ((a :: q).map Entry.single).mapM (oneFile fs) = some (files.map (·.rows)) := by
        rw [List.mapM_map]
        exact (mapM_rows fs _).trans (by rw [h]; rfl)
      have hlen : files ≠ [] := by
        rintro rfl
        simp only [List.mapM_cons, Option.bind_eq_bind, Option.pure_def] at h
        cases h0 : fs a <;> simp [h0] at h
        cases h' : q.mapM fs <;> simp [h'] at h
      rw [List.map_cons, loadData_single, ← List.map_cons, e]
      simp only [Option.bind_some, concatenate, List.isEmpty_map]
      rw [if_neg (by simpa using hlen)]
      simp [List.flatMap]
  refine ⟨hl, ?_, ?_⟩
  · rintro ⟨data, hd, hs⟩
    rw [hl] at hd; cases hd
    have := hs.length_eq
    simp at this; omega
  · have : ∀ (q : List String) (files : List File), q.mapM fs = some files →
        ∃ attrs, loadAttrs fs (q.map .single) = some attrs ∧ attrs.length = q.length := by
      intro q
      induction q with
      | nil => intro _ _; exact ⟨[], rfl, rfl⟩
      | cons a q ih =>
        intro files h
        simp only [List.mapM_cons, Option.bind_eq_bind, Option.pure_def] at h
        cases h0 : fs a with
        | none => simp [h0] at h
        | some f =>
          cases h1 : q.mapM fs with
          | none => simp [h0, h1] at h
          | some g =>
            obtain ⟨at', ha, hb⟩ := ih g h1
            refine ⟨.one f.k f.l f.m :: at', ?_, by simp [hb]⟩
            unfold loadAttrs at ha ⊢
            rw [List.map_cons, List.mapM_cons, ha]
            simp [h0]
    exact this ps files h

/-- **C111 (refutation).** A single file followed by linked files cannot be loaded at all. -/
theorem C111_mixed_wrong (fs : String → Option File) (p : String) (ps : List String) (l l' : List Entry) :
    loadData fs (.single p :: l ++ .linked ps :: l') = none := by
  have : ∀ l : List Entry, (l ++ .linked ps :: l').mapM (oneFile fs) = none := by
    intro l
    induction l with
    | nil => simp [List.mapM_cons, oneFile]
    | cons e l ih =>
      rw [List.cons_append, List.mapM_cons, ih]
      cases oneFile fs e <;> simp
  have h := this (.single p :: l)
  rw [List.cons_append] at h ⊢
  rw [loadData_single, h]; rfl

end
end Verif.Post
