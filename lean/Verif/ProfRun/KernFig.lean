import Verif.ProfRun.KernModel
/-! # The panels of the kernel figures -/
namespace Verif.ProfRun
noncomputable section
open Inlist (Str)

theorem drawAll_rep (a0 : Panel) (h0 : a0.curves = []) (entries : List (List Curve × Str)) : ∀ done : List Panel,
    drawAll (done ++ List.replicate entries.length a0) done.length entries =
      some (done ++ entries.map fun e => { a0 with curves := e.1, title := e.2 }) := by
  induction entries with
  | nil => intro done; simp [drawAll]
  | cons e es ih =>
    intro done
    obtain ⟨cs, t⟩ := e
    have hg : (done ++ List.replicate ((cs, t) :: es).length a0)[done.length]? = some a0 := by
      rw [List.getElem?_append_right le_rfl]; simp
    unfold drawAll
    rw [hg]
    dsimp only
    have hs : (done ++ List.replicate ((cs, t) :: es).length a0).set done.length { a0 with curves := a0.curves ++ cs, title := t } =
        (done ++ [{ a0 with curves := cs, title := t }]) ++ List.replicate es.length a0 := by
      rw [List.set_append_right _ _ le_rfl]
      simp [List.replicate_succ, h0]
    rw [hs]
    have := ih (done ++ [{ a0 with curves := cs, title := t }])
    rw [List.length_append, List.length_singleton] at this
    rw [this]
    simp

theorem drawAll_eq (a0 : Panel) (h0 : a0.curves = []) (n : ℕ) (entries : List (List Curve × Str)) (hn : entries.length = n) :
    drawAll (List.replicate n a0) 0 entries = some (entries.map fun e => { a0 with curves := e.1, title := e.2 }) := by
  have := drawAll_rep a0 h0 entries []
  simpa [hn] using this

theorem mapM_const {α β : Type} (f : α → Option β) (g : α → β) : ∀ l : List α, (∀ x ∈ l, f x = some (g x)) →
    l.mapM f = some (l.map g)
  | [], _ => rfl
  | a :: l, h => by
    rw [List.mapM_cons, h a (by simp), Option.bind_eq_bind, Option.bind_some, mapM_const f g l fun x hx => h x (by simp [hx])]
    rfl

/-- The empty panel. -/
def blank (tar : Option (List Bool)) : Panel := { shade := tar }

theorem emptyFigs (x : List ℝ) (tar : Option (List Bool)) (ht : ∀ v, tar = some v → v.length = x.length) (cols : List ℕ) :
    cols.mapM (emptyFig x tar) = some (cols.map fun c => List.replicate c (blank tar)) := by
  refine mapM_const _ _ _ fun c _ => ?_
  unfold emptyFig blank
  cases tar with
  | none => rfl
  | some v => simp [ht v rfl]

theorem flatten_rep (a : Panel) : ∀ cols : List ℕ, (cols.map fun c => List.replicate c a).flatten = List.replicate cols.sum a
  | [] => rfl
  | c :: cs => by simp [flatten_rep a cs, List.replicate_append_replicate]

theorem regroup_flatten : ∀ (cols : List ℕ) (ps : List Panel), cols.sum = ps.length →
    (regroup cols ps).flatten = ps ∧ (regroup cols ps).map List.length = cols
  | [], ps, h => by
    have : ps = [] := List.length_eq_zero_iff.1 h.symm
    simp [regroup, this]
  | c :: cs, ps, h => by
    simp only [List.sum_cons] at h
    obtain ⟨h1, h2⟩ := regroup_flatten cs (ps.drop c) (by rw [List.length_drop]; omega)
    refine ⟨by simp [regroup, h1], ?_⟩
    simp only [regroup, List.map_cons, h2, List.length_take]
    congr 1
    omega

/-- What the figures of a contribution look like: the panels of all figures in order, the number of panels of each figure, and the
names. -/
structure Laid (kind : String) (nr : ℕ) (single : Bool) (cols : List ℕ) (figs : List Figure) (panels : List Panel) : Prop where
  panels : figs.flatMap (fun f => f.panels) = panels
  cols : figs.map (fun f => f.panels.length) = cols
  names : ∀ i f, figs[i]? = some f → f.subdir = (kind ++ "_kernels").toList ∧ f.base = kernelBase kind nr single i ∧
    f.ext = "png".toList

theorem laid_of (kind : String) (nr : ℕ) (single : Bool) (cols : List ℕ) (panels : List Panel) (h : cols.sum = panels.length) :
    Laid kind nr single cols (((regroup cols panels).zipIdx).map fun p =>
      ⟨(kind ++ "_kernels").toList, kernelBase kind nr single p.2, "png".toList, p.1⟩) panels := by
  obtain ⟨h1, h2⟩ := regroup_flatten cols panels h
  have hz : ∀ (l : List (List Panel)) (k : ℕ), (l.zipIdx k).map (fun p => p.1) = l := fun l k => by
    rw [List.zipIdx_eq_zip_range', List.map_fst_zip (by simp)]
  refine ⟨?_, ?_, ?_⟩
  · rw [List.flatMap_map, List.flatMap_def, hz]
    exact h1
  · refine Eq.trans ?_ h2
    rw [List.map_map]
    conv_rhs => rw [← hz (regroup cols panels) 0, List.map_map]
    rfl
  · intro i f hf
    rw [List.getElem?_map, List.getElem?_zipIdx] at hf
    simp only [Option.map_map, Option.map_eq_some_iff] at hf
    obtain ⟨p, -, rfl⟩ := hf
    simp

theorem kernelFigures_multi (kind : String) (nr : ℕ) (x : List ℝ) (tar : Option (List Bool))
    (ht : ∀ v, tar = some v → v.length = x.length) (cols : List ℕ) (entries : List (List Curve × Str))
    (hc : cols.sum = entries.length) :
    ∃ figs, kernelFigures kind nr x tar cols false entries = some figs ∧
      Laid kind nr false cols figs (entries.map fun e => { curves := e.1, title := e.2, shade := tar }) := by
  unfold kernelFigures
  simp only [emptyFigs x tar ht, Option.bind_eq_bind, Option.bind_some, flatten_rep, Bool.false_eq_true, if_false]
  rw [drawAll_eq (blank tar) rfl _ entries hc.symm]
  exact ⟨_, rfl, laid_of kind nr false cols _ (by simpa using hc)⟩

theorem kernelFigures_single (kind : String) (nr : ℕ) (x : List ℝ) (tar : Option (List Bool))
    (ht : ∀ v, tar = some v → v.length = x.length) (entries : List (List Curve × Str)) :
    ∃ figs, kernelFigures kind nr x tar [1] true entries = some figs ∧
      Laid kind nr true [1] figs [{ curves := (entries.map (·.1)).flatten, shade := tar }] := by
  unfold kernelFigures
  simp only [emptyFigs x tar ht, Option.bind_eq_bind, Option.bind_some, flatten_rep, if_true]
  exact ⟨_, rfl, laid_of kind nr true [1] _ rfl⟩

end
end Verif.ProfRun
