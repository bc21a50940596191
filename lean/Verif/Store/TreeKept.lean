import Verif.Store.C51
import Verif.Store.C71
/-! # Files stay trees, and the mode that is used (C51, C71) -/
namespace Verif.Store
open Spec
variable {A : Type}

theorem tree_insert (f : File A) (h : Tree f) (q : Path) (hq : f.node q = none)
    (ha : ∀ x y, q = x ++ y → y ≠ [] → f.node x = some .group) (n : Node) : Tree (f.set q (some n)) := by
  have hr : ([] : Path) ≠ q := by rintro rfl; rw [h.root] at hq; cases hq
  refine ⟨by rw [File.set_other _ _ _ _ hr]; exact h.root, fun x y hxy hy => ?_⟩
  have hx : f.node x = some .group := by
    by_cases e : x ++ y = q
    · exact ha x y e.symm hy
    · rw [File.set_other _ _ _ _ e] at hxy
      exact h.above x y hxy hy
  rw [File.set_other _ _ _ _ (by rintro rfl; rw [hq] at hx; cases hx)]
  exact hx

theorem take_prefix (p x y : Path) (a : ℕ) (h : p.take a = x ++ y) (hy : y ≠ []) : ∃ j < a, x = p.take j := by
  refine ⟨x.length, ?_, ?_⟩
  · have := congrArg List.length h
    have hy' := List.length_pos_of_ne_nil hy
    simp at this; omega
  · have := congrArg (List.take x.length) h
    rw [List.take_append_of_le_length le_rfl, List.take_length, List.take_take] at this
    have hlen := congrArg List.length h
    simp at hlen
    rw [min_eq_left (by omega)] at this
    exact this.symm

theorem groups_tree (p : Path) : ∀ (k a : ℕ) (f f' : File A), Tree f → (∀ j < a, f.node (p.take j) = some .group) →
    f.groups ((List.range' a k).map p.take) = .ok f' → Tree f' ∧ (∀ j < a + k, f'.node (p.take j) = some .group)
  | 0, a, f, f', h, hj, e => by
    simp [File.groups] at e; subst e; exact ⟨h, by simpa using hj⟩
  | k + 1, a, f, f', h, hj, e => by
    rw [List.range'_succ, List.map_cons, File.groups] at e
    match hn : f.node (p.take a) with
    | some (.dset _) => rw [hn] at e; cases e
    | some .group =>
      rw [hn] at e
      have := groups_tree p k (a + 1) f f' h (by
        intro j hj'
        rcases Nat.lt_succ_iff_lt_or_eq.1 hj' with h' | rfl
        · exact hj j h'
        · exact hn) e
      exact ⟨this.1, fun j hj' => this.2 j (by omega)⟩
    | none =>
      rw [hn] at e
      have h1 : Tree (f.set (p.take a) (some .group)) := tree_insert f h _ hn (fun x y hxy hy => by
        obtain ⟨j, hja, rfl⟩ := take_prefix p x y a hxy hy
        exact hj j hja) _
      have := groups_tree p k (a + 1) _ f' h1 (by
        intro j hj'
        by_cases e' : p.take j = p.take a
        · rw [e', File.set_same]
        · rw [File.set_other _ _ _ _ e']
          rcases Nat.lt_succ_iff_lt_or_eq.1 hj' with h' | rfl
          · exact hj j h'
          · exact absurd rfl e') e
      exact ⟨this.1, fun j hj' => this.2 j (by omega)⟩

/-- Making the groups above a path makes exactly those. -/
theorem parents_tree (p : Path) (f f' : File A) (h : Tree f) (e : f.groups (parents p) = .ok f') :
    Tree f' ∧ ∀ x y, p = x ++ y → y ≠ [] → f'.node x = some .group := by
  rw [parents, List.range_eq_range'] at e
  obtain ⟨h1, h2⟩ := groups_tree p p.length 0 f f' h (by simp) e
  refine ⟨h1, fun x y hxy hy => ?_⟩
  obtain ⟨j, hj, rfl⟩ := take_prefix p x y p.length (by rw [List.take_length]; exact hxy) hy
  exact h2 j (by omega)

theorem create_tree (p : Path) (d : Dset) (f f' : File A) (h : Tree f) (e : f.createDataset p d = .ok f') :
    Tree f' ∧ f'.node p = some (.dset d) := by
  unfold File.createDataset at e
  match hg : f.groups (parents p) with
  | .error _ => rw [hg] at e; cases e
  | .ok f1 =>
    rw [hg] at e
    obtain ⟨t1, a1⟩ := parents_tree p f f1 h hg
    match hn : f1.node p with
    | some _ => simp only [hn] at e; cases e
    | none =>
      simp only [hn, Except.ok.injEq] at e
      subst e
      exact ⟨tree_insert f1 t1 p hn a1 _, File.set_same _ _ _⟩

theorem overwrite_tree (nw : NullWrite) (p : Path) (v : Value) (f f' : File A) (h : Tree f)
    (e : overwriteDataset nw f p v = .ok f') : Tree f' := by
  unfold overwriteDataset at e
  match hn : f.node p with
  | none => rw [hn] at e; cases e
  | some .group => rw [hn] at e; cases e; exact h
  | some (.dset old) =>
    rw [hn] at e
    simp only at e
    have hre : ∀ d, (f.delete p).createDataset p d = .ok f' → Tree f' := by
      intro d hd
      rw [recreate f h p old hn d] at hd
      cases hd
      exact tree_set f h p old d hn
    have hmatch : ∀ v, (match assign nw old v with
        | .ok new => Except.ok (f.set p (some (.dset new)))
        | .error .valueError => (f.delete p).createDataset p (made v)
        | .error .typeError => (f.delete p).createDataset p (made v)
        | .error .other => .error .other) = .ok f' → Tree f' := by
      intro v hv
      split at hv
      · cases hv; exact tree_set f h p old _ hn
      · exact hre _ hv
      · exact hre _ hv
      · cases hv
    cases v with
    | none => rw [if_pos rfl] at e; exact hmatch none e
    | some a =>
      by_cases hb : (old.dtype == a.dtype) = true
      · rw [if_pos hb] at e; exact hmatch _ e
      · rw [if_neg hb] at e; exact hre _ e

theorem createOverwrite_tree (nw : NullWrite) (m : Mode) (g : Path) (n : String) (v : Value) (t : Option DType) (f f' : File A)
    (h : Tree f) (e : createOverwrite nw m f g n v t = .ok f') : Tree f' := by
  unfold createOverwrite at e
  simp only at e
  split at e
  · split at e
    · exact overwrite_tree nw _ v f f' h e
    · cases e; exact h
  · exact (create_tree _ _ f f' h e).1

theorem groups_append (f : File A) : ∀ (a b : List Path), f.groups (a ++ b) = (f.groups a).bind (fun f => f.groups b)
  | [], b => rfl
  | p :: a, b => by
    simp only [List.cons_append, File.groups]
    split
    · rfl
    · exact groups_append f a b
    · exact groups_append _ a b

theorem requireGroup_tree (g : Path) (f f' : File A) (h : Tree f) (e : f.requireGroup g = .ok f') :
    Tree f' ∧ f'.node g = some .group := by
  have : parents g ++ [g] = (List.range' 0 (g.length + 1)).map g.take := by
    rw [parents, ← List.range_eq_range', List.range_succ]; simp
  rw [File.requireGroup, this] at e
  obtain ⟨h1, h2⟩ := groups_tree g (g.length + 1) 0 f f' h (by simp) e
  exact ⟨h1, by simpa using h2 g.length (by omega)⟩

theorem doOp_tree (nw : NullWrite) (m : Mode) (o : Op) (f f' : File AttrV) (h : Tree f) (e : doOp nw m f o = .ok f') : Tree f' := by
  cases o with
  | attr g n v =>
    simp only [doOp] at e
    match hg : f.requireGroup g with
    | .error _ => rw [hg] at e; cases e
    | .ok f1 =>
      rw [hg] at e
      cases e
      obtain ⟨t, -⟩ := requireGroup_tree g f f1 h hg
      exact ⟨t.root, t.above⟩
  | dset g n v t => exact createOverwrite_tree nw m g n _ t f f' h e

theorem doOps_tree (nw : NullWrite) (m : Mode) : ∀ (os : List Op) (f f' : File AttrV), Tree f → doOps nw m f os = .ok f' → Tree f'
  | [], f, f', h, e => by cases e; exact h
  | o :: os, f, f', h, e => by
    simp only [doOps] at e
    match ho : doOp nw m f o with
    | .error _ => rw [ho] at e; cases e
    | .ok f1 => rw [ho] at e; exact doOps_tree nw m os f1 f' (doOp_tree nw m o f f1 h ho) e

theorem tree_new : Tree (File.new : File A) := by
  refine ⟨by simp [File.new], fun p q hpq hq => ?_⟩
  simp only [File.new] at hpq
  split at hpq
  · next e => exact absurd (List.append_eq_nil_iff.1 e).2 hq
  · exact absurd rfl hpq

/-- **C71.** The saved file is a tree of groups: everything above a stored data set is a group that can be listed. -/
theorem C71_tree (nw : NullWrite) (r : Run) (f : File AttrV) (h : save nw r = .ok f) : Tree f := by
  unfold save at h
  split at h
  · cases h
  · exact doOps_tree nw .write _ _ f tree_new h

/-- **C51.** Writing never destroys the tree, in any mode, for any value. -/
theorem C51_tree (nw : NullWrite) (m : Mode) (f f' : File A) (h : Tree f) (g : Path) (n : String) (v : Value) (t : Option DType)
    (e : createOverwrite nw m f g n v t = .ok f') : Tree f' := createOverwrite_tree nw m g n v t f f' h e

/-- **C51.** The flags: with the read-and-write flag stored data sets are replaced, whatever the append flag; without it
they are kept. -/
theorem C51_flags (nw : NullWrite) (f : File A) (h : Tree f) (g : Path) (n : String) (old : Dset) (app : Bool)
    (hp : f.node (g ++ [n]) = some (.dset old)) (v : Value) (hv : ∀ a, v = some a → a.Valid) (hr : Replaceable old v)
    (t : Option DType) :
    (∃ f', createOverwrite nw (selectMode true app) f g n v t = .ok f' ∧ Replaced f f' (g ++ [n]) (made v)) ∧
    createOverwrite nw (selectMode false app) f g n v t = .ok f := by
  refine ⟨C51_update_partial nw f h g n old hp v hv hr t, C51_kept_otherwise nw _ ?_ f g n _ hp v t⟩
  cases app <;> simp [selectMode]

/-- **C51.** `create_dataset` itself refuses a path at which something is stored, in particular a group. -/
theorem C51_create_refuses (f : File A) (h : Tree f) (p : Path) (d : Dset) (hp : f.node p ≠ none) :
    ∃ e, f.createDataset p d = .error e := by
  match e : f.createDataset p d with
  | .error x => exact ⟨x, rfl⟩
  | .ok f' =>
    exfalso
    unfold File.createDataset at e
    have hg : f.groups (parents p) = .ok f := groups_ok f _ fun q hq => by
      obtain ⟨r, e, hr⟩ := mem_parents p q hq
      exact h.above q r (by rw [← e]; exact hp) hr
    rw [hg] at e
    match hn : f.node p with
    | none => exact hp hn
    | some _ => simp only [hn] at e; cases e

end Verif.Store
