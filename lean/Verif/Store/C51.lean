import Verif.Store.H5
import Mathlib.Tactic.Ring
/-! # Property C51: writing a data set in update mode -/
namespace Verif.Store
variable {A : Type}

namespace Spec
/-- A file is a tree: the root is a group and everything above a stored path is a group. -/
structure Tree (f : File A) : Prop where
  root : f.node [] = some .group
  above : ∀ p q, f.node (p ++ q) ≠ none → q ≠ [] → f.node p = some .group

/-- Counted from the last dimension, each dimension of `v` is one or that of `o`. -/
def Compatible (v o : List ℕ) : Prop :=
  ∀ i, v.reverse.getD i 1 = 1 ∨ (i < o.length ∧ v.reverse.getD i 1 = o.reverse.getD i 0)

/-- The stored data set is replaced by the value: it has another data type, or the same shape, or a shape
of at least one element to which the value cannot be repeated.  For None: it does not hold flags. -/
def Replaceable (old : Dset) : Value → Prop
  | none => old.dtype ≠ .bool
  | some a => old.dtype ≠ a.dtype ∨ ∃ s d, old.content = .array s d ∧ d.length = s.prod ∧
      (s = a.shape ∨ (s.prod ≠ 0 ∧ ¬ Compatible a.shape s))
end Spec
open Spec

theorem bcastRev_iff : ∀ (v o : List ℕ), bcastRev v o = true ↔
    ∀ i, v.getD i 1 = 1 ∨ (i < o.length ∧ v.getD i 1 = o.getD i 0)
  | [], o => by simp [bcastRev]
  | v :: vs, [] => by
    simp only [bcastRev, Bool.and_eq_true, beq_iff_eq, bcastRev_iff vs []]
    constructor
    · rintro ⟨h1, h2⟩ i
      cases i with
      | zero => left; simpa using h1
      | succ i => simpa using h2 i
    · intro h
      refine ⟨by simpa using h 0, fun i => by simpa using h (i + 1)⟩
  | v :: vs, o :: os => by
    simp only [bcastRev, Bool.and_eq_true, Bool.or_eq_true, beq_iff_eq, bcastRev_iff vs os]
    constructor
    · rintro ⟨h1, h2⟩ i
      cases i with
      | zero => simpa using h1
      | succ i => simpa using h2 i
    · intro h
      refine ⟨by simpa using h 0, fun i => by simpa using h (i + 1)⟩

theorem bcast_iff (v o : List ℕ) : bcast v o = true ↔ Compatible v o := by
  rw [bcast, bcastRev_iff]; simp [Compatible]

theorem compatible_self (s : List ℕ) : Compatible s s := by
  intro i
  by_cases h : i < s.length
  · right; refine ⟨h, ?_⟩; simp [h]
  · left; simp [List.getD_eq_getElem?_getD, List.getElem?_eq_none (l := s.reverse) (i := i) (by simpa using h)]

/-- Cutting a list into pieces and joining them gives it back. -/
theorem chunks {β : Type} (k n : ℕ) (d : List β) (h : d.length = n * k) :
    ((List.range n).map fun i => (d.drop (i * k)).take k).flatten = d := by
  induction n generalizing d with
  | zero => simp at h; simp [h]
  | succ n ih =>
    rw [List.range_succ_eq_map, List.map_cons, List.flatten_cons, List.map_map]
    have e := ih (d.drop k) (by rw [List.length_drop, h]; rw [Nat.succ_mul]; omega)
    have : ((List.range n).map ((fun i => (d.drop (i * k)).take k) ∘ Nat.succ)) =
        (List.range n).map fun i => ((d.drop k).drop (i * k)).take k := by
      refine List.map_congr_left fun i _ => ?_
      simp only [Function.comp, List.drop_drop, Nat.succ_mul, Nat.add_comm]
    rw [this, e]; simp

theorem spread_self {β : Type} : ∀ (s : List ℕ) (d : List β), d.length = s.prod → spread s s d = d
  | [], d, _ => rfl
  | n :: s, d, h => by
    have hc : ∀ i ∈ List.range n, spread s s ((d.drop (i * s.prod)).take s.prod) = (d.drop (i * s.prod)).take s.prod := by
      intro i hi
      refine spread_self s _ ?_
      rw [List.length_take, List.length_drop, h, List.prod_cons]
      have : i + 1 ≤ n := List.mem_range.1 hi
      have : (i + 1) * s.prod ≤ n * s.prod := Nat.mul_le_mul_right _ this
      rw [Nat.add_mul] at this
      omega
    rw [spread]
    simp only [if_true]
    rw [List.map_congr_left hc]
    exact chunks _ _ _ (by rw [h, List.prod_cons])

theorem align_self (s : List ℕ) : align s s = s := by simp [align]

theorem File.set_other (f : File A) (p q : Path) (n : Option Node) (h : q ≠ p) : (f.set p n).node q = f.node q := by
  simp [File.set, h]
@[simp] theorem File.set_same (f : File A) (p : Path) (n : Option Node) : (f.set p n).node p = n := by
  simp [File.set]

theorem groups_ok (f : File A) : ∀ ps : List Path, (∀ p ∈ ps, f.node p = some .group) → f.groups ps = .ok f
  | [], _ => rfl
  | p :: ps, h => by
    rw [File.groups, h p (by simp)]
    exact groups_ok f ps fun q hq => h q (by simp [hq])

theorem mem_parents (p q : Path) (h : q ∈ parents p) : ∃ r, p = q ++ r ∧ r ≠ [] := by
  obtain ⟨i, hi, rfl⟩ := List.mem_map.1 h
  refine ⟨p.drop i, (List.take_append_drop i p).symm, ?_⟩
  intro e
  have := congrArg List.length e
  simp at this hi; omega

/-- Deleting a data set and making another one in its place. -/
theorem recreate (f : File A) (h : Tree f) (p : Path) (old : Dset) (hp : f.node p = some (.dset old)) (d : Dset) :
    (f.delete p).createDataset p d = .ok (f.set p (some (.dset d))) := by
  have hg : (f.delete p).groups (parents p) = .ok (f.delete p) := by
    refine groups_ok _ _ fun q hq => ?_
    obtain ⟨r, e, hr⟩ := mem_parents p q hq
    have hne : q ≠ p := by rintro rfl; exact hr (by simpa using e)
    rw [File.delete, File.set_other _ _ _ _ hne]
    exact h.above q r (by rw [← e, hp]; simp) hr
  rw [File.createDataset, hg]
  simp only [File.delete, File.set_same]
  congr 1
  simp only [File.set, File.mk.injEq, and_true]
  funext q
  by_cases hq : q = p <;> simp [hq]

theorem tree_set (f : File A) (h : Tree f) (p : Path) (old d : Dset) (hp : f.node p = some (.dset old)) :
    Tree (f.set p (some (.dset d))) := by
  have hr : ([] : Path) ≠ p := by rintro rfl; rw [h.root] at hp; simp at hp
  refine ⟨by rw [File.set_other _ _ _ _ hr]; exact h.root, fun a b hab hb => ?_⟩
  have hab' : f.node (a ++ b) ≠ none := by
    by_cases e : a ++ b = p
    · rw [e, hp]; simp
    · rwa [File.set_other _ _ _ _ e] at hab
  have ha := h.above a b hab' hb
  have hne : a ≠ p := by rintro rfl; rw [hp] at ha; simp at ha
  rw [File.set_other _ _ _ _ hne]; exact ha

/-- What a successful write in update mode does to a file. -/
structure Spec.Replaced (f f' : File A) (p : Path) (d : Dset) : Prop where
  new : f'.node p = some (.dset d)
  rest : ∀ q, q ≠ p → f'.node q = f.node q
  attrs : f'.attr = f.attr
  tree : Tree f'

theorem replaced_set (f : File A) (h : Tree f) (p : Path) (old d : Dset) (hp : f.node p = some (.dset old)) :
    Replaced f (f.set p (some (.dset d))) p d :=
  ⟨File.set_same _ _ _, fun q hq => File.set_other _ _ _ _ hq, rfl, tree_set f h p old d hp⟩

theorem update_eq (nw : NullWrite) (f : File A) (g : Path) (n : String) (v : Value) (t : Option DType) (o : Node)
    (hp : f.node (g ++ [n]) = some o) : createOverwrite nw .update f g n v t = overwriteDataset nw f (g ++ [n]) v := by
  simp [createOverwrite, hp]

/-- **C51.** In update mode a stored data set that `Replaceable` describes is replaced by the new value,
and nothing else in the file changes, whatever the file holds. -/
theorem C51_update_partial (nw : NullWrite) (f : File A) (h : Tree f) (g : Path) (n : String) (old : Dset)
    (hp : f.node (g ++ [n]) = some (.dset old)) (v : Value) (hv : ∀ a, v = some a → a.Valid)
    (hr : Replaceable old v) (t : Option DType) :
    ∃ f', createOverwrite nw .update f g n v t = .ok f' ∧ Replaced f f' (g ++ [n]) (made v) := by
  rw [update_eq nw f g n v t _ hp]
  refine ⟨f.set (g ++ [n]) (some (.dset (made v))), ?_, replaced_set f h _ old _ hp⟩
  rw [overwriteDataset, hp]
  cases v with
  | none =>
    have hd : assign nw old none = .error .typeError := by
      simp only [assign]
      cases e : old.dtype <;> simp_all [Replaceable]
    simp only [hd, if_true]
    exact recreate f h _ old hp _
  | some a =>
    simp only []
    by_cases ht : old.dtype = a.dtype
    · rw [if_pos (by simpa using ht)]
      rcases hr with hr | ⟨s, d, hc, hl, hr⟩
      · exact absurd ht hr
      · have hva := hv a rfl
        simp only [assign, assignArr, hc]
        rcases hr with rfl | ⟨h0, hn⟩
        · by_cases h0 : a.shape.prod = 0
          · rw [if_pos h0]
            have e1 : d = [] := List.eq_nil_of_length_eq_zero (by rw [hl, h0])
            have e2 : a.data = [] := List.eq_nil_of_length_eq_zero (by rw [hva, h0])
            have : old = made (some a) := by
              simp only [made, Arr.stored, e2, ← ht, ← e1, ← hc]
            simp only [← this]
          · rw [if_neg h0, if_pos ((bcast_iff _ _).2 (compatible_self _)), align_self, spread_self _ _ hva]
            simp only [made, Arr.stored, ht]
        · rw [if_neg h0, if_neg (by rw [bcast_iff]; exact hn)]
          exact recreate f h _ old hp _
    · rw [if_neg (by simpa using ht)]
      exact recreate f h _ old hp _

/-- **C51, refuted.** When the stored array has the data type of the new value and a different shape to
which the new value can be repeated, the file keeps the old shape: the value read back is not the value
written. -/
theorem C51_repeated_wrong (nw : NullWrite) (f : File A) (g : Path) (n : String) (old : Dset) (s : List ℕ)
    (d : List Num) (hp : f.node (g ++ [n]) = some (.dset old)) (hc : old.content = .array s d) (h0 : s.prod ≠ 0)
    (a : Arr) (ht : old.dtype = a.dtype) (hb : Compatible a.shape s) (hne : a.shape ≠ s) (t : Option DType) :
    ∃ f' d', createOverwrite nw .update f g n (some a) t = .ok f' ∧
      f'.node (g ++ [n]) = some (.dset ⟨a.dtype, .array s d'⟩) ∧ f'.node (g ++ [n]) ≠ some (.dset (made (some a))) := by
  rw [update_eq nw f g n _ t _ hp]
  refine ⟨_, spread (align a.shape s) s a.data, ?_, File.set_same f _ _, ?_⟩
  · rw [overwriteDataset, hp]
    simp only [ht, beq_self_eq_true, if_true, assign, assignArr, hc, if_neg h0, if_pos ((bcast_iff _ _).2 hb)]
  · rw [File.set_same]
    intro e
    simp only [Option.some.injEq, Node.dset.injEq, made, Arr.stored, Dset.mk.injEq, Content.array.injEq, true_and] at e
    exact hne e.1.symm

/-- **C51, refuted, the case of results.** Writing the results of one triad (one row) over those of `n ≥ 2`
triads leaves `n` copies of the row. -/
theorem C51_one_row_wrong (nw : NullWrite) (f : File A) (g : Path) (name : String) (n k : ℕ) (hn : 2 ≤ n) (hk : 0 < k)
    (d row : List Num) (hrow : row.length = k) (hp : f.node (g ++ [name]) = some (.dset ⟨.f64, .array [n, k] d⟩))
    (t : Option DType) :
    ∃ f', createOverwrite nw .update f g name (some ⟨.f64, [1, k], row⟩) t = .ok f' ∧
      f'.node (g ++ [name]) = some (.dset ⟨.f64, .array [n, k] (List.replicate n row).flatten⟩) := by
  rw [update_eq nw f g name _ t _ hp]
  refine ⟨_, ?_, File.set_same f _ _⟩
  have hb : bcast [1, k] [n, k] = true := by simp [bcast, bcastRev]
  have h0 : ([n, k] : List ℕ).prod ≠ 0 := by simp; omega
  have hs : spread (align [1, k] [n, k]) [n, k] row = (List.replicate n row).flatten := by
    have : (1 : ℕ) ≠ n := by omega
    simp only [align, List.length_cons, List.length_nil, Nat.sub_self, List.replicate_zero, List.nil_append,
      List.drop_zero]
    rw [spread]
    simp only [if_neg this, spread_self [k] row (by simpa using hrow)]
    congr 1; simp
  rw [overwriteDataset, hp]
  simp only [beq_self_eq_true, if_true, assign, assignArr, if_neg h0, hb, hs]

/-- **C51, refuted.** Storing None over flags stores True for all of them. -/
theorem C51_none_over_flags_wrong (nw : NullWrite) (f : File A) (g : Path) (name : String) (n : ℕ) (hn : 0 < n)
    (d : List Num) (hp : f.node (g ++ [name]) = some (.dset ⟨.bool, .array [n] d⟩)) (t : Option DType) :
    ∃ f', createOverwrite nw .update f g name none t = .ok f' ∧
      f'.node (g ++ [name]) = some (.dset ⟨.bool, .array [n] (List.replicate n (some 1))⟩) := by
  rw [update_eq nw f g name _ t _ hp]
  refine ⟨_, ?_, File.set_same f _ _⟩
  have hb : bcast [] [n] = true := by simp [bcast, bcastRev]
  have hs : spread (align [] [n]) [n] [(some 1 : Num)] = List.replicate n (some 1) := by
    simp only [align, List.length_cons, List.length_nil, Nat.sub_zero, List.drop_nil, List.append_nil,
      List.replicate_succ, List.replicate_zero]
    rw [spread]
    split
    · next h => subst h; simp [spread]
    · simp only [spread]
      rw [List.map_const', List.length_range]
      induction n with
      | zero => simp
      | succ m _ => simp [List.flatten_replicate_singleton]
  have h0 : ([n] : List ℕ).prod ≠ 0 := by simp; omega
  rw [overwriteDataset, hp]
  simp only [if_true, assign, assignArr, if_neg h0, hb, hs]

/-- **C51, refuted.** Over a stored array without entries (results of no triads) of the same data type
nothing is written: the file does not change. -/
theorem C51_no_rows_wrong (nw : NullWrite) (f : File A) (g : Path) (name : String) (old : Dset) (s : List ℕ)
    (d : List Num) (hp : f.node (g ++ [name]) = some (.dset old)) (hc : old.content = .array s d) (h0 : s.prod = 0)
    (a : Arr) (ht : old.dtype = a.dtype) (t : Option DType) :
    ∃ f', createOverwrite nw .update f g name (some a) t = .ok f' ∧ f'.node = f.node := by
  rw [update_eq nw f g name _ t _ hp]
  refine ⟨f.set (g ++ [name]) (some (.dset old)), ?_, ?_⟩
  · rw [overwriteDataset, hp]
    simp only [ht, beq_self_eq_true, if_true, assign, assignArr, hc, h0]
  · funext q
    by_cases hq : q = g ++ [name]
    · subst hq; rw [File.set_same, hp]
    · rw [File.set_other _ _ _ _ hq]

/-- **C51.** A group at the path is left alone, and so is everything else. -/
theorem C51_group_kept (nw : NullWrite) (f : File A) (g : Path) (n : String) (hp : f.node (g ++ [n]) = some .group)
    (v : Value) (t : Option DType) : createOverwrite nw .update f g n v t = .ok f := by
  rw [update_eq nw f g n _ t _ hp, overwriteDataset, hp]

/-- **C51.** In the other modes a stored data set is kept. -/
theorem C51_kept_otherwise (nw : NullWrite) (m : Mode) (hm : m ≠ .update) (f : File A) (g : Path) (n : String) (o : Node)
    (hp : f.node (g ++ [n]) = some o) (v : Value) (t : Option DType) : createOverwrite nw m f g n v t = .ok f := by
  simp [createOverwrite, hp, hm]

/-- Non-vacuity: a file with a data set, and a value of another length. -/
example : ∃ (f : File Unit) (old : Dset), Tree f ∧ f.node (["g"] ++ ["x"]) = some (.dset old) ∧
    (∃ a : Arr, a.Valid ∧ a.dtype = old.dtype ∧ Replaceable old (some a)) ∧
    ∃ s d, old.content = .array s d ∧ s.prod ≠ 0 ∧ ∃ a : Arr, a.dtype = old.dtype ∧ Compatible a.shape s ∧ a.shape ≠ s := by
  refine ⟨⟨fun p => if p = [] ∨ p = ["g"] then some .group else if p = ["g", "x"] then
    some (.dset ⟨.f64, .array [3] [some 1, some 2, none]⟩) else none, fun _ _ => none⟩,
    ⟨.f64, .array [3] [some 1, some 2, none]⟩, ⟨by simp, ?_⟩, by simp, ⟨⟨.f64, [2], [some 0, some 0]⟩, by simp [Arr.Valid],
    rfl, Or.inr ⟨[3], _, rfl, by simp, Or.inr ⟨by simp, ?_⟩⟩⟩, [3], _, rfl, by simp, ⟨.f64, [1], [none]⟩, rfl, ?_, by simp⟩
  · intro p q h hq
    have : p ++ q = [] ∨ p ++ q = ["g"] ∨ p ++ q = ["g", "x"] := by
      by_contra hc
      push Not at hc
      simp [hc] at h
    rcases this with e | e | e
    · simp at e; exact absurd e.2 hq
    · rcases List.append_eq_cons_iff.1 e with ⟨h1, _⟩ | ⟨r, h1, h2⟩
      · simp [h1]
      · simp at h2; exact absurd h2.2 hq
    · rcases List.append_eq_cons_iff.1 e with ⟨h1, _⟩ | ⟨r, h1, h2⟩
      · simp [h1]
      · rcases List.append_eq_cons_iff.1 h2.symm with ⟨h3, _⟩ | ⟨r', h3, h4⟩
        · simp [h1, h3]
        · simp at h4; exact absurd h4.2 hq
  · rw [← bcast_iff]; decide
  · rw [← bcast_iff]; decide

end Verif.Store
