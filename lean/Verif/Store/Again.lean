import Verif.Store.C71
import Verif.Store.TreeKept
import Mathlib.Data.List.Nodup
/-! # Property C169: saving over the file of an earlier run -/
namespace Verif.Store
noncomputable section
open Classical

/-! ## Model -/

/-- `h5py.File(path, mode)` (hdf5_saver.py 248) for what is at the path: no file, or a file.  `w` starts a new file,
`a` opens the file or starts a new one, `r+` needs a file. -/
def openFile : Mode → Option (File AttrV) → Except Err (File AttrV)
  | .write, _ => .ok File.new
  | .append, none => .ok File.new
  | .append, some f => .ok f
  | .update, none => .error .other
  | .update, some f => .ok f

/-- `HDF5Saver.save_data` (hdf5_saver.py 245-448) with the mode chosen by the setter of `h5_mode` (69-78) from two flags
(both False: the default of line 54), on what is at the path, stopped after `k` actions. -/
def saveSome (nw : NullWrite) (rw app : Bool) (disk : Option (File AttrV)) (r : Run) (k : ℕ) : Except Err (File AttrV) :=
  match saveOps r with
  | none => .error .other
  | some ops => match openFile (selectMode rw app) disk with
    | .error e => .error e
    | .ok f => doOps nw (selectMode rw app) f (ops.take k)

/-- The same, with all the actions (hdf5_saver.py 245-448). -/
def saveTo (nw : NullWrite) (rw app : Bool) (disk : Option (File AttrV)) (r : Run) : Except Err (File AttrV) :=
  match saveOps r with
  | none => .error .other
  | some ops => match openFile (selectMode rw app) disk with
    | .error e => .error e
    | .ok f => doOps nw (selectMode rw app) f ops

namespace Spec
/-- The data set at a path. -/
def dataAt (f : File AttrV) (p : Path) : Option Dset := match f.node p with
  | some (.dset d) => some d
  | _ => none

/-- A run that can be saved: at least one triad, and three modes in each. -/
structure Savable (r : Run) : Prop where
  some : r.triads ≠ []
  three : ∀ t ∈ r.triads, ThreeModes t

/-- Two files hold the same data sets and attributes. -/
def SameFile (f g : File AttrV) : Prop := (∀ p, dataAt f p = dataAt g p) ∧ ∀ p a, f.attr p a = g.attr p a
end Spec
open Spec

/-! ## Actions on a file of known groups -/

theorem dataAt_some {f : File AttrV} {p : Path} {d : Dset} : dataAt f p = some d ↔ f.node p = some (.dset d) := by
  unfold dataAt
  split
  · next h => simp [h]
  · next h => simp only [reduceCtorEq, false_iff]; exact fun e => h d e

/-- One data set action turns `f` into `f'`, storing `d`. -/
structure Step (G : Path → Prop) (f f' : File AttrV) (p : Path) (d : Dset) : Prop where
  new : f'.node p = some (.dset d)
  rest : ∀ q, ¬ G q → q ≠ p → f'.node q = f.node q
  attrs : f'.attr = f.attr
  inv : Inv G f'
  tree : Tree f'

/-- Many actions on a file, when it is known what each data set action stores. -/
theorem doOps_step (nw : NullWrite) (m : Mode) (G : Path → Prop) (hpre : ∀ p q, G (p ++ q) → G p) (out : Path → Dset) :
    ∀ (ops : List Op) (f : File AttrV), Inv G f → Tree f → (∀ o ∈ ops, G o.group) →
    (∀ g n v t, Op.dset g n v t ∈ ops → ¬ G (g ++ [n]) ∧ ∀ f1, Inv G f1 → Tree f1 → f1.node (g ++ [n]) = f.node (g ++ [n]) →
      ∃ f2, createOverwrite nw m f1 g n (some v) t = .ok f2 ∧ Step G f1 f2 (g ++ [n]) (out (g ++ [n]))) →
    ((ops.filterMap Op.pair).map (·.1)).Nodup →
    ∃ f', doOps nw m f ops = .ok f' ∧ Inv G f' ∧ Tree f' ∧
      (∀ p ∈ (ops.filterMap Op.pair).map (·.1), f'.node p = some (.dset (out p))) ∧
      (∀ q, ¬ G q → q ∉ (ops.filterMap Op.pair).map (·.1) → f'.node q = f.node q) ∧
      (∀ p a, f'.attr p a = (((ops.filterMap Op.attrPair).reverse.lookup (p, a)).or (f.attr p a)))
  | [], f, h, ht, _, _, _ => ⟨f, rfl, h, ht, by simp, by simp, by simp⟩
  | .attr g n v :: ops, f, h, ht, hg, hd, hn => by
    have hG : G g := hg (.attr g n v) (by simp)
    obtain ⟨f1, h1, h2, h3, h4⟩ := groups_inv G (parents g ++ [g]) f h (by
      intro q hq
      rcases List.mem_append.1 hq with hq | hq
      · obtain ⟨r, e, -⟩ := mem_parents g q hq
        exact hpre q r (e ▸ hG)
      · rw [List.mem_singleton.1 hq]; exact hG)
    have h1 : f.requireGroup g = .ok f1 := h1
    let f2 : File AttrV := { f1 with attr := fun p a => if p = g ∧ a = n then some v else f1.attr p a }
    have e2 : doOp nw m f (.attr g n v) = .ok f2 := by simp only [doOp, h1]; rfl
    have t2 : Tree f2 := doOp_tree nw m _ f f2 ht e2
    have i2 : Inv G f2 := ⟨h2.grp, h2.dset⟩
    obtain ⟨f', d1, d2, d3, d4, d5, d6⟩ := doOps_step nw m G hpre out ops f2 i2 t2 (fun o ho => hg o (by simp [ho]))
      (fun g' n' v' t' hm => by
        obtain ⟨x, y⟩ := hd g' n' v' t' (by simp [hm])
        refine ⟨x, fun f3 a b c => y f3 a b ?_⟩
        rw [c]
        exact h4 _ x) hn
    refine ⟨f', by rw [doOps, e2]; exact d1, d2, d3, ?_, ?_, ?_⟩
    · exact d4
    · intro q hq hnot
      rw [d5 q hq hnot]
      exact h4 q hq
    · intro p a
      rw [d6 p a]
      simp only [Op.attrPair, List.filterMap_cons, List.reverse_cons, List.lookup_append]
      have : f2.attr p a = ((List.lookup (p, a) [((g, n), v)]).or (f.attr p a)) := by
        simp only [f2, List.lookup_cons, List.lookup_nil, ← h3]
        by_cases e : p = g ∧ a = n
        · rw [if_pos e, e.1, e.2]; simp
        · rw [if_neg e, show ((p, a) == (g, n)) = false from by simpa [Prod.ext_iff] using e]; rfl
      rw [this, Option.or_assoc]
  | .dset g n v t :: ops, f, h, ht, hg, hd, hn => by
    obtain ⟨x, y⟩ := hd g n v t (by simp)
    obtain ⟨f1, e1, s1⟩ := y f h ht rfl
    simp only [Op.pair, List.filterMap_cons, List.map_cons, List.nodup_cons] at hn
    obtain ⟨f', d1, d2, d3, d4, d5, d6⟩ := doOps_step nw m G hpre out ops f1 s1.inv s1.tree (fun o ho => hg o (by simp [ho]))
      (fun g' n' v' t' hm => by
        obtain ⟨x', y'⟩ := hd g' n' v' t' (by simp [hm])
        refine ⟨x', fun f3 a b c => y' f3 a b ?_⟩
        rw [c]
        refine s1.rest _ x' ?_
        intro e
        exact hn.1 (e ▸ List.mem_map.2 ⟨_, List.mem_filterMap.2 ⟨_, hm, rfl⟩, rfl⟩)) hn.2
    refine ⟨f', by rw [doOps, show doOp nw m f (.dset g n v t) = .ok f1 from e1]; exact d1, d2, d3, ?_, ?_, ?_⟩
    · intro p hp
      simp only [Op.pair, List.filterMap_cons, List.map_cons, List.mem_cons] at hp
      rcases hp with rfl | hp
      · rw [d5 _ x hn.1, s1.new]
      · exact d4 p hp
    · intro q hq hnot
      simp only [Op.pair, List.filterMap_cons, List.map_cons, List.mem_cons, not_or] at hnot
      rw [d5 q hq hnot.2, s1.rest q hq hnot.1]
    · intro p a
      rw [d6 p a, s1.attrs]; rfl

/-! ## The four ways of writing a data set -/

section steps
variable {G : Path → Prop} {f : File AttrV} {g : Path} {n : String} {v : Arr} {t : Option DType} {nw : NullWrite} {m : Mode}

theorem inv_replaced {f' : File AttrV} {p : Path} {d : Dset} (h : Inv G f) (hp : ¬ G p)
    (s : Replaced f f' p d) : Inv G f' := by
  refine ⟨fun q hq => ?_, fun q e hq => ?_⟩
  · by_cases c : q = p
    · rw [c, s.new] at hq; cases hq
    · exact h.grp q (s.rest q c ▸ hq)
  · by_cases c : q = p
    · rw [c]; exact hp
    · exact h.dset q e (s.rest q c ▸ hq)

theorem step_replaced {f' : File AttrV} {p : Path} {d : Dset} (h : Inv G f) (hp : ¬ G p)
    (s : Replaced f f' p d) : Step G f f' p d :=
  ⟨s.new, fun q _ hq => s.rest q hq, s.attrs, inv_replaced h hp s, s.tree⟩

/-- A stored data set is kept. -/
theorem step_keep (hm : m ≠ .update) (h : Inv G f) (ht : Tree f) {d : Dset} (hd : f.node (g ++ [n]) = some (.dset d)) :
    ∃ f2, createOverwrite nw m f g n (some v) t = .ok f2 ∧ Step G f f2 (g ++ [n]) d :=
  ⟨f, C51_kept_otherwise nw m hm f g n _ hd _ t, hd, fun _ _ _ => rfl, rfl, h, ht⟩

/-- A new data set is made. -/
theorem step_new (hpre : ∀ p q, G (p ++ q) → G p) (h : Inv G f) (ht : Tree f) (hg : G g) (hp : ¬ G (g ++ [n]))
    (hd : f.node (g ++ [n]) = none) :
    ∃ f2, createOverwrite nw m f g n (some v) t = .ok f2 ∧ Step G f f2 (g ++ [n]) (madeWith t (some v)) := by
  obtain ⟨f2, e, i, a, b⟩ := doOp_inv nw G hpre f h (.dset g n v t) hg (by rintro p ⟨⟩; exact ⟨hp, hd⟩)
  have e' : createOverwrite nw m f g n (some v) t = .ok f2 := by
    have : createOverwrite nw .write f g n (some v) t = .ok f2 := e
    simpa only [createOverwrite, hd] using this
  refine ⟨f2, e', ?_, ?_, ?_, i, createOverwrite_tree nw m g n _ t f f2 ht e'⟩
  · have := a _ hp
    simpa [Op.pair] using this
  · intro q hq hne
    have := a q hq
    simpa [Op.pair, hne] using this
  · funext p x
    simpa [Op.attrPair] using b p x

/-- A stored data set is replaced. -/
theorem step_replace (h : Inv G f) (ht : Tree f) (hp : ¬ G (g ++ [n])) {d : Dset} (hd : f.node (g ++ [n]) = some (.dset d))
    (hv : v.Valid) (hr : Replaceable d (some v)) :
    ∃ f2, createOverwrite nw .update f g n (some v) t = .ok f2 ∧ Step G f f2 (g ++ [n]) (made (some v)) := by
  obtain ⟨f2, e, s⟩ := C51_update_partial nw f ht g n d hd (some v) (by rintro a ⟨⟩; exact hv) hr t
  exact ⟨f2, e, step_replaced h hp s⟩

/-- One row is repeated over the rows of a stored data set. -/
theorem step_repeat (h : Inv G f) (ht : Tree f) (hp : ¬ G (g ++ [n])) {k : ℕ} {cols : List ℕ} {old row : List Num} {ty : DType}
    (hk : 2 ≤ k) (hc : cols.prod ≠ 0) (hl : row.length = cols.prod)
    (hd : f.node (g ++ [n]) = some (.dset ⟨ty, .array (k :: cols) old⟩)) :
    ∃ f2, createOverwrite nw .update f g n (some ⟨ty, 1 :: cols, row⟩) t = .ok f2 ∧
      Step G f f2 (g ++ [n]) ⟨ty, .array (k :: cols) (List.replicate k row).flatten⟩ := by
  have hb : bcast (1 :: cols) (k :: cols) = true := by
    rw [bcast_iff]
    intro i
    simp only [List.reverse_cons, List.getD_eq_getElem?_getD, List.getElem?_append, List.length_reverse, List.length_cons]
    by_cases hi : i < cols.length
    · right
      rw [if_pos hi, if_pos hi]
      simp [hi, Nat.lt_succ_of_lt hi]
    · left
      rw [if_neg hi]
      cases i - cols.length <;> simp
  have h0 : (k :: cols).prod ≠ 0 := by simp [hc]; omega
  have hs : spread (align (1 :: cols) (k :: cols)) (k :: cols) row = (List.replicate k row).flatten := by
    have : (1 : ℕ) ≠ k := by omega
    simp only [align, List.length_cons, Nat.sub_self, List.replicate_zero, List.nil_append, List.drop_zero]
    rw [spread]
    simp only [if_neg this, spread_self cols row hl]
    congr 1; simp
  refine ⟨_, ?_, step_replaced h hp (replaced_set f ht _ _ _ hd)⟩
  rw [update_eq nw f g n _ t _ hd, overwriteDataset, hd]
  simp only [beq_self_eq_true, if_true, assign, assignArr, if_neg h0, hb, hs]
end steps

/-! ## The actions of a run -/

/-- The data type of an action is that of its value. -/
def Op.Plain : Op → Prop
  | .attr _ _ _ => True
  | .dset _ _ v t => t = none ∨ t = some v.dtype

theorem column_dtype {t : DType} {get : Triad → Option V} {ts : List Triad} {a : Arr} (h : column t get ts = some a) : a.dtype = t := by
  unfold column at h
  obtain ⟨x, -, rfl⟩ := Option.map_eq_some_iff.1 h
  rfl

theorem table_dtype {t : DType} {k : ℕ} {get : Triad → Option V} {ts : List Triad} {a : Arr} (h : table t k get ts = some a) :
    a.dtype = t := by
  unfold table at h
  obtain ⟨x, -, rfl⟩ := Option.map_eq_some_iff.1 h
  rfl

theorem grouped_plain (g : Path) : ∀ (l : List (String × DType × Option Arr)) (ops : List Op),
    (∀ p ∈ l, ∀ a, p.2.2 = some a → a.dtype = p.2.1) → grouped g l = some ops → ∀ o ∈ ops, o.Plain
  | [], ops, _, h => by
    have h : some [] = some ops := h
    cases h; simp
  | p :: l, ops, hl, h => by
    simp only [grouped, List.mapM_cons, Option.bind_eq_bind, Option.bind_eq_some_iff, Option.map_eq_some_iff, Option.pure_def,
      Option.some.injEq] at h
    obtain ⟨o, ⟨a, ha, rfl⟩, ops', h', rfl⟩ := h
    intro o ho
    rcases List.mem_cons.1 ho with rfl | ho
    · exact Or.inr (by rw [hl p (by simp) a ha])
    · exact grouped_plain g l ops' (fun q hq => hl q (by simp [hq])) h' o ho

theorem saveOps_plain (r : Run) (ops : List Op) (h : saveOps r = some ops) : ∀ o ∈ ops, o.Plain := by
  simp only [saveOps, Option.bind_eq_bind, Option.bind_eq_some_iff, Option.pure_def, Option.some.injEq] at h
  obtain ⟨u, -, wu, -, checks, h1, freqs, h2, nads, h3, rotation, h4, driving, h5, coupling, h6, norm, -, stationary, h7, rfl⟩ := h
  have key : ∀ (g : Path) (l : List (String × DType × Option Arr)) (o : List Op),
      (if (!r.poly) = true then grouped g l else some []) = some o →
      (∀ p ∈ l, ∀ a, p.2.2 = some a → a.dtype = p.2.1) → ∀ x ∈ o, x.Plain := by
    intro g l o ho hl
    split at ho
    · exact grouped_plain g l o hl ho
    · cases ho; simp
  have c1 : ∀ o ∈ checks, o.Plain := by
    split at h1
    · obtain ⟨a, -, rfl⟩ := Option.map_eq_some_iff.1 h1
      simp [Op.Plain]
    · cases h1; simp
  have typed : ∀ x ∈ stationary, x.Plain := key _ _ _ h7 (by
    simp only [List.forall_mem_cons, List.not_mem_nil, false_imp_iff, implies_true, and_true]
    exact ⟨fun _ => column_dtype, fun _ => column_dtype, fun _ => column_dtype, fun _ => column_dtype, fun _ => column_dtype,
      fun _ => column_dtype, fun _ => column_dtype, fun _ => table_dtype, fun _ => table_dtype⟩)
  have c5 : ∀ x ∈ driving, x.Plain := key _ _ _ h5 (by
    simp only [List.forall_mem_cons, List.not_mem_nil, false_imp_iff, implies_true, and_true]
    exact ⟨fun _ => table_dtype, fun _ => table_dtype⟩)
  have c3 : ∀ x ∈ nads, x.Plain := key _ _ _ h3 (by
    simp only [List.forall_mem_cons, List.not_mem_nil, false_imp_iff, implies_true, and_true]
    exact ⟨fun _ => table_dtype, fun _ => table_dtype, fun _ => table_dtype, fun _ => table_dtype, fun _ => table_dtype,
      fun _ => table_dtype, fun _ => table_dtype, fun _ => table_dtype⟩)
  have c2 : ∀ x ∈ freqs, x.Plain := grouped_plain _ _ _ (by
    simp only [List.forall_mem_cons, List.not_mem_nil, false_imp_iff, implies_true, and_true]
    exact ⟨fun _ => table_dtype, fun _ => table_dtype, fun _ => table_dtype, fun _ => table_dtype, fun _ => table_dtype,
      fun _ => table_dtype, fun _ => table_dtype, fun _ => table_dtype⟩) h2
  have c4 : ∀ x ∈ rotation, x.Plain := grouped_plain _ _ _ (by
    simp only [List.forall_mem_cons, List.not_mem_nil, false_imp_iff, implies_true, and_true]
    exact ⟨fun _ => table_dtype, fun _ => column_dtype⟩) h4
  have c6 : ∀ x ∈ coupling, x.Plain := grouped_plain _ _ _ (by
    simp only [List.forall_mem_cons, List.not_mem_nil, false_imp_iff, implies_true, and_true]
    exact ⟨fun _ => column_dtype, fun _ => column_dtype, fun _ => column_dtype, fun _ => column_dtype, fun _ => table_dtype⟩) h6
  intro o ho
  simp only [List.mem_append] at ho
  rcases ho with ((((((((((ho | ho) | ho) | ho) | ho) | ho) | ho) | ho) | ho) | ho) | ho)
  · simp only [List.mem_cons, List.not_mem_nil, or_false] at ho
    rcases ho with rfl | rfl | rfl | rfl | rfl | rfl | rfl | rfl | rfl | rfl <;> simp [Op.Plain]
  · exact c1 o ho
  · exact c2 o ho
  · simp only [List.mem_singleton] at ho; subst ho; trivial
  · exact c3 o ho
  · split at ho
    · simp only [List.mem_singleton] at ho; subst ho; trivial
    · simp at ho
  · exact c4 o ho
  · exact c5 o ho
  · exact c6 o ho
  · simp only [List.mem_singleton] at ho; subst ho; exact Or.inl rfl
  · exact typed o ho

/-- What the actions of a run write: the entries, with their values. -/
theorem ops_entry (r : Run) (hr : Savable r) (ops : List Op) (h : saveOps r = some ops) :
    ∀ g n v t, Op.dset g n v t ∈ ops → ∃ e ∈ order r, g ++ [n] = e.path ∧ v = e.arr r.triads ∧
      madeWith t (some v) = e.dset r.triads := by
  intro g n v t hm
  obtain ⟨ops', e1, e2, -, -⟩ := saveOps_some r hr.some hr.three
  rw [h] at e1; cases e1
  have : (g ++ [n], madeWith t (some v)) ∈ ops.filterMap Op.pair := List.mem_filterMap.2 ⟨_, hm, rfl⟩
  rw [e2] at this
  obtain ⟨e, he, hh⟩ := List.mem_map.1 this
  obtain ⟨h1, h2⟩ := Prod.mk.inj hh
  refine ⟨e, he, h1.symm, ?_, h2.symm⟩
  have hs : madeWith t (some v) = v.stored := by
    rcases saveOps_plain r ops h _ hm with rfl | rfl
    · rfl
    · simp [madeWith, madeAs, Arr.stored]
  rw [hs] at h2
  cases v
  simp only [Arr.stored, Entry.dset, Dset.mk.injEq, Content.array.injEq] at h2
  simp only [Entry.arr, Arr.mk.injEq]
  exact ⟨h2.1.symm, h2.2.1.symm, h2.2.2.symm⟩

/-- Path, data type and shape of a row, for each entry. -/
def keys (poly : Bool) : List (Path × DType × List ℕ) :=
  [(["quantum_numbers", "n"], .i32, [3]), (["mode_statistics", "wu"], .i64, [])] ++
  (if poly then [] else [(["checks", "pre_checks"], .bool, [6])]) ++
  freqEntries.map (fun e => (e.path, e.dtype, e.cols)) ++ (if poly then [] else nadEntries.map (fun e => (e.path, e.dtype, e.cols))) ++
  rotationEntries.map (fun e => (e.path, e.dtype, e.cols)) ++
  (if poly then [] else drivingEntries.map (fun e => (e.path, e.dtype, e.cols))) ++
  [(["coupling", "generic", "|kappa|"], .f64, []), (["coupling", "generic", "|kappa_norm|"], .f64, []),
    (["coupling", "generic", "|eta|"], .f64, []), (["coupling", "generic", "adiabatic"], .bool, []),
    (["coupling", "generic", "quadratic_terms"], .f64, [4])] ++ [(["normalization", "radial"], .f64, [3])] ++
  (if poly then [] else stationaryEntries.map (fun e => (e.path, e.dtype, e.cols)))

theorem order_keys (r : Run) : (order r).map (fun e => (e.path, e.dtype, e.cols)) = keys r.poly := by
  unfold order keys
  cases r.poly <;> rfl

theorem keys_sub (b : Bool) : ∀ k ∈ keys b, k ∈ keys false := by
  cases b
  · exact fun k h => h
  · intro k h
    simp only [keys, if_true, Bool.false_eq_true, if_false, List.mem_append, List.append_nil] at h ⊢
    tauto

theorem keys_paths : (keys false).map (·.1) = orderPaths false := rfl

/-- Entries of two runs at the same path have the same data type and shape of a row. -/
theorem same_key (r r0 : Run) (e e0 : Entry) (h : e ∈ order r) (h0 : e0 ∈ order r0) (hp : e.path = e0.path) :
    e.dtype = e0.dtype ∧ e.cols = e0.cols := by
  have k : (e.path, e.dtype, e.cols) ∈ keys false := keys_sub r.poly _ (order_keys r ▸ List.mem_map.2 ⟨e, h, rfl⟩)
  have k0 : (e0.path, e0.dtype, e0.cols) ∈ keys false := keys_sub r0.poly _ (order_keys r0 ▸ List.mem_map.2 ⟨e0, h0, rfl⟩)
  have nd : ((keys false).map (·.1)).Nodup := keys_paths ▸ (orderPaths_ok false).1
  have := List.inj_on_of_nodup_map nd k k0 hp
  exact Prod.mk.inj (Prod.mk.inj this).2

theorem cols_pos (r : Run) (e : Entry) (h : e ∈ order r) : e.cols.prod ≠ 0 := by
  have k : (e.path, e.dtype, e.cols) ∈ keys false := keys_sub r.poly _ (order_keys r ▸ List.mem_map.2 ⟨e, h, rfl⟩)
  have key : ∀ k ∈ keys false, k.2.2.prod ≠ 0 := by
    simp [keys, freqEntries, nadEntries, rotationEntries, drivingEntries, stationaryEntries, modes, stat]
  exact key _ k

theorem value_length (r : Run) (e : Entry) (h : e ∈ order r) (t : Triad) (ht : ThreeModes t) : (e.value t).length = e.cols.prod := by
  have hf := fun l hl => ht.freq l hl
  have hs := fun l hl => ht.stat l hl
  have hc := coupler_lengths t ht
  have hd : t.stat.drivingRates.length = 3 := hs _ (by simp)
  have hck : (checksOf t).length = 6 := by
    unfold checksOf
    split
    · rfl
    · next hx =>
      exfalso
      match e : t.stat.drivingRates, hd with
      | [a, b, c], _ => exact hx a b c e
  rw [mem_order] at h
  simp only [common, stellar, freqEntries, rotationEntries, couplingEntries, nadEntries, drivingEntries, stationaryEntries,
    kappaActual] at h
  have key : ∀ x : Entry, x ∈ ([checksEntry] ++ nadEntries ++ drivingEntries ++ stationaryEntries) → (x.value t).length = x.cols.prod := by
    simp only [nadEntries, drivingEntries, stationaryEntries, List.mem_append, List.mem_cons, List.not_mem_nil, or_false]
    intro x hx
    rcases hx with ((rfl | hx) | hx) | hx
    · simpa [checksEntry] using hck
    · rcases hx with rfl | rfl | rfl | rfl | rfl | rfl | rfl | rfl <;> simp only [modes, nums, List.length_map] <;>
        simpa using hf _ (by simp)
    · rcases hx with rfl | rfl
      · simpa [modes, nums] using hd
      · simpa [modes, nums] using hf _ (by simp)
    · rcases hx with rfl | rfl | rfl | rfl | rfl | rfl | rfl | rfl | rfl
      all_goals first
        | simp [stat]; done
        | (simp only []; split
           · simpa [nums] using hs _ (by simp)
           · simp)
  rcases List.mem_append.1 h with h | h
  · rcases List.mem_append.1 h with h | h
    · simp only [List.mem_append, List.mem_cons, List.not_mem_nil, or_false] at h
      rcases h with (((rfl | h) | h) | h) | rfl
      · simpa [radialOrders] using ht.orders
      · rcases h with rfl | rfl | rfl | rfl | rfl | rfl | rfl | rfl <;> simp only [modes, nums, List.length_map] <;>
          simpa using hf _ (by simp)
      · rcases h with rfl | rfl
        · simpa [modes, nums] using hf _ (by simp)
        · simp
      · rcases h with rfl | rfl
        · simp
        · simpa [nums] using hc.2
      · simpa [normEntry, nums] using hc.1
    · split at h
      · simp at h
      · exact key e h
  · simp only [List.mem_cons, List.not_mem_nil, or_false] at h
    rcases h with rfl | rfl | rfl | rfl <;> simp [wuActual]

theorem flatten_length (e : Entry) (c : ℕ) : ∀ ts : List Triad, (∀ t ∈ ts, (e.value t).length = c) →
    (ts.map e.value).flatten.length = ts.length * c
  | [], _ => by simp
  | t :: ts, h => by
    rw [List.map_cons, List.flatten_cons, List.length_append, flatten_length e c ts (fun x hx => h x (by simp [hx])),
      h t (by simp), List.length_cons, Nat.succ_mul, Nat.add_comm]

theorem arr_valid (r : Run) (hr : Savable r) (e : Entry) (h : e ∈ order r) : (e.arr r.triads).Valid := by
  simp only [Arr.Valid, Entry.arr, List.prod_cons]
  exact flatten_length e _ _ fun t ht => value_length r e h t (hr.three t ht)

/-! ## What a run leaves in a file -/

abbrev GP : Path → Prop := (· ∈ groupPaths)

/-- The units of a run. -/
def unitsOf (r : Run) : String := (r.triads.head?.map fun t => t.freq.units).getD ""

theorem unitsOf_eq (r : Run) (h : r.triads ≠ []) : unitsOf r = (r.triads.head h).freq.units := by
  simp [unitsOf, List.head?_eq_some_head h]

/-- A prefix of the actions of a run on a file. -/
theorem some_facts (nw : NullWrite) (m : Mode) (r : Run) (hr : Savable r) (ops : List Op) (hops : saveOps r = some ops) (k : ℕ)
    (f0 : File AttrV) (i0 : Inv GP f0) (t0 : Tree f0) (out : Path → Dset)
    (hout : ∀ e ∈ order r, ∀ g n t f1, g ++ [n] = e.path → GP g → ¬ GP (g ++ [n]) → Inv GP f1 → Tree f1 →
      f1.node (g ++ [n]) = f0.node (g ++ [n]) → madeWith t (some (e.arr r.triads)) = e.dset r.triads →
      ∃ f2, createOverwrite nw m f1 g n (some (e.arr r.triads)) t = .ok f2 ∧ Step GP f1 f2 (g ++ [n]) (out (g ++ [n]))) :
    ∃ f', doOps nw m f0 (ops.take k) = .ok f' ∧ Inv GP f' ∧ Tree f' ∧
      (∀ p ∈ ((ops.take k).filterMap Op.pair).map (·.1), p ∈ orderPaths r.poly ∧ f'.node p = some (.dset (out p))) ∧
      (∀ q, ¬ GP q → q ∉ ((ops.take k).filterMap Op.pair).map (·.1) → f'.node q = f0.node q) ∧
      (∀ p a, f'.attr p a = (((ops.take k).filterMap Op.attrPair).reverse.lookup (p, a)).or (f0.attr p a)) := by
  obtain ⟨ops', e1, e2, -, e4⟩ := saveOps_some r hr.some hr.three
  rw [hops] at e1; cases e1
  have hpm : (ops.filterMap Op.pair).map (·.1) = orderPaths r.poly := by
    rw [e2, List.map_map, ← order_paths]; rfl
  obtain ⟨hnd, hng⟩ := orderPaths_ok r.poly
  have hsub : (((ops.take k).filterMap Op.pair).map (·.1)).Sublist ((ops.filterMap Op.pair).map (·.1)) :=
    ((List.take_sublist k ops).filterMap _).map _
  obtain ⟨f', d1, d2, d3, d4, d5, d6⟩ := doOps_step nw m GP groupPaths_closed out (ops.take k) f0 i0 t0
    (fun o ho => e4 o (List.mem_of_mem_take ho))
    (fun g n v t hm => by
      have hm' := List.mem_of_mem_take hm
      obtain ⟨e, he, hp, rfl, hmade⟩ := ops_entry r hr ops hops g n v t hm'
      have hng' : ¬ GP (g ++ [n]) := hng _ (by rw [hp, ← order_paths]; exact List.mem_map.2 ⟨e, he, rfl⟩)
      exact ⟨hng', fun f1 a b c => hout e he g n t f1 hp (e4 _ hm') hng' a b c hmade⟩)
    (hsub.nodup (hpm ▸ hnd))
  exact ⟨f', d1, d2, d3, fun p hp => ⟨hpm ▸ hsub.subset hp, d4 p hp⟩, d5, d6⟩

/-- All the actions of a run on a file. -/
theorem all_facts (nw : NullWrite) (m : Mode) (r : Run) (hr : Savable r)
    (f0 : File AttrV) (i0 : Inv GP f0) (t0 : Tree f0) (out : Path → Dset)
    (hout : ∀ e ∈ order r, ∀ g n t f1, g ++ [n] = e.path → GP g → ¬ GP (g ++ [n]) → Inv GP f1 → Tree f1 →
      f1.node (g ++ [n]) = f0.node (g ++ [n]) → madeWith t (some (e.arr r.triads)) = e.dset r.triads →
      ∃ f2, createOverwrite nw m f1 g n (some (e.arr r.triads)) t = .ok f2 ∧ Step GP f1 f2 (g ++ [n]) (out (g ++ [n]))) :
    ∃ ops f', saveOps r = some ops ∧ doOps nw m f0 ops = .ok f' ∧ Inv GP f' ∧ Tree f' ∧
      (∀ p ∈ orderPaths r.poly, f'.node p = some (.dset (out p))) ∧
      (∀ q, ¬ GP q → q ∉ orderPaths r.poly → f'.node q = f0.node q) ∧
      (∀ p a, f'.attr p a = ((attributes r (unitsOf r)).reverse.lookup (p, a)).or (f0.attr p a)) := by
  obtain ⟨ops, e1, e2, e3, e4⟩ := saveOps_some r hr.some hr.three
  have hpm : (ops.filterMap Op.pair).map (·.1) = orderPaths r.poly := by
    rw [e2, List.map_map, ← order_paths]; rfl
  obtain ⟨f', d1, d2, d3, d4, d5, d6⟩ := some_facts nw m r hr ops e1 ops.length f0 i0 t0 out hout
  rw [List.take_length] at d1 d4 d5 d6
  rw [hpm] at d4 d5
  rw [e3, ← unitsOf_eq] at d6
  exact ⟨ops, f', e1, d1, d2, d3, fun p hp => (d4 p hp).2, d5, d6⟩

end
end Verif.Store
