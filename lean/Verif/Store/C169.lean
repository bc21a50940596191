import Verif.Store.Again
/-! # Property C169: saving over the file of an earlier run, theorems -/
namespace Verif.Store
noncomputable section
open Classical Spec

/-- Everything about a file saved anew. -/
structure Fresh (r : Run) (f : File AttrV) : Prop where
  inv : Inv GP f
  tree : Tree f
  data : ∀ e ∈ order r, f.node e.path = some (.dset (e.dset r.triads))
  rest : ∀ q, ¬ GP q → q ∉ orderPaths r.poly → f.node q = none
  attrs : ∀ p a, f.attr p a = (attributes r (unitsOf r)).reverse.lookup (p, a)

/-- The data set of a run at a path. -/
def dsetOf (r : Run) (p : Path) : Dset := match (order r).find? (fun e => e.path = p) with
  | some e => e.dset r.triads
  | none => emptyF

theorem dsetOf_eq (r : Run) (e : Entry) (h : e ∈ order r) : dsetOf r e.path = e.dset r.triads := by
  have nd : ((order r).map (·.path)).Nodup := order_paths r ▸ (orderPaths_ok r.poly).1
  unfold dsetOf
  match hf : (order r).find? (fun x => x.path = e.path) with
  | none => exact absurd (by simp) (List.find?_eq_none.1 hf e h)
  | some x =>
    have hx := List.mem_of_find?_eq_some hf
    have hp : x.path = e.path := by simpa using List.find?_some hf
    have hxe := List.inj_on_of_nodup_map nd hx h hp
    subst hxe
    simp only [hf]

theorem mem_path {r : Run} {p : Path} : p ∈ orderPaths r.poly ↔ ∃ e ∈ order r, e.path = p := by
  rw [← order_paths]; simp

theorem new_inv : Inv GP File.new := inv_new _ (by decide)

theorem fresh_step (nw : NullWrite) (r : Run) : ∀ e ∈ order r, ∀ g n t f1, g ++ [n] = e.path → GP g → ¬ GP (g ++ [n]) →
      Inv GP f1 → Tree f1 → f1.node (g ++ [n]) = (File.new : File AttrV).node (g ++ [n]) →
      madeWith t (some (e.arr r.triads)) = e.dset r.triads →
      ∃ f2, createOverwrite nw .write f1 g n (some (e.arr r.triads)) t = .ok f2 ∧ Step GP f1 f2 (g ++ [n]) (dsetOf r (g ++ [n])) := by
  intro e he g n t f1 hp hg hng hi ht hn hm
  rw [show dsetOf r (g ++ [n]) = madeWith t (some (e.arr r.triads)) from by rw [hp, dsetOf_eq r e he, hm]]
  exact step_new groupPaths_closed hi ht hg hng (by rw [hn, new_none _ (by simp)])

theorem fresh_ex (nw : NullWrite) (r : Run) (hr : Savable r) : ∃ f, save nw r = .ok f ∧ Fresh r f := by
  obtain ⟨ops, f, e1, e2, e3, e4, e5, e6, e7⟩ := all_facts nw .write r hr File.new new_inv tree_new (dsetOf r) (fresh_step nw r)
  refine ⟨f, by simp only [save, e1]; exact e2, e3, e4, ?_, ?_, ?_⟩
  · intro e he
    rw [e5 e.path (mem_path.2 ⟨e, he, rfl⟩), dsetOf_eq r e he]
  · intro q hq hn
    rw [e6 q hq hn, new_none]
    rintro rfl
    exact hq (by decide)
  · intro p a
    rw [e7 p a]; simp [File.new]

theorem fresh_of {nw : NullWrite} {r : Run} (hr : Savable r) {f : File AttrV} (h : save nw r = .ok f) : Fresh r f := by
  obtain ⟨f', e, h'⟩ := fresh_ex nw r hr
  rw [h] at e; cases e; exact h'

theorem Fresh.dataAt_mem {r : Run} {f : File AttrV} (h : Fresh r f) {p : Path} (hp : p ∈ orderPaths r.poly) :
    dataAt f p = some (dsetOf r p) := by
  obtain ⟨e, he, rfl⟩ := mem_path.1 hp
  rw [dataAt_some, h.data e he, dsetOf_eq r e he]

theorem Inv.dataAt_group {f : File AttrV} (h : Inv GP f) {p : Path} (hp : GP p) : dataAt f p = none := by
  match e : dataAt f p with
  | none => rfl
  | some d => exact absurd hp (h.dset p d (dataAt_some.1 e))

theorem Fresh.dataAt_not {r : Run} {f : File AttrV} (h : Fresh r f) {p : Path} (hp : p ∉ orderPaths r.poly) : dataAt f p = none := by
  by_cases hg : GP p
  · exact h.inv.dataAt_group hg
  · simp [dataAt, h.rest p hg hp]

/-- What the earlier file has at a path where the run writes: nothing, or an array of the same type and shape of a row. -/
theorem earlier (r r0 : Run) (hr0 : Savable r0) (f0 : File AttrV) (h0 : Fresh r0 f0) (e : Entry) (he : e ∈ order r) :
    f0.node e.path = none ∨ ∃ d, f0.node e.path = some (.dset ⟨e.dtype, .array (r0.triads.length :: e.cols) d⟩) ∧
      d.length = (r0.triads.length :: e.cols).prod := by
  by_cases hp : e.path ∈ orderPaths r0.poly
  · right
    obtain ⟨e0, he0, hp0⟩ := mem_path.1 hp
    obtain ⟨k1, k2⟩ := same_key r r0 e e0 he he0 hp0.symm
    refine ⟨(r0.triads.map e0.value).flatten, ?_, ?_⟩
    · rw [← hp0, h0.data e0 he0, Entry.dset, k1, k2]
    · rw [k2]; exact arr_valid r0 hr0 e0 he0
  · left
    exact h0.rest _ ((orderPaths_ok r.poly).2 _ (mem_path.2 ⟨e, he, rfl⟩)) hp

/-- **C169.** In the default mode the file is the one saved at a new path, whatever was at the path. -/
theorem C169_default_partial (nw : NullWrite) (disk : Option (File AttrV)) (r : Run) :
    saveTo nw false false disk r = save nw r := by
  unfold saveTo save
  cases saveOps r <;> rfl

/-- **C169.** A save in the default mode that stops after any number of actions leaves nothing of the earlier file: all
data sets and attributes are those of the run being saved. -/
theorem C169_interrupted_partial (nw : NullWrite) (disk : Option (File AttrV)) (r : Run) (hr : Savable r) (k : ℕ) :
    ∃ f whole, saveSome nw false false disk r k = .ok f ∧ save nw r = .ok whole ∧
      (∀ p d, dataAt f p = some d → dataAt whole p = some d) ∧ (∀ p a v, f.attr p a = some v → whole.attr p a = some v) := by
  obtain ⟨whole, w1, w2⟩ := fresh_ex nw r hr
  obtain ⟨ops, e1, -, e3, -⟩ := saveOps_some r hr.some hr.three
  obtain ⟨f, d1, d2, d3, d4, d5, d6⟩ := some_facts nw .write r hr ops e1 k File.new new_inv tree_new (dsetOf r) (fresh_step nw r)
  refine ⟨f, whole, by simp only [saveSome, e1]; exact d1, w1, ?_, ?_⟩
  · intro p d hd
    by_cases hp : p ∈ ((ops.take k).filterMap Op.pair).map (·.1)
    · obtain ⟨h1, h2⟩ := d4 p hp
      rw [w2.dataAt_mem h1, ← hd, dataAt_some.2 h2]
    · have hg : ¬ GP p := fun hg => by rw [d2.dataAt_group hg] at hd; cases hd
      rw [dataAt_some, d5 p hg hp, new_none _ (by rintro rfl; exact hg (by decide))] at hd
      cases hd
  · intro p a v hv
    have hv : ((ops.take k).filterMap Op.attrPair).reverse.lookup (p, a) = some v := by
      rw [d6 p a] at hv; simpa [File.new] using hv
    have hm : ((p, a), v) ∈ ops.filterMap Op.attrPair := by
      have : ((p, a), v) ∈ ((ops.take k).filterMap Op.attrPair).reverse := by
        obtain ⟨l1, l2, e, -⟩ := List.lookup_eq_some_iff.1 hv
        rw [e]; simp
      exact ((List.take_sublist k ops).filterMap _).subset (List.mem_reverse.1 this)
    rw [e3] at hm
    obtain ⟨f', s1, -, s3, -⟩ := save_all nw r hr.some hr.three
    rw [w1] at s1; cases s1
    exact s3 _ hm

/-- What update mode does to the file of an earlier run, when it is known what each data set becomes. -/
theorem update_facts (nw : NullWrite) (app : Bool) (r r0 : Run) (hr : Savable r) (f0 : File AttrV)
    (h0 : Fresh r0 f0) (out : Path → Dset)
    (hout : ∀ e ∈ order r, ∀ g n t f1, g ++ [n] = e.path → GP g → ¬ GP (g ++ [n]) → Inv GP f1 → Tree f1 →
      f1.node (g ++ [n]) = f0.node (g ++ [n]) → madeWith t (some (e.arr r.triads)) = e.dset r.triads →
      ∃ f2, createOverwrite nw .update f1 g n (some (e.arr r.triads)) t = .ok f2 ∧ Step GP f1 f2 (g ++ [n]) (out (g ++ [n]))) :
    ∃ f, saveTo nw true app (some f0) r = .ok f ∧ (∀ p ∈ orderPaths r.poly, dataAt f p = some (out p)) ∧
      (∀ p ∉ orderPaths r.poly, dataAt f p = dataAt f0 p) ∧
      ∀ p a, f.attr p a = ((attributes r (unitsOf r)).reverse.lookup (p, a)).or (f0.attr p a) := by
  obtain ⟨ops, f, e1, e2, e3, e4, e5, e6, e7⟩ := all_facts nw .update r hr f0 h0.inv h0.tree out hout
  refine ⟨f, by simp only [saveTo, e1, selectMode, if_true, openFile]; exact e2, ?_, ?_, e7⟩
  · intro p hp
    rw [dataAt_some, e5 p hp]
  · intro p hp
    by_cases hg : GP p
    · rw [e3.dataAt_group hg, h0.inv.dataAt_group hg]
    · simp only [dataAt, e6 p hg hp]

theorem not_compatible (n m : ℕ) (cols : List ℕ) (h1 : n ≠ m) (h2 : n ≠ 1) : ¬ Compatible (n :: cols) (m :: cols) := by
  intro h
  have := h cols.length
  simp [List.getD_eq_getElem?_getD, h1, h2] at this

/-- **C169, read-and-write mode.** Over the file of an earlier run every data set and attribute of the run is stored,
provided that the run has two triads or more or as many as the earlier one; what else the earlier file held stays.
Missing: one triad over several, `C169_one_triad_wrong`. -/
theorem C169_update_partial (nw : NullWrite) (app : Bool) (r r0 : Run) (hr : Savable r) (hr0 : Savable r0)
    (hrows : r.triads.length ≠ 1 ∨ r0.triads.length = 1) (f0 : File AttrV) (h0 : save nw r0 = .ok f0) :
    ∃ f whole, saveTo nw true app (some f0) r = .ok f ∧ save nw r = .ok whole ∧
      (∀ p, dataAt f p = (dataAt whole p).or (dataAt f0 p)) ∧ ∀ p a, f.attr p a = (whole.attr p a).or (f0.attr p a) := by
  have F0 := fresh_of hr0 h0
  obtain ⟨whole, w1, w2⟩ := fresh_ex nw r hr
  obtain ⟨f, a1, a2, a3, a4⟩ := update_facts nw app r r0 hr f0 F0 (dsetOf r) (by
    intro e he g n t f1 hp hg hng hi ht hn hm
    rcases earlier r r0 hr0 f0 F0 e he with hN | ⟨d, hd, hl⟩
    · rw [show dsetOf r (g ++ [n]) = madeWith t (some (e.arr r.triads)) from by rw [hp, dsetOf_eq r e he, hm]]
      exact step_new groupPaths_closed hi ht hg hng (by rw [hn, hp, hN])
    · rw [show dsetOf r (g ++ [n]) = made (some (e.arr r.triads)) from by rw [hp, dsetOf_eq r e he]; rfl]
      refine step_replace hi ht hng (by rw [hn, hp, hd]) (arr_valid r hr e he) (Or.inr ⟨_, d, rfl, hl, ?_⟩)
      by_cases hs : r0.triads.length = r.triads.length
      · left; simp only [Entry.arr, hs]
      · right
        refine ⟨?_, not_compatible _ _ _ (Ne.symm hs) ?_⟩
        · rw [List.prod_cons]
          exact Nat.mul_ne_zero (by simpa using hr0.some) (cols_pos r e he)
        · rcases hrows with h | h
          · exact h
          · intro h'; exact hs (by rw [h, h']))
  refine ⟨f, whole, a1, w1, fun p => ?_, fun p a => by rw [a4 p a, w2.attrs p a]⟩
  by_cases hp : p ∈ orderPaths r.poly
  · rw [a2 p hp, w2.dataAt_mem hp]; rfl
  · rw [a3 p hp, w2.dataAt_not hp]; rfl

theorem attributes_keys (r r0 : Run) (u u0 : String) (h : r0.poly = true ∨ r.poly = false) (k : Path × String)
    (hk : (attributes r u).reverse.lookup k = none) : (attributes r0 u0).reverse.lookup k = none := by
  rw [List.lookup_eq_none_iff] at hk ⊢
  have sub : ∀ x ∈ (attributes r0 u0).map (·.1), x ∈ (attributes r u).map (·.1) := by
    intro x hx
    rcases h with h | h <;> simp only [attributes, h] at hx ⊢
    · simp only [if_true, List.append_nil] at hx
      rw [List.map_append]
      exact List.mem_append_left _ hx
    · cases e : r0.poly <;> simp only [e, if_true, Bool.false_eq_true, if_false, List.append_nil] at hx ⊢
      · exact hx
      · rw [List.map_append]
        exact List.mem_append_left _ hx
  intro p hp
  obtain ⟨q, hq, e⟩ := List.mem_map.1 (sub p.1 (List.mem_map.2 ⟨p, List.mem_reverse.1 hp, rfl⟩))
  exact e ▸ hk q (List.mem_reverse.2 hq)

theorem paths_sub (r r0 : Run) (h : r0.poly = true ∨ r.poly = false) : ∀ p ∈ orderPaths r0.poly, p ∈ orderPaths r.poly := by
  rcases h with h | h <;> rw [h]
  · cases r.poly
    · intro p hp
      simp only [orderPaths, if_true, Bool.false_eq_true, if_false, List.mem_append, List.append_nil] at hp ⊢
      tauto
    · exact fun p hp => hp
  · cases r0.poly
    · exact fun p hp => hp
    · intro p hp
      simp only [orderPaths, if_true, Bool.false_eq_true, if_false, List.mem_append, List.append_nil] at hp ⊢
      tauto

/-- **C169, read-and-write mode.** When moreover the earlier run is not a stellar model under a polytrope, the file is
the one saved at a new path. -/
theorem C169_update_same_partial (nw : NullWrite) (app : Bool) (r r0 : Run) (hr : Savable r) (hr0 : Savable r0)
    (hrows : r.triads.length ≠ 1 ∨ r0.triads.length = 1) (hk : r0.poly = true ∨ r.poly = false)
    (f0 : File AttrV) (h0 : save nw r0 = .ok f0) :
    ∃ f whole, saveTo nw true app (some f0) r = .ok f ∧ save nw r = .ok whole ∧ SameFile f whole := by
  obtain ⟨f, whole, e1, e2, e3, e4⟩ := C169_update_partial nw app r r0 hr hr0 hrows f0 h0
  have F0 := fresh_of hr0 h0
  have W := fresh_of hr e2
  refine ⟨f, whole, e1, e2, fun p => ?_, fun p a => ?_⟩
  · rw [e3 p]
    by_cases hp : p ∈ orderPaths r.poly
    · rw [W.dataAt_mem hp]; rfl
    · rw [F0.dataAt_not (fun h => hp (paths_sub r r0 hk p h)), Option.or_none]
  · rw [e4 p a]
    match e : whole.attr p a with
    | some v => rfl
    | none =>
      rw [W.attrs p a] at e
      rw [F0.attrs p a, attributes_keys r r0 _ _ hk _ e]
      rfl

/-- **C169, refuted: one triad over several.** In read-and-write mode every data set gets as many copies of the one row
as there were triads before: the file never is that of the run. -/
theorem C169_one_triad_wrong (nw : NullWrite) (app : Bool) (r r0 : Run) (hr : Savable r) (hr0 : Savable r0)
    (h1 : r.triads.length = 1) (hn : 2 ≤ r0.triads.length) (hk : r0.poly = r.poly) (f0 : File AttrV) (h0 : save nw r0 = .ok f0) :
    ∃ f whole, saveTo nw true app (some f0) r = .ok f ∧ save nw r = .ok whole ∧ ¬ SameFile f whole ∧
      (∀ p t s d, dataAt whole p = some ⟨t, .array (1 :: s) d⟩ →
        dataAt f p = some ⟨t, .array (r0.triads.length :: s) (List.replicate r0.triads.length d).flatten⟩) ∧
      ∀ p d, dataAt whole p = some d → ∃ t s c, d = ⟨t, .array (1 :: s) c⟩ := by
  have F0 := fresh_of hr0 h0
  obtain ⟨whole, w1, w2⟩ := fresh_ex nw r hr
  let rep : Dset → Dset := fun d => match d.content with
    | .array (_ :: s) c => ⟨d.dtype, .array (r0.triads.length :: s) (List.replicate r0.triads.length c).flatten⟩
    | _ => d
  obtain ⟨f, a1, a2, a3, a4⟩ := update_facts nw app r r0 hr f0 F0 (fun p => rep (dsetOf r p)) (by
    intro e he g n t f1 hp hg hng hi ht hN hm
    rcases earlier r r0 hr0 f0 F0 e he with hq | ⟨d, hd, -⟩
    · exfalso
      obtain ⟨e0, he0, hp0⟩ := mem_path.1 (hk ▸ mem_path.2 ⟨e, he, rfl⟩ : e.path ∈ orderPaths r0.poly)
      rw [← hp0, F0.data e0 he0] at hq
      cases hq
    · have := step_repeat (nw := nw) (t := t) hi ht hng hn (cols_pos r e he) (row := (r.triads.map e.value).flatten)
        (by have := arr_valid r hr e he
            simpa [Arr.Valid, Entry.arr, h1] using this) (by rw [hN, hp, hd])
      obtain ⟨f2, x, y⟩ := this
      refine ⟨f2, ?_, ?_⟩
      · rw [Entry.arr, h1]; exact x
      · rw [show rep (dsetOf r (g ++ [n])) = ⟨e.dtype, .array (r0.triads.length :: e.cols)
          (List.replicate r0.triads.length (r.triads.map e.value).flatten).flatten⟩ from by rw [hp, dsetOf_eq r e he]; rfl]
        exact y)
  have key : ∀ p d, dataAt whole p = some d → ∃ e ∈ order r, e.path = p ∧ d = e.dset r.triads := by
    intro p d hd
    by_cases hp : p ∈ orderPaths r.poly
    · obtain ⟨e, he, rfl⟩ := mem_path.1 hp
      rw [w2.dataAt_mem hp, dsetOf_eq r e he] at hd
      exact ⟨e, he, rfl, (Option.some.inj hd).symm⟩
    · rw [w2.dataAt_not hp] at hd; cases hd
  have main : ∀ p t s d, dataAt whole p = some ⟨t, .array (1 :: s) d⟩ →
        dataAt f p = some ⟨t, .array (r0.triads.length :: s) (List.replicate r0.triads.length d).flatten⟩ := by
    intro p t s d hd
    obtain ⟨e, he, rfl, hh⟩ := key p _ hd
    rw [a2 _ (mem_path.2 ⟨e, he, rfl⟩), dsetOf_eq r e he, ← hh]
  refine ⟨f, whole, a1, w1, ?_, main, ?_⟩
  · intro hs
    have hd : dataAt whole radialOrders.path = some ⟨.i32, .array (1 :: [3]) (r.triads.map radialOrders.value).flatten⟩ := by
      have he : radialOrders ∈ order r := (mem_order r _).2 (by simp [common])
      rw [w2.dataAt_mem (mem_path.2 ⟨_, he, rfl⟩), dsetOf_eq r _ he, Entry.dset, h1]
      rfl
    have := main _ _ _ _ hd
    rw [hs.1 _, hd] at this
    simp at this
    omega
  · intro p d hd
    obtain ⟨e, he, rfl, rfl⟩ := key p _ hd
    exact ⟨e.dtype, e.cols, _, by rw [Entry.dset, h1]⟩

/-- **C169, refuted: a polytrope over a stellar model.** In read-and-write mode the file keeps the results that only
stellar models have, of the earlier run. -/
theorem C169_stale_wrong (nw : NullWrite) (app : Bool) (r r0 : Run) (hr : Savable r) (hr0 : Savable r0)
    (hrows : r.triads.length ≠ 1 ∨ r0.triads.length = 1) (hp : r.poly = true) (hp0 : r0.poly = false)
    (f0 : File AttrV) (h0 : save nw r0 = .ok f0) :
    ∃ f whole, saveTo nw true app (some f0) r = .ok f ∧ save nw r = .ok whole ∧ ¬ SameFile f whole ∧
      ∀ e ∈ stellar, dataAt f e.path = some (e.dset r0.triads) ∧ dataAt whole e.path = none := by
  obtain ⟨f, whole, e1, e2, e3, -⟩ := C169_update_partial nw app r r0 hr hr0 hrows f0 h0
  have F0 := fresh_of hr0 h0
  have W := fresh_of hr e2
  have key : ∀ e ∈ stellar, dataAt f e.path = some (e.dset r0.triads) ∧ dataAt whole e.path = none := by
    intro e he
    have hnot : e.path ∉ orderPaths r.poly := by
      have : ∀ p ∈ stellar.map (·.path), p ∉ orderPaths true := by
        simp only [stellar, checksEntry, nadEntries, drivingEntries, stationaryEntries, modes, stat, orderPaths, freqEntries,
          rotationEntries, if_true, List.map_append, List.map_cons, List.map_nil]
        decide
      rw [hp]
      exact this _ (List.mem_map.2 ⟨e, he, rfl⟩)
    have hin : e ∈ order r0 := (mem_order r0 e).2 (by simp [hp0, he])
    refine ⟨?_, W.dataAt_not hnot⟩
    rw [e3, W.dataAt_not hnot, dataAt_some.2 (F0.data e hin)]
    rfl
  refine ⟨f, whole, e1, e2, fun hs => ?_, key⟩
  obtain ⟨x, y⟩ := key checksEntry (by simp [stellar])
  rw [hs.1, y] at x
  cases x

/-- **C169, refuted: append mode.** Data sets stored by the earlier run stay as they are, and only those it did not have
are stored; the attributes become those of the new run. -/
theorem C169_append_wrong (nw : NullWrite) (r r0 : Run) (hr : Savable r) (hr0 : Savable r0)
    (f0 : File AttrV) (h0 : save nw r0 = .ok f0) :
    ∃ f whole, saveTo nw false true (some f0) r = .ok f ∧ save nw r = .ok whole ∧
      (∀ p, dataAt f p = (dataAt f0 p).or (dataAt whole p)) ∧ (∀ p a, f.attr p a = (whole.attr p a).or (f0.attr p a)) ∧
      (SameFile f whole ↔ ∀ p d, dataAt f0 p = some d → dataAt whole p = some d) := by
  have F0 := fresh_of hr0 h0
  obtain ⟨whole, w1, w2⟩ := fresh_ex nw r hr
  obtain ⟨ops, f, e1, e2, e3, e4, e5, e6, e7⟩ := all_facts nw .append r hr f0 F0.inv F0.tree
    (fun p => (dataAt f0 p).getD (dsetOf r p)) (by
      intro e he g n t f1 hp hg hng hi ht hn hm
      rcases earlier r r0 hr0 f0 F0 e he with hN | ⟨d, hd, -⟩
      · have : dataAt f0 (g ++ [n]) = none := by simp [dataAt, hp, hN]
        simp only [this, Option.getD_none]
        rw [show dsetOf r (g ++ [n]) = madeWith t (some (e.arr r.triads)) from by rw [hp, dsetOf_eq r e he, hm]]
        exact step_new groupPaths_closed hi ht hg hng (by rw [hn, hp, hN])
      · simp only [hp ▸ dataAt_some.2 hd, Option.getD_some]
        exact step_keep (by simp) hi ht (by rw [hn, hp, hd]))
  have hdata : ∀ p, dataAt f p = (dataAt f0 p).or (dataAt whole p) := by
    intro p
    by_cases hp : p ∈ orderPaths r.poly
    · rw [dataAt_some.2 (e5 p hp), w2.dataAt_mem hp]
      cases dataAt f0 p <;> rfl
    · rw [w2.dataAt_not hp, Option.or_none]
      by_cases hg : GP p
      · rw [e3.dataAt_group hg, F0.inv.dataAt_group hg]
      · simp only [dataAt, e6 p hg hp]
  refine ⟨f, whole, by simp only [saveTo, e1]; exact e2, w1, hdata, fun p a => by rw [e7 p a, w2.attrs p a], ?_⟩
  refine ⟨fun hs p d hd => by rw [← hs.1 p, hdata p, hd]; rfl, fun hs => ⟨fun p => ?_, fun p a => ?_⟩⟩
  · rw [hdata p]
    match e : dataAt f0 p with
    | none => rfl
    | some d => rw [hs p d e]; rfl
  · have hk : r0.poly = true ∨ r.poly = false := by
      cases e0 : r0.poly
      · right
        cases e : r.poly
        · rfl
        · exfalso
          have hin : checksEntry ∈ order r0 := (mem_order r0 _).2 (by simp [e0, stellar])
          have := hs _ _ (dataAt_some.2 (F0.data _ hin))
          rw [w2.dataAt_not] at this
          · cases this
          · rw [e]
            simp only [checksEntry, orderPaths, freqEntries, rotationEntries, modes, if_true, List.map_cons, List.map_nil]
            decide
      · left; rfl
    rw [e7 p a, w2.attrs p a, F0.attrs p a]
    match e : (attributes r (unitsOf r)).reverse.lookup (p, a) with
    | some v => rfl
    | none => rw [attributes_keys r r0 _ _ hk _ e]; rfl

/-- **C169.** Without a file at the path append mode makes the file of the run, read-and-write mode fails. -/
theorem C169_no_file (nw : NullWrite) (r : Run) (hr : Savable r) :
    (∃ f whole, saveTo nw false true none r = .ok f ∧ save nw r = .ok whole ∧ SameFile f whole) ∧
    ∀ app, ∃ e, saveTo nw true app none r = .error e := by
  obtain ⟨whole, w1, w2⟩ := fresh_ex nw r hr
  obtain ⟨ops, f, e1, e2, e3, e4, e5, e6, e7⟩ := all_facts nw .append r hr File.new new_inv tree_new (dsetOf r) (by
    intro e he g n t f1 hp hg hng hi ht hn hm
    rw [show dsetOf r (g ++ [n]) = madeWith t (some (e.arr r.triads)) from by rw [hp, dsetOf_eq r e he, hm]]
    exact step_new groupPaths_closed hi ht hg hng (by rw [hn, new_none _ (by simp)]))
  refine ⟨⟨f, whole, by simp only [saveTo, e1]; exact e2, w1, fun p => ?_, fun p a => ?_⟩, fun app => ?_⟩
  · by_cases hp : p ∈ orderPaths r.poly
    · rw [dataAt_some.2 (e5 p hp), w2.dataAt_mem hp]
    · rw [w2.dataAt_not hp]
      by_cases hg : GP p
      · exact e3.dataAt_group hg
      · simp only [dataAt, e6 p hg hp, new_none p (fun h => hg (h ▸ by decide))]
  · rw [e7 p a, w2.attrs p a]; simp [File.new]
  · exact ⟨.other, by simp only [saveTo, e1]; rfl⟩

/-- Non-vacuity: a stellar run of two triads, one of another triad, and a polytrope, all of which can be saved; the data
of the first two differ. -/
example : ∃ r0 r rp : Run, Savable r0 ∧ Savable r ∧ Savable rp ∧ r0.triads.length = 2 ∧ r.triads.length = 1 ∧
    r0.poly = r.poly ∧ rp.poly = true ∧ rp.triads.length = 2 ∧ r0.poly = false ∧
    ∀ nw f0 whole, save nw r0 = .ok f0 → save nw r = .ok whole → ∃ p d, dataAt f0 p = some d ∧ dataAt whole p ≠ some d := by
  let F : FreqHandler := ⟨[3, 2, 1], [3, 2, 1], [3, 2, 1], [3, 2, 1], [3, 2, 1], [3, 2, 1], [3, 2, 1], [3, 2, 1], [3, 2, 1], [3, 2, 1],
    1, "Hz", [3, 2, 1], [3, 2, 1], [3, 2, 1], [3, 2, 1], [3, 2, 1], [3, 2, 1], [3, 2, 1], [3, 2, 1]⟩
  let S : Stationary := ⟨true, [1, 1, 1], [1, 1, 1], [1, -1, -1], -1, 1, 1, 1, some 1, 1, 0, true⟩
  let T : Triad := ⟨F, some ⟨-1, -1, -1, [1, 1, 1], [1, 1, 1, 1]⟩, S, [10, 20, 30], 20, 0⟩
  have hT : ThreeModes T := ⟨by simp [T, F], by simp [T, S], by rintro c ⟨rfl⟩; simp, rfl⟩
  let R : Bool → List Triad → Run := fun b ts => ⟨b, true, "trapz", false, 4, false, 1, [2, 2, 2], [2, 0, 2], ts⟩
  have s1 : ∀ b, Savable (R b [T]) := fun b => ⟨by simp [R], by simpa [R] using hT⟩
  have s2 : ∀ b, Savable (R b [T, T]) := fun b => ⟨by simp [R], by simpa [R] using hT⟩
  refine ⟨R false [T, T], R false [T], R true [T, T], s2 _, s1 _, s2 _, rfl, rfl, rfl, rfl, rfl, rfl, ?_⟩
  intro nw f0 whole h0 h1
  have he : ∀ r : Run, radialOrders ∈ order r := fun r => (mem_order r _).2 (by simp [common])
  refine ⟨radialOrders.path, _, dataAt_some.2 ((fresh_of (s2 _) h0).data _ (he _)), ?_⟩
  rw [dataAt_some.2 ((fresh_of (s1 _) h1).data _ (he _))]
  simp [Entry.dset, R]

end
end Verif.Store
