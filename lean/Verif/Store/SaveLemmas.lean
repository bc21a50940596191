import Verif.Store.Save
import Verif.Store.C51
/-! # Writing many data sets to a new file -/
namespace Verif.Store
noncomputable section
open Classical

/-- Path and data set written by an action in a new file. -/
def Op.pair : Op → Option (Path × Dset)
  | .attr _ _ _ => none
  | .dset g n v t => some (g ++ [n], madeWith t (some v))

/-- Key and value of an attribute action. -/
def Op.attrPair : Op → Option ((Path × String) × AttrV)
  | .attr g n v => some ((g, n), v)
  | .dset _ _ _ _ => none

/-- The group an action needs. -/
def Op.group : Op → Path
  | .attr g _ _ => g
  | .dset g _ _ _ => g

/-- Invariant: the groups of a file are among `G`, its data sets are not. -/
structure Inv (G : Path → Prop) (f : File AttrV) : Prop where
  grp : ∀ p, f.node p = some .group → G p
  dset : ∀ p d, f.node p = some (.dset d) → ¬ G p

theorem groups_inv (G : Path → Prop) : ∀ (ps : List Path) (f : File AttrV), Inv G f → (∀ p ∈ ps, G p) →
    ∃ f', f.groups ps = .ok f' ∧ Inv G f' ∧ f'.attr = f.attr ∧ ∀ q, ¬ G q → f'.node q = f.node q
  | [], f, h, _ => ⟨f, rfl, h, rfl, fun _ _ => rfl⟩
  | p :: ps, f, h, hp => by
    have hG := hp p (by simp)
    have hps : ∀ q ∈ ps, G q := fun q hq => hp q (by simp [hq])
    rw [File.groups]
    match e : f.node p with
    | some (.dset d) => exact absurd hG (h.dset p d e)
    | some .group => simpa [e] using groups_inv G ps f h hps
    | none =>
      have h' : Inv G (f.set p (some .group)) := by
        refine ⟨fun q hq => ?_, fun q d hq => ?_⟩
        · by_cases hqp : q = p
          · rw [hqp]; exact hG
          · rw [File.set_other _ _ _ _ hqp] at hq; exact h.grp q hq
        · by_cases hqp : q = p
          · rw [hqp, File.set_same] at hq; simp at hq
          · rw [File.set_other _ _ _ _ hqp] at hq; exact h.dset q d hq
      obtain ⟨f', h1, h2, h3, h4⟩ := groups_inv G ps _ h' hps
      refine ⟨f', by simpa using h1, h2, h3, fun q hq => ?_⟩
      rw [h4 q hq, File.set_other]
      rintro rfl; exact hq hG

/-- One action on a file in write mode. -/
theorem doOp_inv (nw : NullWrite) (G : Path → Prop) (hpre : ∀ p q, G (p ++ q) → G p) (f : File AttrV) (h : Inv G f) (o : Op)
    (hg : G o.group) (hd : ∀ p, o.pair = some p → ¬ G p.1 ∧ f.node p.1 = none) :
    ∃ f', doOp nw .write f o = .ok f' ∧ Inv G f' ∧
      (∀ q, ¬ G q → f'.node q = match o.pair with | some p => if q = p.1 then some (.dset p.2) else f.node q | none => f.node q) ∧
      (∀ p a, f'.attr p a = match o.attrPair with
        | some k => if (p, a) = k.1 then some k.2 else f.attr p a | none => f.attr p a) := by
  have hpar : ∀ p : Path, G p → ∀ q ∈ parents p, G q := by
    intro p hp q hq
    obtain ⟨r, e, -⟩ := mem_parents p q hq
    exact hpre q r (e ▸ hp)
  cases o with
  | attr g n v =>
    obtain ⟨f', h1, h2, h3, h4⟩ := groups_inv G (parents g ++ [g]) f h (by
      intro q hq
      rcases List.mem_append.1 hq with hq | hq
      · exact hpar g hg q hq
      · rw [List.mem_singleton.1 hq]; exact hg)
    have h1 : f.requireGroup g = .ok f' := h1
    refine ⟨{ f' with attr := fun p a => if p = g ∧ a = n then some v else f'.attr p a }, ?_, ⟨h2.grp, h2.dset⟩, h4, ?_⟩
    · simp only [doOp, h1]
    · intro p a; simp only [Op.attrPair, h3, Prod.mk.injEq]
  | dset g n v t =>
    obtain ⟨hd1, hd2⟩ := hd _ rfl
    have hd1 : ¬ G (g ++ [n]) := hd1
    have hd2 : f.node (g ++ [n]) = none := hd2
    have hps : ∀ q ∈ parents (g ++ [n]), G q := by
      intro q hq
      obtain ⟨r, e, hr⟩ := mem_parents _ q hq
      obtain ⟨r', x, rfl⟩ := List.eq_nil_or_concat r |>.resolve_left hr
      rw [List.concat_eq_append, ← List.append_assoc] at e
      have := List.append_inj' e rfl
      exact hpre q r' (this.1 ▸ hg)
    obtain ⟨f', h1, h2, h3, h4⟩ := groups_inv G _ f h hps
    have hn : f'.node (g ++ [n]) = none := by rw [h4 _ hd1, hd2]
    refine ⟨f'.set (g ++ [n]) (some (.dset (madeWith t (some v)))), ?_, ?_, ?_, ?_⟩
    · simp only [doOp, createOverwrite, hd2, File.createDataset, h1, hn]
    · refine ⟨fun q hq => ?_, fun q d hq => ?_⟩
      · by_cases hqp : q = g ++ [n]
        · rw [hqp, File.set_same] at hq; simp at hq
        · rw [File.set_other _ _ _ _ hqp] at hq; exact h2.grp q hq
      · by_cases hqp : q = g ++ [n]
        · rw [hqp]; exact hd1
        · rw [File.set_other _ _ _ _ hqp] at hq; exact h2.dset q d hq
    · intro q hq
      simp only [Op.pair]
      by_cases e : q = g ++ [n]
      · rw [if_pos e, e, File.set_same]
      · rw [if_neg e, File.set_other _ _ _ _ e, h4 q hq]
    · intro p a; simp [File.set, Op.attrPair, h3]

/-- Many actions on a new file. -/
theorem doOps_inv (nw : NullWrite) (G : Path → Prop) (hpre : ∀ p q, G (p ++ q) → G p) : ∀ (ops : List Op) (f : File AttrV),
    Inv G f → (∀ o ∈ ops, G o.group) → (∀ p ∈ ops.filterMap Op.pair, ¬ G p.1 ∧ f.node p.1 = none) →
    ((ops.filterMap Op.pair).map (·.1)).Nodup → ((ops.filterMap Op.attrPair).map (·.1)).Nodup →
    ∃ f', doOps nw .write f ops = .ok f' ∧
      (∀ p ∈ ops.filterMap Op.pair, f'.node p.1 = some (.dset p.2)) ∧
      (∀ q, ¬ G q → q ∉ (ops.filterMap Op.pair).map (·.1) → f'.node q = f.node q) ∧
      (∀ k ∈ ops.filterMap Op.attrPair, f'.attr k.1.1 k.1.2 = some k.2) ∧
      (∀ p a, (p, a) ∉ (ops.filterMap Op.attrPair).map (·.1) → f'.attr p a = f.attr p a) ∧
      (∀ p d, f'.node p = some (.dset d) → ¬ G p)
  | [], f, h, _, _, _, _ => ⟨f, rfl, by simp, by simp, by simp, by simp, fun p d hp => h.dset p d hp⟩
  | o :: ops, f, h, hg, hd, hn, ha => by
    obtain ⟨f1, e1, i1, n1, a1⟩ := doOp_inv nw G hpre f h o (hg o (by simp)) (fun p hp => hd p (by simp [hp]))
    have hn' : ((ops.filterMap Op.pair).map (·.1)).Nodup := by
      cases e : o.pair <;> simp [e] at hn <;> simp [hn]
    have ha' : ((ops.filterMap Op.attrPair).map (·.1)).Nodup := by
      cases e : o.attrPair with
      | none => simpa [e] using ha
      | some k => simp only [List.filterMap_cons, e, List.map_cons, List.nodup_cons] at ha; exact ha.2
    have hd' : ∀ p ∈ ops.filterMap Op.pair, ¬ G p.1 ∧ f1.node p.1 = none := by
      intro p hp
      have hp' := hd p (by
        rw [List.filterMap_cons]; cases e : o.pair <;> simp [hp])
      refine ⟨hp'.1, ?_⟩
      rw [n1 _ hp'.1]
      match e : o.pair with
      | none => exact hp'.2
      | some r =>
        simp only []
        rw [if_neg, hp'.2]
        intro e'
        simp only [List.filterMap_cons, e, List.map_cons, List.nodup_cons] at hn
        exact hn.1 (e' ▸ List.mem_map_of_mem hp)
    obtain ⟨f', e', c1, c2, c3, c4, c5⟩ := doOps_inv nw G hpre ops f1 i1 (fun o' ho => hg o' (by simp [ho])) hd' hn' ha'
    refine ⟨f', by rw [doOps, e1]; exact e', ?_, ?_, ?_, ?_, c5⟩
    · intro p hp
      match e : o.pair with
      | none => exact c1 p (by simpa [e] using hp)
      | some r =>
        simp only [List.filterMap_cons, e, List.mem_cons] at hp
        rcases hp with rfl | hp
        · have hG := (hd p (by simp [e])).1
          have hnot : p.1 ∉ (ops.filterMap Op.pair).map (·.1) := by
            simp only [List.filterMap_cons, e, List.map_cons, List.nodup_cons] at hn; exact hn.1
          rw [c2 p.1 hG hnot, n1 _ hG, e]; simp
        · exact c1 p hp
    · intro q hq hnot
      match e : o.pair with
      | none =>
        rw [c2 q hq (by simpa [e] using hnot), n1 _ hq, e]
      | some r =>
        simp only [List.filterMap_cons, e, List.map_cons, List.mem_cons, not_or] at hnot
        rw [c2 q hq hnot.2, n1 _ hq, e]; simp [hnot.1]
    · intro k hk
      match e : o.attrPair with
      | none => exact c3 k (by simpa [e] using hk)
      | some r =>
        simp only [List.filterMap_cons, e, List.mem_cons] at hk
        rcases hk with rfl | hk
        · have hnot : (k.1.1, k.1.2) ∉ (ops.filterMap Op.attrPair).map (·.1) := by
            simp only [List.filterMap_cons, e, List.map_cons, List.nodup_cons] at ha; exact ha.1
          rw [c4 _ _ hnot, a1, e]; simp
        · exact c3 k hk
    · intro p a hnot
      match e : o.attrPair with
      | none => rw [c4 p a (by simpa [e] using hnot), a1, e]
      | some r =>
        simp only [List.filterMap_cons, e, List.map_cons, List.mem_cons, not_or] at hnot
        rw [c4 p a hnot.2, a1, e]
        simp only []
        rw [if_neg hnot.1]

theorem inv_new (G : Path → Prop) (h : G []) : Inv G File.new := by
  refine ⟨fun p hp => ?_, fun p d hp => ?_⟩
  · by_cases e : p = []
    · rw [e]; exact h
    · simp [File.new, e] at hp
  · by_cases e : p = [] <;> simp [File.new, e] at hp

theorem new_none (p : Path) (h : p ≠ []) : (File.new : File AttrV).node p = none := by simp [File.new, h]

theorem castNum_f64 : castNum .f64 = id := by funext x; rfl

theorem table_eq (k : ℕ) (get : Triad → Option V) (val : Triad → List Num) (ts : List Triad)
    (h : ∀ t ∈ ts, (get t).bind (row k) = some (val t)) :
    table .f64 k get ts = some ⟨.f64, [ts.length, k], (ts.map val).flatten⟩ := by
  have : ts.mapM (fun x => (get x).bind (row k)) = some (ts.map val) := by
    induction ts with
    | nil => rfl
    | cons t ts ih =>
      rw [List.mapM_cons, h t (by simp), ih (fun t ht => h t (by simp [ht]))]; rfl
  rw [table, this, castNum_f64]; simp

theorem column_eq (t : DType) (get : Triad → Option V) (val : Triad → Num) (ts : List Triad)
    (h : ∀ t ∈ ts, (get t).bind cell = some (val t)) :
    column t get ts = some ⟨t, [ts.length], (ts.map val).map (castNum t)⟩ := by
  have : ts.mapM (fun x => (get x).bind cell) = some (ts.map val) := by
    induction ts with
    | nil => rfl
    | cons t ts ih =>
      rw [List.mapM_cons, h t (by simp), ih (fun t ht => h t (by simp [ht]))]; rfl
  rw [column, this]; simp

end
end Verif.Store
