import Verif.Mask.Props
/-!
# C37, C57: exactly the triads that are flagged isolated
-/
namespace Verif.Mask
variable {K : Type} [Field K] [LinearOrder K]

/-- The valued triads with parent `n`, with their thresholds, in the order of the table. -/
def Spec.ofParent (rows : List (Row K)) (n : Int) : List (Row K × K) :=
  rows.filterMap fun r => if r.p = n then r.thr.map (fun t => (r, t)) else none

/-- Only one valued triad with parent `n` has the lowest threshold. -/
def Spec.UniqueLowest (rows : List (Row K)) (n : Int) : Prop :=
  ∀ pre q0 post, Spec.ofParent rows n = pre ++ q0 :: post → (∀ q ∈ pre ++ post, q0.2 ≤ q.2) → ∀ q ∈ pre ++ post, q0.2 < q.2

/-- The triad with the lowest threshold among those with parent `n` has an equilibrium amplitude, which in parts per million is
below the thresholds of the others. -/
def Spec.SecondAbove (rows : List (Row K)) (n : Int) : Prop :=
  ∃ pre q0 post s, Spec.ofParent rows n = pre ++ q0 :: post ∧ (∀ q ∈ pre ++ post, q0.2 ≤ q.2) ∧ q0.1.surf = some s ∧
    ∀ q ∈ pre ++ post, s * 1000000 < q.2

theorem ofParent_eq (rows : List (Row K)) (n : Int) : Spec.ofParent rows n = (V rows).filter (fun q => decide (q.1.p = n)) := by
  unfold Spec.ofParent V
  rw [List.filter_filterMap]
  apply List.filterMap_congr
  intro r _
  cases r.thr with
  | none => simp
  | some t => by_cases h : r.p = n <;> simp [h, Option.filter]

theorem parentOk_iff (part : List K → Nat × Nat) (hp : PartOK part) (rows : List (Row K)) (n : Int) (hu : Spec.UniqueLowest rows n)
    (h2 : 2 ≤ (Spec.ofParent rows n).length) :
    parentOk part (rows.filter (fun r => r.thr.isSome)) (rows.filterMap Row.thr) n = some true ↔ Spec.SecondAbove rows n := by
  constructor
  · intro h
    obtain ⟨q0, -, -, s, hs, hle, pre, post, he, hlt⟩ := parentOk_true part hp rows n h
    refine ⟨pre, q0, post, s, by rw [ofParent_eq, he], fun q hq => ?_, hs, hlt⟩
    have : q ∈ (V rows).filter (fun q => decide (q.1.p = n)) := by
      rw [he]
      simp only [List.mem_append, List.mem_cons] at hq ⊢
      tauto
    have := List.mem_filter.1 this
    exact hle q this.1 (by simpa using this.2)
  · rintro ⟨pre, q0, post, s, he, hle, hs, hlt⟩
    have hstrict := hu pre q0 post he hle
    simp only [parentOk, zip_V, ← ofParent_eq]
    rw [he] at h2 ⊢
    set sel := pre ++ q0 :: post with hsel
    obtain ⟨hne, a, b, h1, h3, hab, hrest⟩ := hp (sel.map Prod.snd) (by rw [List.length_map]; exact h2)
    have hlen : ¬ (sel.map Prod.snd).length < 2 := by rw [List.length_map]; omega
    simp only [argpartition, hlen, if_false, Option.bind_eq_bind, Option.bind_some, h3]
    generalize part (sel.map Prod.snd) = ij at *
    rw [List.getElem?_map] at h1 h3
    obtain ⟨qa, hqa, rfl⟩ := Option.map_eq_some_iff.1 h1
    obtain ⟨qb, hqb, rfl⟩ := Option.map_eq_some_iff.1 h3
    have hin : ∀ k q, k ≠ pre.length → sel[k]? = some q → q ∈ pre ++ post := by
      intro k q hk hq
      rw [hsel] at hq
      rcases Nat.lt_or_gt_of_ne hk with h | h
      · rw [List.getElem?_append_left h] at hq
        exact List.mem_append_left _ (List.mem_of_getElem? hq)
      · rw [List.getElem?_append_right (by omega)] at hq
        obtain ⟨d, hd⟩ : ∃ d, k - pre.length = d + 1 := ⟨k - pre.length - 1, by omega⟩
        rw [hd, List.getElem?_cons_succ] at hq
        exact List.mem_append_right _ (List.mem_of_getElem? hq)
    have hq0 : sel[pre.length]? = some q0 := by
      rw [hsel, List.getElem?_append_right le_rfl]
      simp
    have hi : ij.1 = pre.length := by
      by_contra hk
      have hlt' := hstrict qa (hin _ _ hk hqa)
      have : qb.2 ≤ q0.2 := hrest pre.length q0.2 (Ne.symm hk) (by rw [List.getElem?_map, hq0]; rfl)
      exact absurd (hab.trans this) (not_le.2 hlt')
    have hqb' : qb ∈ pre ++ post := hin ij.2 qb (by rw [← hi]; exact Ne.symm hne) hqb
    rw [List.getElem?_map, hi, hq0]
    simp only [Option.map_some, Option.bind_some, Option.pure_def, Option.some.injEq, hs, gtNan, decide_eq_true_eq]
    exact hlt qb hqb'

theorem ofParent_length (part : List K → Nat × Nat) (hp : PartOK part) (rows : List (Row K)) (mask : List Bool)
    (hm : isolationMask part rows = some mask) (r : Row K) (hr : r ∈ rows) (ht : r.thr.isSome) : 2 ≤ (Spec.ofParent rows r.p).length := by
  have h := (C38_defined_iff_parents_repeat_partial part hp rows).1 (by rw [hm]; rfl) r hr ht
  refine h.trans (le_of_eq ?_)
  unfold Spec.ofParent
  clear h hm hr
  induction rows with
  | nil => rfl
  | cons x l ih =>
    rw [List.countP_cons, ih, List.filterMap_cons]
    cases hx : x.thr with
    | none => simp
    | some t => by_cases h : x.p = r.p <;> simp [h]

/-- C37, C57, exactly (partial: C37 asks for less): a triad is flagged isolated if and only if it has a threshold, the lowest threshold of
its parent and the lowest thresholds of its daughters agree up to 10⁻¹⁴, and the lowest triad of its parent has an equilibrium amplitude
below the thresholds of the others with that parent; if one triad of the parent is the lowest. -/
theorem C37_exact_partial (part : List K → Nat × Nat) (hp : PartOK part) (rows : List (Row K)) (mask : List Bool)
    (hm : isolationMask part rows = some mask) (i : Nat) (r : Row K) (hr : rows[i]? = some r) (hu : Spec.UniqueLowest rows r.p) :
    mask[i]? = some true ↔ r.thr.isSome ∧
      (∃ a b c, LeastP rows r.p a ∧ LeastD rows r.d1 b ∧ LeastD rows r.d2 c ∧
        |a - b| ≤ 1 / 100000000000000 ∧ |a - c| ≤ 1 / 100000000000000) ∧ Spec.SecondAbove rows r.p := by
  obtain ⟨iso, rfl, h⟩ := isolation_rows part hp rows mask hm
  rw [List.getElem?_map, hr]
  simp only [Option.map_some, Option.some.injEq]
  rw [h r (List.mem_of_getElem? hr)]
  constructor
  · rintro ⟨h1, h2, h3⟩
    exact ⟨h1, h2, (parentOk_iff part hp rows r.p hu (ofParent_length part hp rows _ hm r (List.mem_of_getElem? hr) h1)).1 h3⟩
  · rintro ⟨h1, h2, h3⟩
    exact ⟨h1, h2, (parentOk_iff part hp rows r.p hu (ofParent_length part hp rows _ hm r (List.mem_of_getElem? hr) h1)).2 h3⟩

/-- C37 is refuted for every table with a triad `r` whose modes are all modes of another triad `r'`, in the same roles, that has the
lowest threshold of all that share a mode with either: then `r` gets the flag of `r'`, however high its own threshold is. This is so
for every `(p, d, d)` next to `(p, d, e)`. -/
theorem C37_contained_wrong [IsStrictOrderedRing K] (part : List K → Nat × Nat) (hp : PartOK part) (rows : List (Row K)) (mask : List Bool)
    (hm : isolationMask part rows = some mask) (i j : Nat) (r r' : Row K) (hr : rows[i]? = some r) (hr' : rows[j]? = some r')
    (hc : Contains r' r) (t t' : K) (ht : r.thr = some t) (ht' : r'.thr = some t')
    (hlow : ∀ x ∈ rows, Shares r x ∨ Shares r' x → ∀ u, x.thr = some u → t' ≤ u) :
    mask[i]? = mask[j]? := by
  obtain ⟨iso, rfl, h⟩ := isolation_rows part hp rows mask hm
  have m1 := List.mem_of_getElem? hr
  have m2 := List.mem_of_getElem? hr'
  rw [List.getElem?_map, List.getElem?_map, hr, hr']
  simp only [Option.map_some, Option.some.injEq]
  rw [Bool.eq_iff_iff, h r m1, h r' m2]
  obtain ⟨c1, c2, c3⟩ := hc
  have least : ∀ n, (r'.d1 = n ∨ r'.d2 = n) → LeastD rows n t' := by
    intro n hn
    refine ⟨⟨r', m2, hn, ht'⟩, ?_⟩
    rintro u ⟨x, hx, hxn, hxu⟩
    refine hlow x hx (Or.inr ?_) u hxu
    unfold Shares
    rcases hn with rfl | rfl <;> rcases hxn with e | e <;> simp [e]
  have leastP : LeastP rows r'.p t' := by
    refine ⟨⟨r', m2, rfl, ht'⟩, ?_⟩
    rintro u ⟨x, hx, hxn, hxu⟩
    exact hlow x hx (Or.inr (Or.inl hxn)) u hxu
  rw [c1] at leastP
  rw [c1]
  constructor
  · rintro ⟨-, -, h3⟩
    exact ⟨by simp [ht'], ⟨t', t', t', leastP, least _ (Or.inl rfl), least _ (Or.inr rfl), by simp, by simp⟩, h3⟩
  · rintro ⟨-, -, h3⟩
    exact ⟨by simp [ht], ⟨t', t', t', leastP, least _ c2, least _ c3, by simp, by simp⟩, h3⟩

/-- Non-vacuity of both theorems: the first triad is flagged, and so is the second, which has a higher threshold. -/
example : isolationMask (fun _ => (0, 1)) [mk 1 2 3 1, mk 1 2 2 5] = some [true, true] ∧ Contains (mk 1 2 3 1) (mk 1 2 2 5) ∧
    Spec.UniqueLowest [mk 1 2 3 1, mk 1 2 2 5] 1 := by
  refine ⟨by decide +kernel, by simp [Contains, mk], ?_⟩
  intro pre q0 post he hle
  have e : Spec.ofParent [mk 1 2 3 1, mk 1 2 2 5] 1 = [(mk 1 2 3 1, 1), (mk 1 2 2 5, 5)] := rfl
  rw [e] at he
  match pre, he with
  | [], he =>
    simp only [List.nil_append, List.cons.injEq] at he
    obtain ⟨rfl, rfl⟩ := he
    simp
  | [x], he =>
    simp only [List.cons_append, List.nil_append, List.cons.injEq] at he
    obtain ⟨rfl, rfl, rfl⟩ := he
    exfalso
    have := hle (mk 1 2 3 1, 1) (by simp)
    norm_num at this
  | x :: y :: z, he => simp at he

end Verif.Mask
