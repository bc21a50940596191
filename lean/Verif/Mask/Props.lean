import Verif.Mask.Model
import Verif.CommonLemmas
import Mathlib.Order.Bounds.Basic
import Mathlib.Tactic.Linarith
import Mathlib.Tactic.NormNum
import Mathlib.Tactic.IntervalCases
import Mathlib.Data.Finset.Max
import Mathlib.Algebra.Order.Ring.Rat
import Mathlib.Tactic.Ring
/-!
# C36–C38, C57, C58: triad masks
-/
namespace Verif.Mask
open Verif

variable {K : Type} [Field K] [LinearOrder K]

/-! ### Specification -/

/-- `np.argpartition` at position 1: two different positions, the first holding a smallest entry and the
second a smallest entry among the others. -/
def PartOK (part : List K → Nat × Nat) : Prop :=
  ∀ l : List K, 2 ≤ l.length → (part l).1 ≠ (part l).2 ∧
    ∃ a b, l[(part l).1]? = some a ∧ l[(part l).2]? = some b ∧ a ≤ b ∧
      ∀ (k : Nat) c, k ≠ (part l).1 → l[k]? = some c → b ≤ c

/-- The smallest threshold of the triads with parent `n`. -/
def LeastP (rows : List (Row K)) (n : Int) (v : K) : Prop :=
  IsLeast {t | ∃ r ∈ rows, r.p = n ∧ r.thr = some t} v

/-- The smallest threshold of the triads having `n` as one of the daughters. -/
def LeastD (rows : List (Row K)) (n : Int) (v : K) : Prop :=
  IsLeast {t | ∃ r ∈ rows, (r.d1 = n ∨ r.d2 = n) ∧ r.thr = some t} v

/-- Two triads share a mode in the same role. -/
def Shares (r r' : Row K) : Prop :=
  r'.p = r.p ∨ r'.d1 = r.d1 ∨ r'.d1 = r.d2 ∨ r'.d2 = r.d1 ∨ r'.d2 = r.d2

/-- `r'` has the parent of `r` and both daughters of `r` among its daughters. -/
def Contains (r' r : Row K) : Prop :=
  r'.p = r.p ∧ (r'.d1 = r.d1 ∨ r'.d2 = r.d1) ∧ (r'.d1 = r.d2 ∨ r'.d2 = r.d2)

/-! ### Plumbing -/

/-- Valued triads with their thresholds. -/
def V (rows : List (Row K)) : List (Row K × K) := rows.filterMap (fun r => r.thr.map (fun t => (r, t)))

theorem zip_V (rows : List (Row K)) :
    (rows.filter (fun r => r.thr.isSome)).zip (rows.filterMap Row.thr) = V rows := by
  induction rows with
  | nil => rfl
  | cons r t ih =>
    cases h : r.thr with
    | none => simpa [V, List.filter_cons, List.filterMap_cons, h] using ih
    | some v =>
      rw [List.filter_cons_of_pos (by simp [h]), List.filterMap_cons_some h, List.zip_cons_cons, ih]
      rw [V, V, List.filterMap_cons_some (b := (r, v)) (by simp [h])]

theorem mem_V (rows : List (Row K)) (q : Row K × K) : q ∈ V rows ↔ q.1 ∈ rows ∧ q.1.thr = some q.2 := by
  simp only [V, List.mem_filterMap]
  constructor
  · rintro ⟨r, hr, h⟩
    cases ht : r.thr with
    | none => rw [ht] at h; cases h
    | some t => rw [ht] at h; simp at h; subst h; exact ⟨hr, ht⟩
  · rintro ⟨h1, h2⟩
    exact ⟨q.1, h1, by simp [h2]⟩

theorem minList_spec (l : List K) (h : l ≠ []) : ∃ m, minList l = some m ∧ m ∈ l ∧ ∀ x ∈ l, m ≤ x := by
  cases l with
  | nil => exact absurd rfl h
  | cons a t =>
    refine ⟨_, rfl, ?_⟩
    have : ∀ (t : List K) (a : K), t.foldl min a ∈ a :: t ∧ ∀ x ∈ a :: t, t.foldl min a ≤ x := by
      intro t
      induction t with
      | nil => intro a; simp
      | cons b u ih =>
        intro a
        simp only [List.foldl_cons]
        obtain ⟨h1, h2⟩ := ih (min a b)
        have hm := h2 (min a b) List.mem_cons_self
        constructor
        · rcases List.mem_cons.1 h1 with h | h
          · rw [h]
            rcases min_choice a b with e | e <;> rw [e] <;> simp
          · exact List.mem_cons_of_mem _ (List.mem_cons_of_mem _ h)
        · intro x hx
          rcases List.mem_cons.1 hx with rfl | hx
          · exact hm.trans (min_le_left _ _)
          · rcases List.mem_cons.1 hx with rfl | hx
            · exact hm.trans (min_le_right _ _)
            · exact h2 x (List.mem_cons_of_mem _ hx)
    exact this t a

theorem look_map (l : List Int) (f : Int → K) (n : Int) :
    look (l.map (fun k => (k, f k))) n = if n ∈ l then some (f n) else none := by
  induction l with
  | nil => rfl
  | cons k t ih =>
    simp only [List.map_cons, look, ih, List.mem_cons]
    by_cases h : k = n
    · subst h; simp
    · simp [h, Ne.symm h]

/-- The map of smallest thresholds for one column. -/
theorem lowestMap_spec (col : Row K → Int) (rows : List (Row K)) :
    ∃ f : Int → K, lowestMap col (rows.filter (fun r => r.thr.isSome)) (rows.filterMap Row.thr)
        = some ((((rows.filter (fun r => r.thr.isSome)).map col).dedup).map (fun n => (n, f n))) ∧
      ∀ n ∈ (rows.filter (fun r => r.thr.isSome)).map col,
        IsLeast {t | ∃ r ∈ rows, col r = n ∧ r.thr = some t} (f n) := by
  classical
  have key : ∀ n ∈ (rows.filter (fun r => r.thr.isSome)).map col, ∃ m,
      minList ((((rows.filter (fun r => r.thr.isSome)).zip (rows.filterMap Row.thr)).filter
        (fun p => decide (col p.1 = n))).map Prod.snd) = some m ∧
      IsLeast {t | ∃ r ∈ rows, col r = n ∧ r.thr = some t} m := by
    intro n hn
    rw [zip_V]
    obtain ⟨r, hr, hrn⟩ := List.mem_map.1 hn
    simp only [List.mem_filter, Option.isSome_iff_exists] at hr
    obtain ⟨hr, t, ht⟩ := hr
    obtain ⟨m, h1, h2, h3⟩ := minList_spec (((V rows).filter (fun p => decide (col p.1 = n))).map Prod.snd) (by
      apply List.ne_nil_of_mem (a := t)
      refine List.mem_map.2 ⟨(r, t), List.mem_filter.2 ⟨(mem_V _ _).2 ⟨hr, ht⟩, by simp [hrn]⟩, rfl⟩)
    refine ⟨m, h1, ?_, ?_⟩
    · obtain ⟨q, hq, rfl⟩ := List.mem_map.1 h2
      simp only [List.mem_filter, mem_V, decide_eq_true_eq] at hq
      exact ⟨q.1, hq.1.1, hq.2, hq.1.2⟩
    · rintro t' ⟨r', hr', hc, ht'⟩
      exact h3 t' (List.mem_map.2 ⟨(r', t'), List.mem_filter.2 ⟨(mem_V _ _).2 ⟨hr', ht'⟩, by simp [hc]⟩, rfl⟩)
  choose! f hf using key
  refine ⟨f, ?_, fun n hn => (hf n hn).2⟩
  rw [lowestMap]
  apply mapM_total
  intro n hn
  rw [(hf n (List.mem_dedup.1 hn)).1]; rfl

theorem look_merge (m1 : List (Int × K)) (l : List Int) (hl : l.Nodup) (f : Int → K) (n : Int) :
    look (mergeDaughters m1 (l.map (fun k => (k, f k)))) n =
      if n ∈ l then (match look m1 n with
        | some v => some (min v (f n))
        | none => some (f n)) else look m1 n := by
  have gen : ∀ (l : List Int), l.Nodup → ∀ acc : List (Int × K), (∀ k ∈ l, look acc k = look m1 k) →
      look ((l.map (fun k => (k, f k))).foldl (fun acc kv => match look m1 kv.1 with
        | some v => if v > kv.2 then kv :: acc else acc
        | none => kv :: acc) acc) n = if n ∈ l then (match look m1 n with
        | some v => some (min v (f n))
        | none => some (f n)) else look acc n := by
    intro l
    induction l with
    | nil => intro _ acc _; simp
    | cons k t ih =>
      intro hl acc hacc
      simp only [List.map_cons, List.foldl_cons]
      have hk : k ∉ t := (List.nodup_cons.1 hl).1
      have hstep : ∀ acc' : List (Int × K), (∀ j, j ≠ k → look acc' j = look acc j) →
          look acc' k = (match look m1 k with | some v => some (min v (f k)) | none => some (f k)) →
          look ((t.map (fun k => (k, f k))).foldl (fun acc kv => match look m1 kv.1 with
            | some v => if v > kv.2 then kv :: acc else acc
            | none => kv :: acc) acc') n = if n ∈ k :: t then (match look m1 n with
            | some v => some (min v (f n))
            | none => some (f n)) else look acc n := by
        intro acc' h1 h2
        rw [ih (List.nodup_cons.1 hl).2 acc' (fun j hj => by
          rw [h1 j (fun h => hk (h ▸ hj))]; exact hacc j (List.mem_cons_of_mem _ hj))]
        by_cases hnt : n ∈ t
        · simp [hnt]
        · by_cases hnk : n = k
          · subst hnk; simp [hnt, h2]
          · simp [hnt, hnk, h1 n hnk]
      have hkk := hacc k List.mem_cons_self
      cases hm : look m1 k with
      | none =>
        apply hstep
        · intro j hj; simp [look, Ne.symm hj]
        · simp [look, hm]
      | some v =>
        simp only
        by_cases hv : v > f k
        · rw [if_pos hv]
          apply hstep
          · intro j hj; simp [look, Ne.symm hj]
          · simp only [look, hm, if_true]; rw [min_eq_right hv.le]
        · rw [if_neg hv]
          apply hstep
          · intro j hj; rfl
          · rw [hkk, hm]; simp only; rw [min_eq_left (not_lt.1 hv)]
  rw [mergeDaughters]
  exact gen l hl m1 (fun _ _ => rfl)

theorem scatter_map (rows : List (Row K)) (f g : Row K → Bool) :
    scatter (rows.map f) ((rows.filter f).map g) = rows.map (fun r => f r && g r) := by
  induction rows with
  | nil => rfl
  | cons r t ih =>
    cases h : f r with
    | false => simp [scatter, List.filter_cons, h, ih]
    | true => simp [scatter, List.filter_cons, h, ih]

theorem band_map (rows : List (Row K)) (f g : Row K → Bool) :
    band (rows.map f) (rows.map g) = rows.map (fun r => f r && g r) := by
  induction rows with
  | nil => rfl
  | cons r t ih => simp only [band] at ih; simp [band, ih]

theorem bor_map (rows : List (Row K)) (f g : Row K → Bool) :
    bor (rows.map f) (rows.map g) = rows.map (fun r => f r || g r) := by
  induction rows with
  | nil => rfl
  | cons r t ih => simp only [bor] at ih; simp [bor, ih]

theorem bnot_map (rows : List (Row K)) (f : Row K → Bool) : bnot (rows.map f) = rows.map (fun r => ! f r) := by
  simp [bnot]

theorem mapM_isSome_iff {α β : Type} (l : List α) (f : α → Option β) :
    (l.mapM f).isSome ↔ ∀ a ∈ l, (f a).isSome := by
  induction l with
  | nil => simp
  | cons a t ih =>
    rw [List.mapM_cons]
    cases h : f a with
    | none => simp [h]
    | some b =>
      cases h2 : t.mapM f with
      | none => simp [h2] at ih; simp [h, ih]
      | some c => simp [h2] at ih; simpa [h] using ih

theorem lookup_map {β : Type} (l : List Int) (f : Int → β) (n : Int) :
    (l.map (fun k => (k, f k))).lookup n = if n ∈ l then some (f n) else none := by
  induction l with
  | nil => rfl
  | cons k t ih =>
    simp only [List.map_cons, List.lookup_cons, ih, List.mem_cons]
    by_cases h : n = k
    · subst h; simp
    · have : (n == k) = false := by simpa using h
      simp [h, this]

/-- The value written for a parent. -/
theorem parentOk_isSome (part : List K → Nat × Nat) (hp : PartOK part) (rows : List (Row K)) (n : Int) :
    (parentOk part (rows.filter (fun r => r.thr.isSome)) (rows.filterMap Row.thr) n).isSome ↔
      2 ≤ rows.countP (fun r => r.thr.isSome && decide (r.p = n)) := by
  have hlen : ((V rows).filter (fun q => decide (q.1.p = n))).length
      = rows.countP (fun r => r.thr.isSome && decide (r.p = n)) := by
    induction rows with
    | nil => rfl
    | cons r t ih =>
      cases h : r.thr with
      | none =>
        have hV : V (r :: t) = V t := by rw [V, List.filterMap_cons_none (by simp [h])]; rfl
        rw [hV, ih, List.countP_cons_of_neg (by simp [h])]
      | some v =>
        have hV : V (r :: t) = (r, v) :: V t := by
          rw [V, List.filterMap_cons_some (b := (r, v)) (by simp [h])]; rfl
        rw [hV]
        by_cases hpn : r.p = n
        · rw [List.filter_cons_of_pos (by simp [hpn]), List.countP_cons_of_pos (by simp [h, hpn]),
            List.length_cons, ih]
        · rw [List.filter_cons_of_neg (by simp [hpn]), List.countP_cons_of_neg (by simp [hpn]), ih]
  simp only [parentOk, zip_V]
  rw [← hlen]
  generalize (V rows).filter (fun q => decide (q.1.p = n)) = sel
  by_cases h2 : sel.length < 2
  · simp only [argpartition, List.length_map, h2, if_true, Option.bind_eq_bind, Option.bind_none,
      Option.isSome_none, Bool.false_eq_true, false_iff]
    omega
  · obtain ⟨_, a, b, h1, h3, _⟩ := hp (sel.map Prod.snd) (by simp; omega)
    have hlt : (part (sel.map Prod.snd)).1 < sel.length := by
      have := (List.getElem?_eq_some_iff.1 h1).1
      simpa using this
    simp only [argpartition, List.length_map, h2, if_false, Option.bind_eq_bind, Option.bind_some, h3]
    rw [List.getElem?_eq_getElem (by simpa using hlt)]
    simp; omega

/-- Main characterisation of the isolation mask. -/
theorem isolation_spec (part : List K → Nat × Nat) (rows : List (Row K)) :
    ∃ same : Row K → Bool,
      (isolationMask part rows = (secondLowestOk part (rows.filter (fun r => r.thr.isSome))
          (rows.filterMap Row.thr)).map (fun ok =>
            band (rows.map (fun r => r.thr.isSome && same r)) (scatter (rows.map (fun r => r.thr.isSome)) ok))) ∧
      ∀ r ∈ rows, r.thr.isSome → ∃ a b c, LeastP rows r.p a ∧ LeastD rows r.d1 b ∧ LeastD rows r.d2 c ∧
        (same r = true ↔ |a - b| ≤ 1 / 100000000000000 ∧ |a - c| ≤ 1 / 100000000000000) := by
  classical
  obtain ⟨fp, hp1, hp2⟩ := lowestMap_spec Row.p rows
  obtain ⟨f1, h11, h12⟩ := lowestMap_spec Row.d1 rows
  obtain ⟨f2, h21, h22⟩ := lowestMap_spec Row.d2 rows
  generalize hv : rows.filter (fun r => r.thr.isSome) = vrows at *
  set mp := (((vrows.map Row.p).dedup).map (fun n => (n, fp n))) with hmp
  set m1 := (((vrows.map Row.d1).dedup).map (fun n => (n, f1 n))) with hm1
  set m2 := (((vrows.map Row.d2).dedup).map (fun n => (n, f2 n))) with hm2
  have hD : ∀ n, n ∈ vrows.map Row.d1 ∨ n ∈ vrows.map Row.d2 →
      ∃ v, look (mergeDaughters m1 m2) n = some v ∧ LeastD rows n v := by
    intro n hn
    rw [hm2, look_merge _ _ (List.nodup_dedup _), hm1, look_map]
    simp only [List.mem_dedup]
    have nomem : ∀ (col : Row K → Int), n ∉ vrows.map col → ∀ r ∈ rows, col r = n → r.thr = none := by
      intro col hc r hr hrn
      cases ht : r.thr with
      | none => rfl
      | some t =>
        exact absurd (List.mem_map.2 ⟨r, by rw [← hv]; simp [hr, ht], hrn⟩) hc
    by_cases c1 : n ∈ vrows.map Row.d1 <;> by_cases c2 : n ∈ vrows.map Row.d2
    · rw [if_pos c2, if_pos c1]
      refine ⟨_, rfl, ?_, ?_⟩
      · rcases min_choice (f1 n) (f2 n) with e | e <;> rw [e]
        · obtain ⟨r, hr, h1, h2⟩ := (h12 n c1).1
          exact ⟨r, hr, Or.inl h1, h2⟩
        · obtain ⟨r, hr, h1, h2⟩ := (h22 n c2).1
          exact ⟨r, hr, Or.inr h1, h2⟩
      · rintro t ⟨r, hr, h1 | h1, h2⟩
        · exact (min_le_left _ _).trans ((h12 n c1).2 ⟨r, hr, h1, h2⟩)
        · exact (min_le_right _ _).trans ((h22 n c2).2 ⟨r, hr, h1, h2⟩)
    · rw [if_neg c2, if_pos c1]
      refine ⟨_, rfl, ?_, ?_⟩
      · obtain ⟨r, hr, h1, h2⟩ := (h12 n c1).1
        exact ⟨r, hr, Or.inl h1, h2⟩
      · rintro t ⟨r, hr, h1 | h1, h2⟩
        · exact (h12 n c1).2 ⟨r, hr, h1, h2⟩
        · rw [nomem _ c2 r hr h1] at h2; cases h2
    · rw [if_pos c2, if_neg c1]
      refine ⟨_, rfl, ?_, ?_⟩
      · obtain ⟨r, hr, h1, h2⟩ := (h22 n c2).1
        exact ⟨r, hr, Or.inr h1, h2⟩
      · rintro t ⟨r, hr, h1 | h1, h2⟩
        · rw [nomem _ c1 r hr h1] at h2; cases h2
        · exact (h22 n c2).2 ⟨r, hr, h1, h2⟩
    · exact absurd hn (not_or.2 ⟨c1, c2⟩)
  let same : Row K → Bool := fun r =>
    isclose ((look mp r.p).getD 0) ((look (mergeDaughters m1 m2) r.d1).getD 0) &&
    isclose ((look mp r.p).getD 0) ((look (mergeDaughters m1 m2) r.d2).getD 0)
  have hrow : ∀ r ∈ vrows, ∃ a b c, look mp r.p = some a ∧ look (mergeDaughters m1 m2) r.d1 = some b ∧
      look (mergeDaughters m1 m2) r.d2 = some c ∧ LeastP rows r.p a ∧ LeastD rows r.d1 b ∧
      LeastD rows r.d2 c := by
    intro r hr
    obtain ⟨b, hb, hb'⟩ := hD r.d1 (Or.inl (List.mem_map_of_mem hr))
    obtain ⟨c, hc, hc'⟩ := hD r.d2 (Or.inr (List.mem_map_of_mem hr))
    have hp := List.mem_map_of_mem (f := Row.p) hr
    refine ⟨fp r.p, b, c, ?_, hb, hc, hp2 _ hp, hb', hc'⟩
    rw [hmp, look_map, if_pos (List.mem_dedup.2 hp)]
  have hall : allSame vrows mp (mergeDaughters m1 m2) = some (vrows.map same) := by
    rw [allSame]
    apply mapM_total
    intro r hr
    obtain ⟨a, b, c, h1, h2, h3, _⟩ := hrow r hr
    simp [same, h1, h2, h3]
  refine ⟨same, ?_, ?_⟩
  · simp only [isolationMask, hv, hp1, h11, h21, hall, Option.bind_eq_bind, Option.bind_some]
    rw [← hv, scatter_map]
    cases secondLowestOk part (rows.filter (fun r => r.thr.isSome)) (rows.filterMap Row.thr) <;> rfl
  · intro r hr ht
    obtain ⟨a, b, c, h1, h2, h3, l1, l2, l3⟩ := hrow r (by rw [← hv]; simp [hr, ht])
    refine ⟨a, b, c, l1, l2, l3, ?_⟩
    simp [same, h1, h2, h3, isclose]

/-- The second component. -/
theorem secondLowest_spec (part : List K → Nat × Nat) (vrows : List (Row K)) (vthr : List K)
    (h : ∀ r ∈ vrows, (parentOk part vrows vthr r.p).isSome) :
    secondLowestOk part vrows vthr = some (vrows.map (fun r => (parentOk part vrows vthr r.p).getD false)) := by
  simp only [secondLowestOk]
  rw [mapM_total _ _ (fun n => (n, (parentOk part vrows vthr n).getD false))]
  · simp only [Option.bind_eq_bind, Option.bind_some, Option.pure_def]
    congr 1
    apply List.map_congr_left
    intro r hr
    rw [lookup_map, if_pos (List.mem_dedup.2 (List.mem_map_of_mem hr))]
    rfl
  · intro n hn
    obtain ⟨r, hr, rfl⟩ := List.mem_map.1 (List.mem_dedup.1 hn)
    obtain ⟨b, hb⟩ := Option.isSome_iff_exists.1 (h r hr)
    simp [hb]

/-- C38 (partial): the isolation analysis succeeds exactly when every parent radial order occurring in a
valued triad occurs in at least two valued triads; a parent that occurs once makes it raise. -/
theorem C38_defined_iff_parents_repeat_partial (part : List K → Nat × Nat) (hp : PartOK part)
    (rows : List (Row K)) :
    (isolationMask part rows).isSome ↔
      ∀ r ∈ rows, r.thr.isSome → 2 ≤ rows.countP (fun r' => r'.thr.isSome && decide (r'.p = r.p)) := by
  obtain ⟨same, h1, _⟩ := isolation_spec part rows
  rw [h1, Option.isSome_map]
  constructor
  · intro h r hr ht
    rw [← parentOk_isSome part hp]
    simp only [secondLowestOk] at h
    have h' : (List.mapM (fun n => Option.map (fun b => (n, b)) (parentOk part (rows.filter (fun r => r.thr.isSome))
        (rows.filterMap Row.thr) n)) ((rows.filter (fun r => r.thr.isSome)).map Row.p).dedup).isSome := by
      cases hm : List.mapM (fun n => Option.map (fun b => (n, b)) (parentOk part (rows.filter (fun r => r.thr.isSome))
        (rows.filterMap Row.thr) n)) ((rows.filter (fun r => r.thr.isSome)).map Row.p).dedup with
      | none => rw [hm] at h; simp at h
      | some x => rfl
    have := (mapM_isSome_iff _ _).1 h' r.p (List.mem_dedup.2 (List.mem_map.2 ⟨r, by simp [hr, ht], rfl⟩))
    simpa using this
  · intro h
    rw [secondLowest_spec]
    · rfl
    · intro r hr
      rw [parentOk_isSome part hp]
      have := List.mem_filter.1 hr
      exact h r this.1 this.2

/-- The mask of a successful isolation analysis, row by row. -/
theorem isolation_rows (part : List K → Nat × Nat) (hp : PartOK part) (rows : List (Row K)) (mask : List Bool)
    (hm : isolationMask part rows = some mask) :
    ∃ iso : Row K → Bool, mask = rows.map iso ∧ ∀ r ∈ rows, (iso r = true ↔ r.thr.isSome ∧
      (∃ a b c, LeastP rows r.p a ∧ LeastD rows r.d1 b ∧ LeastD rows r.d2 c ∧
        |a - b| ≤ 1 / 100000000000000 ∧ |a - c| ≤ 1 / 100000000000000) ∧
      parentOk part (rows.filter (fun r => r.thr.isSome)) (rows.filterMap Row.thr) r.p = some true) := by
  have hdef := (C38_defined_iff_parents_repeat_partial part hp rows).1 (by rw [hm]; rfl)
  obtain ⟨same, h1, h2⟩ := isolation_spec part rows
  rw [secondLowest_spec, Option.map_some, scatter_map, band_map, hm] at h1
  · refine ⟨_, Option.some.inj h1, ?_⟩
    intro r hr
    cases ht : r.thr with
    | none => simp
    | some t =>
      obtain ⟨a, b, c, l1, l2, l3, hs⟩ := h2 r hr (by simp [ht])
      simp only [Option.isSome_some, Bool.true_and, Bool.and_eq_true, true_and]
      rw [hs]
      have hpo : (parentOk part (rows.filter (fun r => r.thr.isSome)) (rows.filterMap Row.thr) r.p).getD false = true
          ↔ parentOk part (rows.filter (fun r => r.thr.isSome)) (rows.filterMap Row.thr) r.p = some true := by
        cases parentOk part (rows.filter (fun r => r.thr.isSome)) (rows.filterMap Row.thr) r.p <;> simp
      rw [hpo]
      constructor
      · rintro ⟨h3, h4⟩; exact ⟨⟨a, b, c, l1, l2, l3, h3⟩, h4⟩
      · rintro ⟨⟨a', b', c', l1', l2', l3', h3⟩, h4⟩
        rw [l1.unique l1', l2.unique l2', l3.unique l3']
        exact ⟨h3, h4⟩
  · intro r hr
    rw [parentOk_isSome part hp]
    have := List.mem_filter.1 hr
    exact hdef r this.1 this.2

/-- Thresholds of different valued triads are separated by more than the code's tolerance. -/
def Separated (rows : List (Row K)) : Prop :=
  ∀ (i j : Nat) r r' t t', i ≠ j → rows[i]? = some r → rows[j]? = some r' → r.thr = some t → r'.thr = some t' →
    1 / 100000000000000 < |t - t'|

/-- C37 (partial): in a table with separated thresholds, a triad flagged isolated has the lowest threshold
among all valued triads sharing its parent or one of its daughters, provided no other valued triad contains
all of its modes. -/
theorem C37_isolated_is_lowest_partial (part : List K → Nat × Nat) (hp : PartOK part) (rows : List (Row K))
    (mask : List Bool) (hm : isolationMask part rows = some mask) (hsep : Separated rows)
    (i : Nat) (r : Row K) (hr : rows[i]? = some r) (hi : mask[i]? = some true)
    (hcont : ∀ (j : Nat) r', j ≠ i → rows[j]? = some r' → r'.thr.isSome → ¬ Contains r' r) :
    ∃ t, r.thr = some t ∧ ∀ r' ∈ rows, Shares r r' → ∀ t', r'.thr = some t' → t ≤ t' := by
  obtain ⟨iso, rfl, h⟩ := isolation_rows part hp rows mask hm
  rw [List.getElem?_map, hr] at hi
  simp only [Option.map_some, Option.some.injEq] at hi
  obtain ⟨_, ⟨a, b, c, l1, l2, l3, d1, d2⟩, _⟩ := (h r (List.mem_of_getElem? hr)).1 hi
  obtain ⟨ra, ma, pa, ta⟩ := l1.1
  obtain ⟨rb, mb, pb, tb⟩ := l2.1
  obtain ⟨rc, mc, pc, tc⟩ := l3.1
  obtain ⟨ja, hja⟩ := List.mem_iff_getElem?.1 ma
  obtain ⟨jb, hjb⟩ := List.mem_iff_getElem?.1 mb
  obtain ⟨jc, hjc⟩ := List.mem_iff_getElem?.1 mc
  have eab : ja = jb := by
    by_contra hne
    exact absurd d1 (not_le.2 (hsep ja jb ra rb a b hne hja hjb ta tb))
  have eac : ja = jc := by
    by_contra hne
    exact absurd d2 (not_le.2 (hsep ja jc ra rc a c hne hja hjc ta tc))
  subst eab; subst eac
  obtain rfl : ra = rb := Option.some.inj (hja.symm.trans hjb)
  obtain rfl : ra = rc := Option.some.inj (hja.symm.trans hjc)
  have hji : ja = i := by
    by_contra hne
    exact hcont ja ra hne hja (by simp [ta]) ⟨pa, pb, pc⟩
  subst hji
  obtain rfl : ra = r := Option.some.inj (hja.symm.trans hr)
  obtain rfl : a = b := Option.some.inj (ta.symm.trans tb)
  obtain rfl : a = c := Option.some.inj (ta.symm.trans tc)
  refine ⟨a, ta, ?_⟩
  intro r' hr' hs t' ht'
  rcases hs with hs | hs | hs | hs | hs
  · exact l1.2 ⟨r', hr', hs, ht'⟩
  · exact l2.2 ⟨r', hr', Or.inl hs, ht'⟩
  · exact l3.2 ⟨r', hr', Or.inl hs, ht'⟩
  · exact l2.2 ⟨r', hr', Or.inr hs, ht'⟩
  · exact l3.2 ⟨r', hr', Or.inr hs, ht'⟩

/-- C37, converse: in every table, a triad with the lowest threshold among all triads sharing one of its modes
in the same role passes the isolation test up to the second-lowest-threshold condition on its parent. -/
theorem C37_lowest_passes (part : List K → Nat × Nat) (hp : PartOK part) [IsStrictOrderedRing K]
    (rows : List (Row K)) (mask : List Bool) (hm : isolationMask part rows = some mask)
    (i : Nat) (r : Row K) (hr : rows[i]? = some r) (t : K) (ht : r.thr = some t)
    (hlow : ∀ r' ∈ rows, Shares r r' → ∀ t', r'.thr = some t' → t ≤ t') :
    (mask[i]? = some true ↔
      parentOk part (rows.filter (fun r => r.thr.isSome)) (rows.filterMap Row.thr) r.p = some true) := by
  obtain ⟨iso, rfl, h⟩ := isolation_rows part hp rows mask hm
  have hmem := List.mem_of_getElem? hr
  rw [List.getElem?_map, hr]
  simp only [Option.map_some, Option.some.injEq]
  rw [h r hmem]
  constructor
  · exact fun h => h.2.2
  · intro hpo
    refine ⟨by simp [ht], ⟨t, t, t, ⟨⟨r, hmem, rfl, ht⟩, ?_⟩, ⟨⟨r, hmem, Or.inl rfl, ht⟩, ?_⟩,
      ⟨⟨r, hmem, Or.inr rfl, ht⟩, ?_⟩, by simp, by simp⟩, hpo⟩
    · rintro t' ⟨r', hr', h1, h2⟩; exact hlow r' hr' (Or.inl h1) t' h2
    · rintro t' ⟨r', hr', h1 | h1, h2⟩
      · exact hlow r' hr' (Or.inr (Or.inl h1)) t' h2
      · exact hlow r' hr' (Or.inr (Or.inr (Or.inr (Or.inl h1)))) t' h2
    · rintro t' ⟨r', hr', h1 | h1, h2⟩
      · exact hlow r' hr' (Or.inr (Or.inr (Or.inl h1))) t' h2
      · exact hlow r' hr' (Or.inr (Or.inr (Or.inr (Or.inr h1)))) t' h2

/-- What the parent's second-lowest condition means. -/
theorem parentOk_true (part : List K → Nat × Nat) (hp : PartOK part) (rows : List (Row K)) (n : Int)
    (h : parentOk part (rows.filter (fun r => r.thr.isSome)) (rows.filterMap Row.thr) n = some true) :
    ∃ q0 ∈ V rows, q0.1.p = n ∧ ∃ s, q0.1.surf = some s ∧
      (∀ q ∈ V rows, q.1.p = n → q0.2 ≤ q.2) ∧
      ∃ pre post, (V rows).filter (fun q => decide (q.1.p = n)) = pre ++ q0 :: post ∧
        ∀ q ∈ pre ++ post, s * 1000000 < q.2 := by
  simp only [parentOk, zip_V] at h
  have hmemsel : ∀ q, q ∈ (V rows).filter (fun q => decide (q.1.p = n)) ↔ q ∈ V rows ∧ q.1.p = n := by
    intro q; simp [List.mem_filter]
  generalize (V rows).filter (fun q => decide (q.1.p = n)) = sel at h hmemsel
  by_cases h2 : sel.length < 2
  · simp [argpartition, h2] at h
  · obtain ⟨hne, a, b, h1, h3, hab, hrest⟩ := hp (sel.map Prod.snd) (by simp; omega)
    simp only [argpartition, List.length_map, h2, if_false, Option.bind_eq_bind, Option.bind_some, h3] at h
    generalize part (sel.map Prod.snd) = ij at *
    rw [List.getElem?_map] at h1
    cases hq : sel[ij.1]? with
    | none => rw [hq] at h1; cases h1
    | some q0 =>
      rw [hq] at h1
      simp only [Option.map_some, Option.some.injEq] at h1
      rw [List.getElem?_map, hq] at h
      simp only [Option.map_some, Option.bind_some, Option.pure_def, Option.some.injEq] at h
      have hm0 := (hmemsel q0).1 (List.mem_of_getElem? hq)
      cases hs : q0.1.surf with
      | none => rw [hs] at h; simp [gtNan] at h
      | some s =>
        rw [hs] at h
        simp only [Option.map_some, gtNan, decide_eq_true_eq] at h
        have hge : ∀ (k : Nat) q, k ≠ ij.1 → sel[k]? = some q → b ≤ q.2 := by
          intro k q hk hkq
          exact hrest k q.2 hk (by rw [List.getElem?_map, hkq]; rfl)
        obtain ⟨hlt, hget⟩ := List.getElem?_eq_some_iff.1 hq
        refine ⟨q0, hm0.1, hm0.2, s, hs, ?_, sel.take ij.1, sel.drop (ij.1 + 1), ?_, ?_⟩
        · intro q hqV hqn
          obtain ⟨k, hk⟩ := List.mem_iff_getElem?.1 ((hmemsel q).2 ⟨hqV, hqn⟩)
          by_cases hki : k = ij.1
          · subst hki; rw [hq] at hk; cases hk; exact le_rfl
          · rw [h1]; exact hab.trans (hge k q hki hk)
        · rw [← hget, List.getElem_cons_drop, List.take_append_drop]
        · intro q hqq
          refine lt_of_lt_of_le h ?_
          rcases List.mem_append.1 hqq with hq1 | hq1
          · obtain ⟨k, hk, rfl⟩ := List.getElem_of_mem hq1
            simp only [List.length_take] at hk
            exact hge k _ (by omega) (by rw [List.getElem_take]; exact List.getElem?_eq_getElem (by omega))
          · obtain ⟨k, hk, rfl⟩ := List.getElem_of_mem hq1
            simp only [List.length_drop] at hk
            exact hge (ij.1 + 1 + k) _ (by omega)
              (by rw [List.getElem_drop]; exact List.getElem?_eq_getElem (by omega))

/-- C57: whenever a triad is flagged isolated, the equilibrium amplitude (in ppm) of the lowest-threshold
triad of its parent is a number below the threshold of every other valued triad with that parent. -/
theorem C57_equilibrium_below_other_thresholds (part : List K → Nat × Nat) (hp : PartOK part)
    (rows : List (Row K)) (mask : List Bool) (hm : isolationMask part rows = some mask)
    (i : Nat) (r : Row K) (hr : rows[i]? = some r) (hi : mask[i]? = some true) :
    ∃ q0 ∈ V rows, q0.1.p = r.p ∧ (∀ q ∈ V rows, q.1.p = r.p → q0.2 ≤ q.2) ∧ ∃ s, q0.1.surf = some s ∧
      ∃ pre post, (V rows).filter (fun q => decide (q.1.p = r.p)) = pre ++ q0 :: post ∧
        ∀ q ∈ pre ++ post, s * 1000000 < q.2 := by
  obtain ⟨iso, rfl, h⟩ := isolation_rows part hp rows mask hm
  rw [List.getElem?_map, hr] at hi
  simp only [Option.map_some, Option.some.injEq] at hi
  obtain ⟨_, _, hpo⟩ := (h r (List.mem_of_getElem? hr)).1 hi
  obtain ⟨q0, h1, h2, s, h3, h4, h5⟩ := parentOk_true part hp rows r.p hpo
  exact ⟨q0, h1, h2, h4, s, h3, h5⟩

/-! ### C36 -/

/-- Stable triads: the last three checks all passed. -/
def Stable (r : Row K) : Prop := ∀ b ∈ r.checks.drop (r.checks.length - 3), b = true
/-- Valid amplitude-equation triads: `|Δω/ω_min| ≤ c` (a number). -/
def DetuningAtMost (c : K) (r : Row K) : Prop := ∃ v, r.omegaDiff = some v ∧ |v| ≤ c

theorem absLe_iff (r : Row K) (c : K) : absLe r.omegaDiff c = true ↔ DetuningAtMost c r := by
  cases h : r.omegaDiff <;> simp [absLe, DetuningAtMost, h]

theorem stable_iff (r : Row K) : (r.checks.drop (r.checks.length - 3)).all id = true ↔ Stable r := by
  simp [Stable]

/-- C36: the overview masks are pairwise disjoint, together exactly the stable non-harmonic triads, and the
last two together exactly the stable, valid, non-harmonic ones. -/
theorem C36_overview_masks_partition (part : List K → Nat × Nat) (hp : PartOK part) (rows : List (Row K))
    (a b c : List Bool) (hm : overviewMasks part rows = some (a, b, c))
    (i : Nat) (r : Row K) (hr : rows[i]? = some r) :
    ∃ x y z, a[i]? = some x ∧ b[i]? = some y ∧ c[i]? = some z ∧
      ¬ (x ∧ y) ∧ ¬ (x ∧ z) ∧ ¬ (y ∧ z) ∧
      (x ∨ y ∨ z ↔ Stable r ∧ r.harmonic = false) ∧
      (y ∨ z ↔ Stable r ∧ DetuningAtMost (1 / 10) r ∧ r.harmonic = false) ∧
      ∃ iso, isolationMask part rows = some iso ∧
        (z ↔ Stable r ∧ DetuningAtMost (1 / 10) r ∧ r.harmonic = false ∧ iso[i]? = some true) := by
  cases hiso : isolationMask part rows with
  | none => simp [overviewMasks, hiso] at hm
  | some iso =>
    obtain ⟨f, rfl, _⟩ := isolation_rows part hp rows iso hiso
    simp only [overviewMasks, hiso, Option.bind_eq_bind, Option.bind_some, Option.pure_def, Option.some.injEq,
      Prod.mk.injEq, stabilityMask, validityMask, bnot_map, band_map] at hm
    obtain ⟨rfl, rfl, rfl⟩ := hm
    simp only [List.getElem?_map, hr, Option.map_some, Option.some.injEq]
    refine ⟨_, _, _, rfl, rfl, rfl, ?_⟩
    rw [← stable_iff, ← absLe_iff]
    generalize (r.checks.drop (r.checks.length - 3)).all id = s
    generalize absLe r.omegaDiff (1 / 10) = v
    generalize r.harmonic = h
    cases s <;> cases v <;> cases h <;> cases hf : f r <;> simp [hf, hr]

/-- C36: the five masks behind the triad counts say, triad by triad: stable; valid; isolated; valid and
isolated; stable, valid and isolated. -/
theorem C36_triad_count_masks (part : List K → Nat × Nat) (hp : PartOK part) (rows : List (Row K))
    (a b c d e : List Bool) (hm : triadCountMasks part rows = some (a, b, c, d, e))
    (i : Nat) (r : Row K) (hr : rows[i]? = some r) :
    ∃ iso, isolationMask part rows = some iso ∧
      (a[i]? = some true ↔ Stable r) ∧ (b[i]? = some true ↔ DetuningAtMost (1 / 10) r) ∧ c = iso ∧
      (d[i]? = some true ↔ DetuningAtMost (1 / 10) r ∧ iso[i]? = some true) ∧
      (e[i]? = some true ↔ Stable r ∧ DetuningAtMost (1 / 10) r ∧ iso[i]? = some true) := by
  cases hiso : isolationMask part rows with
  | none => simp [triadCountMasks, hiso] at hm
  | some iso =>
    obtain ⟨f, rfl, _⟩ := isolation_rows part hp rows iso hiso
    simp only [triadCountMasks, hiso, Option.bind_eq_bind, Option.bind_some, Option.pure_def, Option.some.injEq,
      Prod.mk.injEq, stabilityMask, validityMask, band_map] at hm
    obtain ⟨rfl, rfl, rfl, rfl, rfl⟩ := hm
    refine ⟨_, rfl, ?_⟩
    simp only [List.getElem?_map, hr, Option.map_some, Option.some.injEq]
    rw [← stable_iff, ← absLe_iff]
    generalize (r.checks.drop (r.checks.length - 3)).all id = s
    generalize absLe r.omegaDiff (1 / 10) = v
    cases s <;> cases v <;> cases hf : f r <;> simp

/-! ### C58 -/

/-- A triad too faint or without threshold. -/
def TooLow (minLum : K) (r : Row K) : Prop := ∀ t, r.thr = some t → t < minLum

/-- C58 (partial): the luminosity cut keeps exactly the triads that share no mode *in the same slot* with a
triad of too low or undefined threshold. -/
theorem C58_luminosity_cut_same_slot_partial (rows : List (Row K)) (minLum : K) (i : Nat) (r : Row K)
    (hr : rows[i]? = some r) :
    (thresholdLumMask rows minLum)[i]? = some true ↔
      ∀ r' ∈ rows, TooLow minLum r' → r'.p ≠ r.p ∧ r'.d1 ≠ r.d1 ∧ r'.d2 ≠ r.d2 := by
  have hlow : ∀ r' : Row K, lumTooLow minLum r' = true ↔ TooLow minLum r' := by
    intro r'
    cases h : r'.thr <;> simp [lumTooLow, TooLow, h]
  simp only [thresholdLumMask, uniqueValueMask, bor_map, bnot_map, List.getElem?_map, hr, Option.map_some,
    Option.some.injEq, Bool.not_eq_true', Bool.or_eq_false_iff, decide_eq_false_iff_not, List.mem_dedup,
    List.mem_map, List.mem_filter, hlow, not_exists, not_and]
  constructor
  · rintro ⟨⟨h1, h2⟩, h3⟩ r' hr' ht
    exact ⟨h1 r' ⟨hr', ht⟩, h2 r' ⟨hr', ht⟩, h3 r' ⟨hr', ht⟩⟩
  · intro h
    exact ⟨⟨fun r' hh => (h r' hh.1 hh.2).1, fun r' hh => (h r' hh.1 hh.2).2.1⟩,
      fun r' hh => (h r' hh.1 hh.2).2.2⟩

/-- C58: in particular every kept triad has a threshold of at least the requested minimum. -/
theorem C58_kept_has_sufficient_threshold (rows : List (Row K)) (minLum : K) (i : Nat) (r : Row K)
    (hr : rows[i]? = some r) (h : (thresholdLumMask rows minLum)[i]? = some true) :
    ∃ t, r.thr = some t ∧ minLum ≤ t := by
  rw [C58_luminosity_cut_same_slot_partial rows minLum i r hr] at h
  by_contra hc
  have := (h r (List.mem_of_getElem? hr) (fun t ht => by
    by_contra hlt
    exact hc ⟨t, ht, not_lt.1 hlt⟩)).1
  exact this rfl

/-- The optional cuts, as a condition on one row (with the mask of the luminosity cut). -/
def PassesCuts0 (rows : List (Row K)) (minLum maxDet : Option K) (i : Nat) (r : Row K) : Prop :=
  (∀ l, minLum = some l → (thresholdLumMask rows l)[i]? = some true) ∧
  (∀ d, maxDet = some d → DetuningAtMost d r)

/-- The optional cuts: no mode shared in the same slot with a too faint triad, detuning small enough. -/
def PassesCuts (rows : List (Row K)) (minLum maxDet : Option K) (r : Row K) : Prop :=
  (∀ l, minLum = some l → ∀ r' ∈ rows, TooLow l r' → r'.p ≠ r.p ∧ r'.d1 ≠ r.d1 ∧ r'.d2 ≠ r.d2) ∧
  (∀ d, maxDet = some d → DetuningAtMost d r)

theorem isolated_masks_aux (part : List K → Nat × Nat) (hp : PartOK part) (rows : List (Row K))
    (minLum maxDet : Option K) (a b : List Bool) (hm : isolatedMasks part rows minLum maxDet = some (a, b))
    (i : Nat) (r : Row K) (hr : rows[i]? = some r) :
    ∃ x y, a[i]? = some x ∧ b[i]? = some y ∧ ¬ (x ∧ y) ∧
      (x ∨ y ↔ Stable r ∧ DetuningAtMost (1 / 10) r ∧ PassesCuts0 rows minLum maxDet i r) ∧
      ∃ iso, isolationMask part rows = some iso ∧
        (x ↔ Stable r ∧ DetuningAtMost (1 / 10) r ∧ PassesCuts0 rows minLum maxDet i r ∧ iso[i]? = some true) := by
  cases hiso : isolationMask part rows with
  | none => simp [isolatedMasks, hiso] at hm
  | some iso =>
    obtain ⟨f, rfl, _⟩ := isolation_rows part hp rows iso hiso
    simp only [isolatedMasks, hiso, Option.bind_eq_bind, Option.bind_some, Option.pure_def,
      stabilityMask, validityMask, bnot_map, band_map, detuningMask, thresholdLumMask, uniqueValueMask,
      bor_map] at hm
    simp only [PassesCuts0, thresholdLumMask, uniqueValueMask, bor_map, bnot_map]
    rw [← stable_iff, ← absLe_iff]
    cases minLum with
    | none =>
      cases maxDet with
      | none =>
        simp only [Option.some.injEq, Prod.mk.injEq] at hm
        obtain ⟨rfl, rfl⟩ := hm
        simp only [List.getElem?_map, hr, Option.map_some, Option.some.injEq]
        refine ⟨_, _, rfl, rfl, ?_⟩
        generalize (r.checks.drop (r.checks.length - 3)).all id = s
        generalize absLe r.omegaDiff (1 / 10) = v
        cases s <;> cases v <;> cases hf : f r <;> simp [hf, hr]
      | some d =>
        simp only [Option.some.injEq, Prod.mk.injEq] at hm
        obtain ⟨rfl, rfl⟩ := hm
        simp only [List.getElem?_map, hr, Option.map_some, Option.some.injEq]
        refine ⟨_, _, rfl, rfl, ?_⟩
        simp only [reduceCtorEq, false_implies, forall_const, true_and, forall_eq']
        rw [← absLe_iff]
        generalize absLe r.omegaDiff d = w
        generalize (r.checks.drop (r.checks.length - 3)).all id = s
        generalize absLe r.omegaDiff (1 / 10) = v
        cases s <;> cases v <;> cases w <;> cases hf : f r <;> simp [hf, hr]
    | some l =>
      cases maxDet with
      | none =>
        simp only [Option.some.injEq, Prod.mk.injEq] at hm
        obtain ⟨rfl, rfl⟩ := hm
        simp only [List.getElem?_map, hr, Option.map_some, Option.some.injEq]
        refine ⟨_, _, rfl, rfl, ?_⟩
        simp only [reduceCtorEq, false_implies, forall_const, and_true, forall_eq']
        generalize (r.checks.drop (r.checks.length - 3)).all id = s
        generalize absLe r.omegaDiff (1 / 10) = v
        generalize (!(decide (r.p ∈ (_ : List Int)) || decide (r.d1 ∈ (_ : List Int)) || decide (r.d2 ∈ (_ : List Int)))) = u
        cases s <;> cases v <;> cases u <;> cases hf : f r <;> simp [hf, hr]
      | some d =>
        simp only [Option.some.injEq, Prod.mk.injEq] at hm
        obtain ⟨rfl, rfl⟩ := hm
        simp only [List.getElem?_map, hr, Option.map_some, Option.some.injEq]
        refine ⟨_, _, rfl, rfl, ?_⟩
        simp only [forall_eq']
        rw [← absLe_iff]
        generalize (r.checks.drop (r.checks.length - 3)).all id = s
        generalize absLe r.omegaDiff (1 / 10) = v
        generalize absLe r.omegaDiff d = w
        generalize (!(decide (r.p ∈ (_ : List Int)) || decide (r.d1 ∈ (_ : List Int)) || decide (r.d2 ∈ (_ : List Int)))) = u
        cases s <;> cases v <;> cases u <;> cases w <;> cases hf : f r <;> simp [hf, hr]

/-- C36: the isolated and non-isolated masks partition the stable valid triads passing the optional cuts. -/
theorem C36_isolated_masks_partition (part : List K → Nat × Nat) (hp : PartOK part) (rows : List (Row K))
    (minLum maxDet : Option K) (a b : List Bool) (hm : isolatedMasks part rows minLum maxDet = some (a, b))
    (i : Nat) (r : Row K) (hr : rows[i]? = some r) :
    ∃ x y, a[i]? = some x ∧ b[i]? = some y ∧ ¬ (x ∧ y) ∧
      (x ∨ y ↔ Stable r ∧ DetuningAtMost (1 / 10) r ∧ PassesCuts rows minLum maxDet r) ∧
      ∃ iso, isolationMask part rows = some iso ∧
        (x ↔ Stable r ∧ DetuningAtMost (1 / 10) r ∧ PassesCuts rows minLum maxDet r ∧ iso[i]? = some true) := by
  have : PassesCuts0 rows minLum maxDet i r ↔ PassesCuts rows minLum maxDet r := by
    simp only [PassesCuts0, PassesCuts, C58_luminosity_cut_same_slot_partial rows _ i r hr]
  rw [← this]
  exact isolated_masks_aux part hp rows minLum maxDet a b hm i r hr

/-! ### Concrete tables -/

/-- A row builder for examples. -/
def mk (p d1 d2 : Int) (t : ℚ) : Row ℚ := ⟨p, d1, d2, some t, some 0, [true, true, true, true], some (1/20), false⟩

/-- C38 (what fails): a single valued triad with its own parent makes the analysis raise, whatever the
partition routine. -/
theorem C38_single_parent_raises (part : List ℚ → Nat × Nat) :
    isolationMask part [mk 1 2 3 5] = none := by
  rfl

/-- C37 (what fails): a triad with two equal daughters is flagged isolated although another triad with the
same parent and that daughter has a lower threshold. -/
theorem C37_equal_daughters_wrong (part : List ℚ → Nat × Nat) (hp : PartOK part) :
    ∃ m, isolationMask part [mk 1 2 2 5, mk 1 2 3 1] = some [true, m] := by
  have h := hp [5, 1] (by simp)
  have h12 : part [5, 1] = (1, 0) := by
    obtain ⟨hne, a, b, h1, h2, hab, _⟩ := h
    obtain ⟨h1', rfl⟩ := List.getElem?_eq_some_iff.1 h1
    obtain ⟨h2', rfl⟩ := List.getElem?_eq_some_iff.1 h2
    simp only [List.length_cons, List.length_nil] at h1' h2'
    generalize part [5, 1] = ij at *
    obtain ⟨i, j⟩ := ij
    simp only at *
    interval_cases i <;> interval_cases j <;> simp_all
  have key : ∀ ij : Nat × Nat, part [5, 1] = ij → isolationMask part [mk 1 2 2 5, mk 1 2 3 1]
      = isolationMask (fun _ => ij) [mk 1 2 2 5, mk 1 2 3 1] := by
    intro ij hij
    subst hij
    rfl
  refine ⟨true, ?_⟩
  rw [key _ h12]
  decide +kernel

/-- C58 (what fails): the cut does not see a mode shared in the other daughter slot: here the second
triad is kept although its daughter 3 is also a daughter of the too faint first one. -/
theorem C58_other_slot_wrong : thresholdLumMask [mk 1 2 3 1, mk 4 3 5 10] 5 = [false, true] := by
  decide +kernel

/-- Non-vacuity: a table on which the isolation mask is defined and flags a triad. -/
example : isolationMask (fun _ => (0, 1)) [mk 1 2 3 1, mk 1 4 5 3, mk 1 4 6 4] = some [true, false, false] := by
  decide +kernel

/-- Non-vacuity: partition functions as assumed exist. -/
theorem partOK_exists : ∃ part : List K → Nat × Nat, PartOK part := by
  classical
  have key : ∀ l : List K, ∃ ij : Nat × Nat, 2 ≤ l.length → ij.1 ≠ ij.2 ∧
      ∃ a b, l[ij.1]? = some a ∧ l[ij.2]? = some b ∧ a ≤ b ∧
        ∀ (k : Nat) c, k ≠ ij.1 → l[k]? = some c → b ≤ c := by
    intro l
    by_cases hl : 2 ≤ l.length
    · obtain ⟨i, hi, himin⟩ := Finset.exists_min_image (Finset.range l.length) (fun k => l.getD k 0)
        ⟨0, by simp; omega⟩
      obtain ⟨j, hj, hjmin⟩ := Finset.exists_min_image ((Finset.range l.length).erase i) (fun k => l.getD k 0)
        ⟨if i = 0 then 1 else 0, by split_ifs with h <;> simp [h] <;> omega⟩
      simp only [Finset.mem_range, Finset.mem_erase] at hi hj himin hjmin
      refine ⟨(i, j), fun _ => ⟨hj.1.symm, l.getD i 0, l.getD j 0, ?_, ?_, himin j hj.2, ?_⟩⟩
      · simp [List.getD, List.getElem?_eq_getElem hi]
      · simp [List.getD, List.getElem?_eq_getElem hj.2]
      · intro k c hk hc
        have hkl := (List.getElem?_eq_some_iff.1 hc).1
        have := hjmin k ⟨hk, hkl⟩
        rwa [show l.getD k 0 = c by simp [List.getD, hc]] at this
    · exact ⟨(0, 0), fun h => absurd h hl⟩
  choose part hpart using key
  exact ⟨part, fun l hl => hpart l hl⟩

end Verif.Mask
