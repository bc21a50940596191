import Verif.Cmp.Model
import Mathlib.Data.List.Perm.Subperm
import Mathlib.Tactic.NormNum
import Mathlib.Tactic.Linarith
/-! # C164: the comparisons of the tests -/
namespace Verif.Cmp

/-! ### Specification -/

/-- Equal elements of lists: numbers by value, everything else as it is. -/
def Spec.SameAtom (a b : Atom) : Prop := match a, b with
  | .num _ x, .num _ y => x = y
  | .num _ x, .cplx re im => x = re ∧ im = 0
  | .cplx re im, .num _ x => x = re ∧ im = 0
  | a, b => a = b

/-- What a comparison should mean: the same kind of value, numbers and arrays up to the tolerances. -/
def Spec.Alike (v w : Val) : Prop := match v, w with
  | .atom (.num t x), .atom (.num t' y) => t = t' ∧ |x - y| ≤ 1e-9 * max |x| |y|
  | .atom a, .atom b => a = b
  | .seq k l, .seq k' l' => k = k' ∧ List.Forall₂ Spec.SameAtom l l'
  | .arr d x, .arr d' y => d = d' ∧ List.Forall₂ (fun a b => |a - b| ≤ 1e-8 + 1e-5 * |b|) x y
  | _, _ => False

/-- No function among the values, and neither `None` nor a complex number outside of a container. -/
def Spec.Plain (v : Val) : Prop := match v with
  | .atom .none => False
  | .atom (.cplx _ _) => False
  | .atom (.fn _) => False
  | .seq _ l => ∀ f, Atom.fn f ∉ l
  | _ => True

/-- Two arrays or two containers whose comparison is not misled: arrays that are both or both not of length one, and no two empty
containers of different types. -/
def Spec.Comparable (v w : Val) : Prop := match v, w with
  | .arr _ x, .arr _ y => x.length = 1 ↔ y.length = 1
  | .seq k [], .seq k' [] => k = k'
  | .seq _ [], .atom (.str []) => False
  | .atom (.str []), .seq _ [] => False
  | _, _ => True

/-! ### Values -/

theorem isclose_iff (x y : ℚ) : isclose x y = true ↔ |x - y| ≤ 1e-9 * max |x| |y| := by
  unfold isclose
  simp only [Bool.or_eq_true, decide_eq_true_eq]
  have h0 : (1e-9 : ℚ) = 1 / 1000000000 := by norm_num
  rw [h0]
  constructor
  · rintro ((h | h) | h)
    · exact h.trans (mul_le_mul_of_nonneg_left (le_max_right _ _) (by norm_num))
    · exact h.trans (mul_le_mul_of_nonneg_left (le_max_left _ _) (by norm_num))
    · exact h.trans (mul_nonneg (by norm_num) (le_max_of_le_left (abs_nonneg _)))
  · intro h
    rcases max_choice |x| |y| with e | e <;> rw [e] at h
    · exact Or.inl (Or.inr h)
    · exact Or.inl (Or.inl h)

theorem all_zip {α β : Type} (p : α → β → Bool) (l : List α) (l' : List β) (h : l.length = l'.length) :
    ((l.zip l').all fun q => p q.1 q.2) = true ↔ List.Forall₂ (fun a b => p a b = true) l l' := by
  induction l generalizing l' with
  | nil => cases l' with
    | nil => simp
    | cons b l' => simp at h
  | cons a l ih => cases l' with
    | nil => simp at h
    | cons b l' =>
      rw [List.zip_cons_cons, List.all_cons, Bool.and_eq_true, ih l' (by simpa using h), List.forall₂_cons]

theorem sameAtom_iff (a b : Atom) (ha : ∀ f, a ≠ .fn f) : pyEq a b = true ↔ Spec.SameAtom a b := by
  cases a <;> cases b <;> simp [pyEq, Spec.SameAtom]
  exact absurd rfl (ha _)

theorem forall₂_same (l l' : List Atom) (h : ∀ f, Atom.fn f ∉ l) :
    List.Forall₂ (fun a b => pyEq a b = true) l l' ↔ List.Forall₂ Spec.SameAtom l l' := by
  induction l generalizing l' with
  | nil => cases l' <;> simp
  | cons a l ih => cases l' with
    | nil => simp
    | cons b l' =>
      rw [List.forall₂_cons, List.forall₂_cons, ih l' (fun f hf => h f (List.mem_cons_of_mem _ hf)),
        sameAtom_iff a b (fun f e => h f (e ▸ List.mem_cons_self))]

theorem codeLoop_plain (l l' : List Atom) (h : ∀ f, Atom.fn f ∉ l) :
    codeLoop l l' = (true, !l.isEmpty && !l'.isEmpty) := by
  cases l with
  | nil => cases l' <;> rfl
  | cons a l => cases l' with
    | nil => cases a <;> rfl
    | cons b l' =>
      cases a with
      | fn f => exact absurd List.mem_cons_self (h f)
      | _ => rfl

theorem allclose_iff (x y : List ℚ) (h : x.length = 1 ↔ y.length = 1) :
    allclose x y = true ↔ List.Forall₂ (fun a b => |a - b| ≤ 1e-8 + 1e-5 * |b|) x y := by
  have h8 : (1e-8 : ℚ) = 1 / 100000000 := by norm_num
  have h5 : (1e-5 : ℚ) = 1 / 100000 := by norm_num
  rw [h8, h5]
  have gen : ∀ x y : List ℚ, (if x.length = y.length then (x.zip y).all fun p => decide (|p.1 - p.2| ≤ 1 / 100000000 + 1 / 100000 * |p.2|)
      else false) = true ↔ List.Forall₂ (fun a b => |a - b| ≤ 1 / 100000000 + 1 / 100000 * |b|) x y := by
    intro x y
    split
    · rename_i hl
      rw [all_zip (fun a b => decide (|a - b| ≤ 1 / 100000000 + 1 / 100000 * |b|)) x y hl]
      simp
    · rename_i hl
      exact ⟨fun h => by simp at h, fun h => absurd h.length_eq hl⟩
  match x, y, h with
  | [a], [b], _ => simp [allclose]
  | [a], [], h => simp at h
  | [a], b :: c :: t, h => simp at h
  | [], [b], h => simp at h
  | a :: c :: t, [b], h => simp at h
  | [], [], _ => simp [allclose]
  | [], b :: c :: t, _ => simp only [allclose]; exact gen _ _
  | a :: c :: t, [], _ => simp only [allclose]; exact gen _ _
  | a :: c :: t, b :: d :: t', _ => simp only [allclose]; exact gen _ _

/-- **C164 (partial).** For values without functions, `None` and complex numbers, and unless arrays of length one or empty containers
are compared with others, the comparison of two values is true exactly if they are alike. -/
theorem C164_value_partial (v w : Val) (hv : Spec.Plain v) (hw : Spec.Plain w) (hc : Spec.Comparable v w) :
    valueComparison v w = some true ↔ Spec.Alike v w := by
  cases v with
  | arr d x => cases w with
    | arr d' y =>
      simp only [valueComparison, Option.some.injEq, Bool.and_eq_true, decide_eq_true_eq, Spec.Alike]
      rw [allclose_iff x y hc]
    | seq k l => simp [valueComparison, Spec.Alike]
    | atom a => simp [valueComparison, Spec.Alike]
  | seq k l => cases w with
    | arr d' y => simp [valueComparison, Spec.Alike]
    | seq k' l' =>
      simp only [valueComparison, elems, Option.some.injEq, Bool.and_eq_true, decide_eq_true_eq, Spec.Alike, codeLoop_plain l l' hv,
        and_true]
      by_cases he : l = []
      · subst he
        cases l' with
        | nil => simpa [Spec.Comparable] using hc
        | cons b l' => simp
      · cases l' with
        | nil =>
          cases l with
          | nil => exact absurd rfl he
          | cons a l => simp
        | cons b l' =>
          have : (!l.isEmpty) = true ∧ (!(b :: l').isEmpty) = true := by
            cases l with
            | nil => exact absurd rfl he
            | cons a l => exact ⟨rfl, rfl⟩
          rw [if_pos this, valEq, Bool.and_eq_true, Bool.and_eq_true, decide_eq_true_eq, decide_eq_true_eq]
          constructor
          · rintro ⟨hl, ⟨hk, -⟩, ha⟩
            exact ⟨hk, (forall₂_same _ _ hv).1 ((all_zip pyEq _ _ hl).1 ha)⟩
          · rintro ⟨hk, ha⟩
            exact ⟨ha.length_eq, ⟨hk, ha.length_eq⟩, (all_zip pyEq _ _ ha.length_eq).2 ((forall₂_same _ _ hv).2 ha)⟩
    | atom b =>
      cases b with
      | str s =>
        simp only [valueComparison, elems, Option.some.injEq, Bool.and_eq_true, decide_eq_true_eq, Spec.Alike, codeLoop_plain l _ hv,
          and_true, iff_false, not_and]
        intro hl
        cases l with
        | nil =>
          cases s with
          | nil => exact hc.elim
          | cons c s => simp at hl
        | cons a l =>
          cases s with
          | nil => simp at hl
          | cons c s => simp [valEq]
      | _ => simp [valueComparison, elems, Spec.Alike]
  | atom a => cases w with
    | arr d' y => simp [valueComparison, Spec.Alike]
    | seq k' l' =>
      cases a with
      | str s =>
        have hp : ∀ f, Atom.fn f ∉ (s.map fun c => Atom.str [c]) := by simp
        simp only [valueComparison, elems, Option.some.injEq, Bool.and_eq_true, decide_eq_true_eq, Spec.Alike, codeLoop_plain _ l' hp,
          and_true, iff_false, not_and]
        intro hl
        cases l' with
        | nil =>
          cases s with
          | nil => exact hc.elim
          | cons c s => simp at hl
        | cons a l =>
          cases s with
          | nil => simp at hl
          | cons c s => simp [valEq]
      | _ => simp [valueComparison, elems, Spec.Alike]
    | atom b =>
      cases a with
      | none => exact hv.elim
      | cplx _ _ => exact hv.elim
      | fn _ => exact hv.elim
      | num t x => cases b with
        | num t' y =>
          simp only [valueComparison, Option.some.injEq, Bool.and_eq_true, decide_eq_true_eq, Spec.Alike, isclose_iff]
          exact and_comm
        | _ => simp [valueComparison, elems, Spec.Alike]
      | str s => cases b with
        | str s' =>
          have hp : ∀ f, Atom.fn f ∉ (s.map fun c => Atom.str [c]) := by simp
          simp only [valueComparison, elems, Option.some.injEq, Bool.and_eq_true, decide_eq_true_eq, Spec.Alike, codeLoop_plain _ _ hp,
            and_true, Atom.str.injEq, List.length_map]
          cases s <;> cases s' <;> simp [valEq, pyEq]
          exact fun h1 h2 => by rw [h2]
        | _ => simp [valueComparison, elems, Spec.Alike]

/-! ### Dictionaries -/

/-- **C164.** Without enforced length the comparison of dictionaries is true exactly if every key of the first is in the second, with
values that compare as true. -/
theorem C164_dict_keys (first second : Dict) :
    compareDicts first second false = some true ↔
      ∀ k v, (k, v) ∈ first → ∃ w, second.lookup k = some w ∧ valueComparison v w = some true := by
  unfold compareDicts
  simp only [Bool.false_and, Bool.false_eq_true, if_false]
  induction first with
  | nil => simp [compareElements]
  | cons p rest ih =>
    obtain ⟨k, v⟩ := p
    unfold compareElements
    cases hl : second.lookup k with
    | none =>
      simp only [Option.some.injEq, Bool.false_eq_true, false_iff]
      intro h
      obtain ⟨w, hw, -⟩ := h k v List.mem_cons_self
      rw [hl] at hw
      cases hw
    | some w =>
      simp only [List.mem_cons, Prod.mk.injEq]
      refine Iff.trans (b := valueComparison v w = some true ∧ compareElements rest second = some true) ?_ ?_
      · cases valueComparison v w <;> cases compareElements rest second <;> simp
      rw [ih]
      constructor
      · rintro ⟨h1, h2⟩ k' v' (⟨rfl, rfl⟩ | h)
        · exact ⟨w, hl, h1⟩
        · exact h2 k' v' h
      · intro h
        refine ⟨?_, fun k' v' h' => h k' v' (Or.inr h')⟩
        obtain ⟨w', hw', hv⟩ := h k v (Or.inl ⟨rfl, rfl⟩)
        rw [hl] at hw'
        cases hw'
        exact hv

theorem lookup_mem {d : Dict} {k : String} {v : Val} (h : d.lookup k = some v) : (k, v) ∈ d := by
  induction d with
  | nil => simp at h
  | cons p d ih =>
    obtain ⟨k', v'⟩ := p
    rw [List.lookup_cons] at h
    by_cases e : k = k'
    · subst e
      simp at h
      subst h
      exact List.mem_cons_self
    · have : (k == k') = false := by simpa using e
      rw [this] at h
      exact List.mem_cons_of_mem _ (ih h)

theorem mem_lookup {d : Dict} {k : String} {v : Val} (hn : (d.map (·.1)).Nodup) (h : (k, v) ∈ d) : d.lookup k = some v := by
  induction d with
  | nil => simp at h
  | cons p d ih =>
    obtain ⟨k', v'⟩ := p
    rw [List.map_cons, List.nodup_cons] at hn
    rw [List.lookup_cons]
    rcases List.mem_cons.1 h with e | h
    · cases e; simp
    · have : k ≠ k' := fun e => hn.1 (List.mem_map.2 ⟨(k, v), h, e⟩)
      have : (k == k') = false := by simpa using this
      rw [this]
      exact ih hn.2 h

/-- **C164.** With enforced length (the default) and since keys are unique, the comparison of dictionaries is true exactly if both have
the same keys and the values of every key compare as true. -/
theorem C164_dict_equal (first second : Dict) (h1 : (first.map (·.1)).Nodup) (h2 : (second.map (·.1)).Nodup) :
    compareDicts first second true = some true ↔
      (∀ k, k ∈ first.map (·.1) ↔ k ∈ second.map (·.1)) ∧
        ∀ k v w, (k, v) ∈ first → (k, w) ∈ second → valueComparison v w = some true := by
  have hrel : compareDicts first second true = if first.length = second.length then compareDicts first second false else some false := by
    unfold compareDicts
    by_cases h : first.length = second.length <;> simp [h]
  rw [hrel]
  constructor
  · intro h
    split at h
    · rename_i hl
      rw [C164_dict_keys] at h
      have hsub : ∀ k, k ∈ first.map (·.1) → k ∈ second.map (·.1) := by
        intro k hk
        obtain ⟨⟨k', v⟩, hm, rfl⟩ := List.mem_map.1 hk
        obtain ⟨w, hw, -⟩ := h k' v hm
        exact List.mem_map.2 ⟨_, lookup_mem hw, rfl⟩
      have hperm : (first.map (·.1)).Perm (second.map (·.1)) :=
        (List.subperm_of_subset h1 hsub).perm_of_length_le (by simp [hl])
      refine ⟨fun k => hperm.mem_iff, fun k v w hv hw => ?_⟩
      obtain ⟨w', hw', hc⟩ := h k v hv
      rw [mem_lookup h2 hw] at hw'
      cases hw'
      exact hc
    · simp at h
  · rintro ⟨hk, hv⟩
    have hperm : (first.map (·.1)).Perm (second.map (·.1)) := (List.perm_ext_iff_of_nodup h1 h2).2 hk
    have hl : first.length = second.length := by simpa using hperm.length_eq
    rw [if_pos hl, C164_dict_keys]
    intro k v hm
    obtain ⟨⟨k', w⟩, hw, e⟩ := List.mem_map.1 ((hk k).1 (List.mem_map.2 ⟨(k, v), hm, rfl⟩))
    cases e
    exact ⟨w, mem_lookup h2 hw, hv _ v w hm hw⟩

/-- **C164.** Lists of values compare as true exactly if they have the same length and all pairs compare as true. -/
theorem C164_lists (first second : List Val) :
    compareLists first second = some true ↔ List.Forall₂ (fun v w => valueComparison v w = some true) first second := by
  have key : ∀ first second : List Val, ∀ n m : ℕ, (((first.zip second).mapM fun p => valueComparison p.1 p.2).map fun bs =>
      decide (n = m) && bs.all id) = some true ↔ n = m ∧ ∀ p ∈ first.zip second, valueComparison p.1 p.2 = some true := by
    intro first second n m
    generalize first.zip second = z
    induction z with
    | nil => simp
    | cons p z ih =>
      rw [List.mapM_cons]
      cases h1 : valueComparison p.1 p.2 with
      | none => simp [h1]
      | some b =>
        cases h2 : z.mapM fun p => valueComparison p.1 p.2 with
        | none =>
          rw [h2] at ih
          simp [h1] at ih ⊢
          intro e _
          exact ih e
        | some bs =>
          rw [h2] at ih
          simp [h1] at ih ⊢
          exact fun e _ => ih e
  unfold compareLists
  rw [key, List.forall₂_iff_zip]
  exact ⟨fun ⟨h, h'⟩ => ⟨h, fun hm => h' _ hm⟩, fun ⟨h, h'⟩ => ⟨h, fun p hm => h' hm⟩⟩

/-! ### Refutations -/

/-- **C164 is false for some values.** A dictionary with a `None` or a complex number is never equal to itself; functions are equal if
only their byte code is, whatever they return; an array of length one equals any array of copies of its number, even an empty one; empty
containers of different types are equal; and the comparison of arrays is not symmetric. -/
theorem C164_comparison_wrong :
    (∀ (d : Dict) (k : String) (e : Bool), (d.map (·.1)).Nodup → ((k, Val.atom .none) ∈ d ∨ ∃ x y, (k, Val.atom (.cplx x y)) ∈ d) →
      compareDicts d d e ≠ some true) ∧
    (∀ i j code, valueComparison (.atom (.fn ⟨i, code⟩)) (.atom (.fn ⟨j, code⟩)) = some true) ∧
    (∀ d x n, valueComparison (.arr d [x]) (.arr d (List.replicate n x)) = some true) ∧
    valueComparison (.atom (.str [])) (.seq .list []) = some true ∧ valueComparison (.seq .tuple []) (.seq .list []) = some true ∧
    ∃ d x y, valueComparison (.arr d [x]) (.arr d [y]) = some true ∧ valueComparison (.arr d [y]) (.arr d [x]) = some false := by
  refine ⟨?_, fun i j code => by simp [valueComparison], fun d x n => ?_, by decide, by decide, ?_⟩
  · intro d k e hn hk h
    have h' : compareDicts d d false = some true := by
      unfold compareDicts at h ⊢
      simpa using h
    rw [C164_dict_keys] at h'
    rcases hk with hk | ⟨x, y, hk⟩
    · obtain ⟨w, hw, hv⟩ := h' k _ hk
      rw [mem_lookup hn hk] at hw
      cases hw
      simp [valueComparison, elems] at hv
    · obtain ⟨w, hw, hv⟩ := h' k _ hk
      rw [mem_lookup hn hk] at hw
      cases hw
      simp [valueComparison, elems] at hv
  · simp only [valueComparison, decide_true, Bool.true_and, Option.some.injEq, allclose]
    rw [List.all_eq_true]
    intro y hy
    rw [List.eq_of_mem_replicate hy, decide_eq_true_eq, sub_self, abs_zero]
    positivity
  · refine ⟨"float64", 1 - (1 / 100000000 + 1 / 100000), 1, ?_, ?_⟩
    · simp only [valueComparison, allclose, decide_true, Bool.true_and, Option.some.injEq, List.all_cons, List.all_nil, Bool.and_true,
        decide_eq_true_eq]
      norm_num [abs_of_nonneg, abs_of_nonpos]
    · simp only [valueComparison, allclose, decide_true, Bool.true_and, Option.some.injEq, List.all_cons, List.all_nil, Bool.and_true,
        decide_eq_false_iff_not]
      norm_num [abs_of_nonneg, abs_of_nonpos]

/-- Dictionaries that compare as equal, with all kinds of supported values. -/
example : compareDicts [("a", .atom (.num .float 1)), ("b", .arr "float64" [1, 2]), ("c", .seq .list [.num .int 1, .none])]
    [("c", .seq .list [.num .float 1, .none]), ("a", .atom (.num .float 1)), ("b", .arr "float64" [1, 2])] true = some true := by
  rw [C164_dict_equal _ _ (by decide) (by decide)]
  refine ⟨by intro k; simp; tauto, ?_⟩
  intro k v w hv hw
  simp only [List.mem_cons, Prod.mk.injEq, List.not_mem_nil, or_false] at hv hw
  rcases hv with ⟨rfl, rfl⟩ | ⟨rfl, rfl⟩ | ⟨rfl, rfl⟩ <;> simp at hw <;> subst hw
  · refine (C164_value_partial _ _ ?_ ?_ ?_).2 ⟨rfl, by norm_num⟩ <;> simp [Spec.Plain, Spec.Comparable]
  · refine (C164_value_partial _ _ ?_ ?_ ?_).2 ⟨rfl, by norm_num⟩ <;> simp [Spec.Plain, Spec.Comparable]
  · refine (C164_value_partial _ _ ?_ ?_ ?_).2 ⟨rfl, by simp [Spec.SameAtom]⟩ <;> simp [Spec.Plain, Spec.Comparable]

/-! ### `check_assertions` -/

/-- **C164 (partial).** With lengths other than zero `check_assertions` passes exactly if the value has the type and length asked for and
every element has the type and length asked for. -/
theorem C164_assertions_partial (o : Obj) (els : List Obj) (tt et : Option String) (tl el : Option ℕ) (h1 : tl ≠ some 0) (h2 : el ≠ some 0) :
    checkAssertions o els tt tl et el = true ↔
      (∀ t, tt = some t → t ∈ o.types) ∧ (∀ n, tl = some n → o.len = some n) ∧
        ∀ e ∈ els, (∀ t, et = some t → t ∈ e.types) ∧ ∀ n, el = some n → e.len = some n := by
  have ht : ∀ (o : Obj) (ty : Option String), typeOk o ty = true ↔ ∀ t, ty = some t → t ∈ o.types := by
    intro o ty
    cases ty <;> simp [typeOk]
  have hl : ∀ (o : Obj) (n : Option ℕ), n ≠ some 0 → (lenOk o n = true ↔ ∀ m, n = some m → o.len = some m) := by
    intro o n hn
    match n, hn with
    | none, _ => simp [lenOk]
    | some 0, hn => exact absurd rfl hn
    | some (n + 1), _ => simp [lenOk]
  unfold checkAssertions
  rw [Bool.and_eq_true, Bool.and_eq_true, ht, hl o tl h1, and_assoc]
  refine and_congr_right fun _ => and_congr_right fun _ => ?_
  split
  · rw [List.all_eq_true]
    refine forall₂_congr fun e _ => ?_
    rw [Bool.and_eq_true, ht, hl e el h2]
  · rename_i hn
    simp only [Bool.or_eq_true, not_or, Option.not_isSome_iff_eq_none] at hn
    simp [hn.1, hn.2]

/-- **C164 is false for length zero**: asking for an empty value checks nothing. -/
theorem C164_assertions_wrong (o : Obj) (els : List Obj) : checkAssertions o els none (some 0) none (some 0) = true := by
  simp [checkAssertions, typeOk, lenOk]

example : checkAssertions ⟨["list"], some 2⟩ [⟨["int"], none⟩, ⟨["int"], none⟩] (some "list") (some 2) (some "int") none = true := by decide

end Verif.Cmp
