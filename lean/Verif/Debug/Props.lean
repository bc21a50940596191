import Verif.Debug.Model
import Mathlib.Order.Bounds.Basic
import Mathlib.Tactic.Linarith
import Mathlib.Tactic.FieldSimp
/-!
# The debug properties (C166)
-/
namespace Verif.Debug

namespace Spec

/-- What a record says about a profile: its largest and its smallest value, its last three values (the surface) and its first
three values (the centre), or all of them if there are fewer. -/
def Describes (r : Record) (a : List ℝ) : Prop :=
  IsGreatest {x | x ∈ a} r.max ∧ IsLeast {x | x ∈ a} r.min ∧
    (r.surface <:+ a ∧ r.surface.length = min 3 a.length) ∧ (r.core <+: a ∧ r.core.length = min 3 a.length)

end Spec

/-! ### One record -/

theorem foldl_max_spec (t : List ℝ) (x : ℝ) : IsGreatest {y | y ∈ x :: t} (t.foldl max x) := by
  induction t generalizing x with
  | nil => simp [IsGreatest, upperBounds]
  | cons b t ih =>
    obtain ⟨h1, h2⟩ := ih (max x b)
    simp only [List.foldl_cons]
    refine ⟨?_, ?_⟩
    · simp only [Set.mem_setOf_eq, List.mem_cons] at h1 ⊢
      rcases h1 with h1 | h1
      · rcases max_choice x b with h | h <;> rw [h] at h1 ⊢
        · exact Or.inl h1
        · exact Or.inr (Or.inl h1)
      · exact Or.inr (Or.inr h1)
    · intro y hy
      have h0 : max x b ≤ t.foldl max (max x b) := h2 (by simp)
      simp only [Set.mem_setOf_eq, List.mem_cons] at hy
      rcases hy with rfl | rfl | hy
      · exact le_trans (le_max_left _ _) h0
      · exact le_trans (le_max_right _ _) h0
      · exact h2 (by simp [hy])

theorem foldl_min_spec (t : List ℝ) (x : ℝ) : IsLeast {y | y ∈ x :: t} (t.foldl min x) := by
  induction t generalizing x with
  | nil => simp [IsLeast, lowerBounds]
  | cons b t ih =>
    obtain ⟨h1, h2⟩ := ih (min x b)
    simp only [List.foldl_cons]
    refine ⟨?_, ?_⟩
    · simp only [Set.mem_setOf_eq, List.mem_cons] at h1 ⊢
      rcases h1 with h1 | h1
      · rcases min_choice x b with h | h <;> rw [h] at h1 ⊢
        · exact Or.inl h1
        · exact Or.inr (Or.inl h1)
      · exact Or.inr (Or.inr h1)
    · intro y hy
      have h0 : t.foldl min (min x b) ≤ min x b := h2 (by simp)
      simp only [Set.mem_setOf_eq, List.mem_cons] at hy
      rcases hy with rfl | rfl | hy
      · exact le_trans h0 (min_le_left _ _)
      · exact le_trans h0 (min_le_right _ _)
      · exact h2 (by simp [hy])

theorem describe_spec {a : List ℝ} {r : Record} (h : describe a = some r) : Spec.Describes r a := by
  cases a with
  | nil => simp [describe] at h
  | cons x t =>
    simp only [describe, Option.some.injEq] at h
    subst h
    refine ⟨foldl_max_spec t x, foldl_min_spec t x, ⟨List.drop_suffix _ _, ?_⟩, List.take_prefix _ _, ?_⟩
    · simp only [List.length_drop]; omega
    · simp only [List.length_take]

theorem describe_ok {a : List ℝ} (h : a ≠ []) : ∃ r, describe a = some r := by
  cases a with
  | nil => exact absurd rfl h
  | cons x t => exact ⟨_, rfl⟩

theorem set_same (s : Attrs) (k : String) (v : Val) : set s k v k = some v := by simp [set]
theorem set_other (s : Attrs) (k k' : String) (v : Val) (h : k' ≠ k) : set s k v k' = s k' := by simp [set, h]

/-- **C166.** A debug record of a profile holds its largest and its smallest value and its three outermost and innermost values,
under the name of the profile with the suffix for the kind of record, and nothing else is changed; an attribute that does not
exist gets the record `None`; one that is not an array gets none; an empty array ends the run. -/
theorem C166_record (name : String) (normed poly : Bool) (s : Attrs) :
    (∀ a, s name = some (.arr a) → a ≠ [] → ∃ s' r, add name normed poly s = some s' ∧
      s' (name ++ suffix normed poly) = some (.record r) ∧ Spec.Describes r a ∧
      ∀ k, k ≠ name ++ suffix normed poly → s' k = s k) ∧
    (s name = some (.arr []) → add name normed poly s = none) ∧
    (s name = none → ∃ s', add name normed poly s = some s' ∧ s' (name ++ suffix normed poly) = some .null ∧
      ∀ k, k ≠ name ++ suffix normed poly → s' k = s k) ∧
    (∀ v, s name = some v → (∀ a, v ≠ .arr a) → add name normed poly s = some s) := by
  refine ⟨?_, ?_, ?_, ?_⟩
  · intro a h hne
    obtain ⟨r, hr⟩ := describe_ok hne
    refine ⟨set s (recordName name normed poly) (.record r), r, ?_, set_same _ _ _, describe_spec hr, ?_⟩
    · simp [add, h, hr]
    · intro k hk; exact set_other _ _ _ _ hk
  · intro h; simp [add, h, describe]
  · intro h
    refine ⟨set s (recordName name normed poly) .null, by simp [add, h], set_same _ _ _, ?_⟩
    intro k hk; exact set_other _ _ _ _ hk
  · intro v h hv
    cases v <;> simp_all [add]

/-! ### Names -/

theorem append_right_cancel_last (a b : List Char) (u v : List Char) (n : ℕ) (hu : n ≤ u.length) (hv : n ≤ v.length)
    (hne : u.drop (u.length - n) ≠ v.drop (v.length - n)) : a ++ u ≠ b ++ v := by
  intro h
  apply hne
  have h1 : (a ++ u).drop ((a ++ u).length - n) = u.drop (u.length - n) := by
    rw [List.drop_append]
    have : (a ++ u).length - n - a.length = u.length - n := by simp; omega
    rw [this, List.drop_eq_nil_of_le (by simp; omega), List.nil_append]
  have h2 : (b ++ v).drop ((b ++ v).length - n) = v.drop (v.length - n) := by
    rw [List.drop_append]
    have : (b ++ v).length - n - b.length = v.length - n := by simp; omega
    rw [this, List.drop_eq_nil_of_le (by simp; omega), List.nil_append]
  rw [← h1, ← h2, h]

/-- **C166.** Records of different attributes, or of different kinds, have different names. -/
theorem C166_names (a b : String) (n p n' p' : Bool) (h : a ++ suffix n p = b ++ suffix n' p') : a = b ∧ n = n' ∧ p = p' := by
  have hl : a.toList ++ (suffix n p).toList = b.toList ++ (suffix n' p').toList := by
    simpa [String.toList_append] using congrArg String.toList h
  by_cases hs : n = n' ∧ p = p'
  · obtain ⟨rfl, rfl⟩ := hs
    exact ⟨String.toList_injective (List.append_cancel_right hl), rfl, rfl⟩
  · exfalso
    revert hl
    refine append_right_cancel_last _ _ _ _ 6 ?_ ?_ ?_
    · cases n <;> cases p <;> decide
    · cases n' <;> cases p' <;> decide
    · revert hs; cases n <;> cases p <;> cases n' <;> cases p' <;> decide

/-! ### Sequences of records -/

theorem adds_spec (cs : List (String × Bool × Bool)) (s s' : Attrs) (h : adds cs s = some s') (hnd : cs.Nodup)
    (hq : ∀ c ∈ cs, ∀ d ∈ cs, c.1 ≠ recordName d.1 d.2.1 d.2.2) :
    (∀ k, (∀ c ∈ cs, k ≠ recordName c.1 c.2.1 c.2.2) → s' k = s k) ∧
    ∀ c ∈ cs, (∀ a, s c.1 = some (.arr a) → ∃ r, describe a = some r ∧
      s' (recordName c.1 c.2.1 c.2.2) = some (.record r)) ∧
      (s c.1 = none → s' (recordName c.1 c.2.1 c.2.2) = some .null) ∧
      (∀ v, s c.1 = some v → (∀ a, v ≠ .arr a) → s' (recordName c.1 c.2.1 c.2.2) = s (recordName c.1 c.2.1 c.2.2)) := by
  induction cs generalizing s with
  | nil => simp only [adds, List.foldlM_nil, Option.pure_def, Option.some.injEq] at h; subst h; simp
  | cons c cs ih =>
    obtain ⟨n, b, p⟩ := c
    simp only [adds, List.foldlM_cons, Option.bind_eq_bind] at h
    obtain ⟨s1, h1, h2⟩ := Option.bind_eq_some_iff.1 h
    have hnd' := List.nodup_cons.1 hnd
    obtain ⟨i1, i2⟩ := ih s1 h2 hnd'.2 (fun c hc d hd => hq c (by simp [hc]) d (by simp [hd]))
    have hkeep : ∀ k, k ≠ recordName n b p → s1 k = s k := by
      intro k hk
      unfold add at h1
      revert h1
      cases hs : s n with
      | none => intro h1; simp only [Option.some.injEq] at h1; subst h1; exact set_other _ _ _ _ hk
      | some v =>
        cases v with
        | arr a =>
          intro h1
          obtain ⟨r, _, rfl⟩ := Option.map_eq_some_iff.1 h1
          exact set_other _ _ _ _ hk
        | _ => intro h1; simp only [Option.some.injEq] at h1; subst h1; rfl
    have hdist : ∀ d ∈ cs, recordName n b p ≠ recordName d.1 d.2.1 d.2.2 := by
      intro d hd he
      obtain ⟨e1, e2, e3⟩ := C166_names _ _ _ _ _ _ he
      apply hnd'.1
      have : (n, b, p) = d := by rw [e1, e2, e3]
      rw [this]; exact hd
    refine ⟨?_, ?_⟩
    · intro k hk
      rw [i1 k (fun c hc => hk c (by simp [hc])), hkeep k (hk (n, b, p) (by simp))]
    · intro c hc
      rcases List.mem_cons.1 hc with rfl | hc
      · have hthis : s' (recordName n b p) = s1 (recordName n b p) := i1 _ hdist
        refine ⟨?_, ?_, ?_⟩
        · intro a ha
          simp only at ha
          rw [add, ha] at h1
          obtain ⟨r, hr, rfl⟩ := Option.map_eq_some_iff.1 h1
          exact ⟨r, hr, by rw [hthis, set_same]⟩
        · intro ha
          simp only at ha
          rw [add, ha] at h1
          simp only [Option.some.injEq] at h1
          subst h1
          rw [hthis, set_same]
        · intro v hv hna
          simp only at hv
          rw [add, hv] at h1
          rw [hthis]
          cases v with
          | arr a => exact absurd rfl (hna a)
          | _ => simp only [Option.some.injEq] at h1; subst h1; rfl
      · obtain ⟨j1, j2, j3⟩ := i2 c hc
        have e1 : s1 c.1 = s c.1 := hkeep _ (hq c (by simp [hc]) (n, b, p) (by simp))
        have e2 : s1 (recordName c.1 c.2.1 c.2.2) = s (recordName c.1 c.2.1 c.2.2) :=
          hkeep _ (fun e => hdist c hc e.symm)
        rw [e1] at j1 j2 j3
        rw [e2] at j3
        exact ⟨j1, j2, j3⟩

theorem adds_ok (cs : List (String × Bool × Bool)) (s : Attrs)
    (hq : ∀ c ∈ cs, ∀ d ∈ cs, c.1 ≠ recordName d.1 d.2.1 d.2.2) (hne : ∀ c ∈ cs, s c.1 ≠ some (.arr [])) :
    ∃ s', adds cs s = some s' := by
  induction cs generalizing s with
  | nil => exact ⟨s, rfl⟩
  | cons c cs ih =>
    obtain ⟨n, b, p⟩ := c
    have hn := hne (n, b, p) (by simp)
    have : ∃ s1, add n b p s = some s1 ∧ ∀ k, k ≠ recordName n b p → s1 k = s k := by
      unfold add
      cases hs : s n with
      | none => exact ⟨_, rfl, fun k hk => set_other _ _ _ _ hk⟩
      | some v =>
        cases v with
        | arr a =>
          obtain ⟨r, hr⟩ := describe_ok (a := a) (fun e => hn (by rw [hs, e]))
          exact ⟨set s (recordName n b p) (.record r), by simp [hr], fun k hk => set_other _ _ _ _ hk⟩
        | _ => exact ⟨s, rfl, fun _ _ => rfl⟩
    obtain ⟨s1, h1, hk⟩ := this
    obtain ⟨s', h'⟩ := ih s1 (fun c hc d hd => hq c (by simp [hc]) d (by simp [hd])) (by
      intro c hc
      rw [hk _ (hq c (by simp [hc]) (n, b, p) (by simp))]
      exact hne c (by simp [hc]))
    refine ⟨s', ?_⟩
    simp only [adds, List.foldlM_cons, Option.bind_eq_bind, h1]
    exact h'

theorem fill_spec (ks : List String) (s : Attrs) :
    (∀ k v, s k = some v → fill ks s k = some v) ∧ (∀ k, s k = none → k ∈ ks → fill ks s k = some .null) ∧
    (∀ k, s k = none → k ∉ ks → fill ks s k = none) := by
  induction ks generalizing s with
  | nil => simp [fill]
  | cons x ks ih =>
    cases hx : s x with
    | some v =>
      have e : fill (x :: ks) s = fill ks s := by simp only [fill, List.foldl_cons, hx]
      rw [e]
      obtain ⟨i1, i2, i3⟩ := ih s
      refine ⟨i1, ?_, ?_⟩
      · intro k hk hm
        rcases List.mem_cons.1 hm with rfl | hm
        · rw [hx] at hk; simp at hk
        · exact i2 k hk hm
      · intro k hk hm; exact i3 k hk (fun h => hm (by simp [h]))
    | none =>
      have e : fill (x :: ks) s = fill ks (set s x .null) := by simp only [fill, List.foldl_cons, hx]
      rw [e]
      obtain ⟨i1, i2, i3⟩ := ih (set s x .null)
      refine ⟨?_, ?_, ?_⟩
      · intro k v hk
        refine i1 k v ?_
        rw [set_other _ _ _ _ (fun h => by rw [h, hx] at hk; simp at hk), hk]
      · intro k hk hm
        by_cases h : k = x
        · subst h; exact i1 _ _ (set_same _ _ _)
        · rcases List.mem_cons.1 hm with h' | hm
          · exact absurd h' h
          · exact i2 k (by rw [set_other _ _ _ _ h, hk]) hm
      · intro k hk hm
        have h : k ≠ x := fun h => hm (by simp [h])
        exact i3 k (by rw [set_other _ _ _ _ h, hk]) (fun h' => hm (by simp [h']))

/-! ### The profiles -/

theorem calls_nodup (k : Kind) : (calls k).Nodup := by cases k <;> decide
theorem calls_names (k : Kind) : ∀ c ∈ calls k, ∀ d ∈ calls k, c.1 ≠ recordName d.1 d.2.1 d.2.2 := by
  cases k <;> decide +kernel

/-- **C166.** For every kind of model: if no profile is empty, the debug records are made, one for each profile, with its extremes
and its ends; every name of the list of debug properties has a value afterwards; everything else is as it was. -/
theorem C166_profiles (k : Kind) (s : Attrs) (hne : ∀ c ∈ calls k, s c.1 ≠ some (.arr [])) :
    ∃ s', profileDebug k s = some s' ∧
      (∀ c ∈ calls k, ∀ a, s c.1 = some (.arr a) →
        ∃ r, s' (c.1 ++ suffix c.2.1 c.2.2) = some (.record r) ∧ Spec.Describes r a) ∧
      (∀ n ∈ structureList, s' n ≠ none) ∧
      (∀ n, (∀ c ∈ calls k, n ≠ c.1 ++ suffix c.2.1 c.2.2) → (n ∈ structureList → s n ≠ none) → s' n = s n) := by
  obtain ⟨s1, h1⟩ := adds_ok (calls k) s (calls_names k) hne
  obtain ⟨a1, a2⟩ := adds_spec (calls k) s s1 h1 (calls_nodup k) (calls_names k)
  obtain ⟨f1, f2, f3⟩ := fill_spec structureList s1
  refine ⟨fill structureList s1, by simp [profileDebug, h1], ?_, ?_, ?_⟩
  · intro c hc a ha
    obtain ⟨r, hr, hs⟩ := (a2 c hc).1 a ha
    exact ⟨r, f1 _ _ hs, describe_spec hr⟩
  · intro n hn
    cases hs : s1 n with
    | none => rw [f2 n hs hn]; simp
    | some v => rw [f1 n v hs]; simp
  · intro n hn hl
    have e := a1 n hn
    cases hs : s1 n with
    | none =>
      rw [← e, hs]
      exact f3 n hs (fun h => hl h (by rw [← e, hs]))
    | some v => rw [f1 n v hs, ← e, hs]

namespace Spec
/-- The attributes with the structure profiles of a kind of model that are normalised: density and pressure with their derivatives. -/
def scaled : Kind → List String
  | .mesa => ["_rho", "_drho", "_drho2", "_drho3", "_P", "_dP", "_dP2", "_dP3"]
  | _ => ["_rho_profile", "_drho", "_drho2", "_drho3", "_p_profile", "_dP", "_dP2", "_dP3"]
/-- The derivatives of the gravitational potential, which are not normalised. -/
def potential : List String := ["_dgravpot", "_dgravpot2", "_dgravpot3"]
/-- Only the analytic polytropes have the suffix of polytropes. -/
def ending : Kind → String
  | .analytic => "_poly"
  | _ => ""
end Spec

/-- **C166.** Density, pressure, their three derivatives and the three derivatives of the potential each have a plain record with
their extremes and ends when they are non-empty arrays; the first eight also have a record called "normed". -/
theorem C166_complete (k : Kind) (s s' : Attrs) (h : profileDebug k s = some s') :
    (∀ q ∈ Spec.scaled k ++ Spec.potential, ∀ a, s q = some (.arr a) →
      ∃ r, s' (q ++ "_max_min" ++ Spec.ending k) = some (.record r) ∧ Spec.Describes r a) ∧
    (∀ q ∈ Spec.scaled k, ∀ a, s q = some (.arr a) → ∃ r, s' (q ++ "_max_min_normed" ++ Spec.ending k) = some (.record r)) := by
  obtain ⟨s1, h1, rfl⟩ := Option.map_eq_some_iff.1 h
  obtain ⟨_, a2⟩ := adds_spec (calls k) s s1 h1 (calls_nodup k) (calls_names k)
  have e1 : ∀ q : String, q ++ "_max_min" ++ Spec.ending k = q ++ suffix false (decide (k = .analytic)) := by
    intro q; rw [String.append_assoc]; congr 1; cases k <;> decide
  have e2 : ∀ q : String, q ++ "_max_min_normed" ++ Spec.ending k = q ++ suffix true (decide (k = .analytic)) := by
    intro q; rw [String.append_assoc]; congr 1; cases k <;> decide
  have m1 : ∀ q ∈ Spec.scaled k ++ Spec.potential, (q, false, decide (k = .analytic)) ∈ calls k := by cases k <;> decide
  have m2 : ∀ q ∈ Spec.scaled k, (q, true, decide (k = .analytic)) ∈ calls k := by cases k <;> decide
  refine ⟨?_, ?_⟩
  · intro q hq a ha
    obtain ⟨r, hr, hs⟩ := (a2 _ (m1 q hq)).1 a ha
    exact ⟨r, by rw [e1]; exact (fill_spec structureList s1).1 _ _ hs, describe_spec hr⟩
  · intro q hq a ha
    obtain ⟨r, hr, hs⟩ := (a2 _ (m2 q hq)).1 a ha
    exact ⟨r, by rw [e2]; exact (fill_spec structureList s1).1 _ _ hs⟩

/-- **C166.** The list of debug properties has the pressure, the density, their three derivatives and the three derivatives of the
potential, each with all four endings: all these names have a value afterwards. -/
theorem C166_listed (k : Kind) (s s' : Attrs) (h : profileDebug k s = some s') (q : String)
    (hq : q ∈ ["_P", "_dP", "_dP2", "_dP3", "_rho", "_drho", "_drho2", "_drho3"] ++ Spec.potential)
    (e : String) (he : e ∈ ["_max_min", "_max_min_normed", "_max_min_poly", "_max_min_normed_poly"]) : s' (q ++ e) ≠ none := by
  obtain ⟨s1, h1, rfl⟩ := Option.map_eq_some_iff.1 h
  have hm : q ++ e ∈ structureList := by
    revert e
    revert q
    decide +kernel
  cases hs : s1 (q ++ e) with
  | none => rw [(fill_spec structureList s1).2.1 _ hs hm]; exact fun h => nomatch h
  | some v => rw [(fill_spec structureList s1).1 _ v hs]; exact fun h => nomatch h

/-- **C166, refuted half.** The record that is called "normed" is the record of the profile without the normalisation: for every
kind of model, every profile with a value that is not zero and every normalisation factor other than one, what is stored
under the name for the normalised profile does not describe the profile divided by the factor. -/
theorem C166_normed_wrong (k : Kind) (s s' : Attrs) (h : profileDebug k s = some s') (n : String) (p : Bool)
    (hc : (n, true, p) ∈ calls k) (a : List ℝ) (ha : s n = some (.arr a)) (hx : ∃ x ∈ a, x ≠ 0) (N : ℝ) (hN : 0 < N)
    (hN1 : N ≠ 1) :
    ∃ r, s' (n ++ suffix true p) = some (.record r) ∧ Spec.Describes r a ∧ ¬ Spec.Describes r (a.map (· / N)) := by
  obtain ⟨s1, h1, rfl⟩ := Option.map_eq_some_iff.1 h
  obtain ⟨_, a2⟩ := adds_spec (calls k) s s1 h1 (calls_nodup k) (calls_names k)
  obtain ⟨r, hr, hs⟩ := (a2 _ hc).1 a ha
  refine ⟨r, (fill_spec structureList s1).1 _ _ hs, describe_spec hr, ?_⟩
  intro hd
  obtain ⟨⟨m1, m2⟩, ⟨l1, l2⟩, _⟩ := describe_spec hr
  obtain ⟨⟨m3, m4⟩, ⟨l3, l4⟩, _⟩ := hd
  simp only [Set.mem_setOf_eq] at m1 l1 m3 l3
  have key : ∀ m : ℝ, m = m / N → m = 0 := by
    intro m hm
    by_contra h0
    apply hN1
    have h2 : m * N = m * 1 := by
      rw [mul_one]; nth_rewrite 1 [hm]; exact div_mul_cancel₀ m hN.ne'
    exact mul_left_cancel₀ h0 h2
  have hmax : r.max = r.max / N := by
    apply le_antisymm
    · obtain ⟨y, hy, e⟩ := List.mem_map.1 m3
      rw [← e]
      have : y ≤ r.max := m2 hy
      have h2 : y / N ≤ r.max / N := div_le_div_of_nonneg_right this hN.le
      rw [e] at h2 ⊢; exact h2
    · exact m4 (List.mem_map.2 ⟨_, m1, rfl⟩)
  have hmin : r.min = r.min / N := by
    apply le_antisymm
    · exact l4 (List.mem_map.2 ⟨_, l1, rfl⟩)
    · obtain ⟨y, hy, e⟩ := List.mem_map.1 l3
      rw [← e]
      have : r.min ≤ y := l2 hy
      have h2 : r.min / N ≤ y / N := div_le_div_of_nonneg_right this hN.le
      rw [e] at h2 ⊢; exact h2
  obtain ⟨x, hxa, hx0⟩ := hx
  have u1 : x ≤ r.max := m2 hxa
  have u2 : r.min ≤ x := l2 hxa
  rw [key _ hmax] at u1
  rw [key _ hmin] at u2
  exact hx0 (le_antisymm u1 u2)

/-- **C166, refuted half.** For polytropes the pressure and the density are recorded under the names of the attributes that hold
them, while the list of debug properties has them as "P" and "rho": all eight properties of that list are `None`. -/
theorem C166_polytrope_wrong (k : Kind) (hk : k ≠ .mesa) (s s' : Attrs) (h : profileDebug k s = some s') (q : String)
    (hq : q ∈ ["_P", "_rho"]) (normed poly : Bool) (h0 : s (q ++ suffix normed poly) = none) :
    q ++ suffix normed poly ∈ structureList ∧ s' (q ++ suffix normed poly) = some .null := by
  obtain ⟨s1, h1, rfl⟩ := Option.map_eq_some_iff.1 h
  obtain ⟨a1, _⟩ := adds_spec (calls k) s s1 h1 (calls_nodup k) (calls_names k)
  have hm : q ++ suffix normed poly ∈ structureList := by
    simp only [List.mem_cons, List.not_mem_nil, or_false] at hq
    rcases hq with rfl | rfl <;> cases normed <;> cases poly <;> decide +kernel
  refine ⟨hm, (fill_spec structureList s1).2.1 _ ?_ hm⟩
  rw [a1 _ ?_, h0]
  intro c hc he
  obtain ⟨e, _, _⟩ := C166_names _ _ _ _ _ _ he
  subst e
  simp only [List.mem_cons, List.not_mem_nil, or_false] at hq
  cases k with
  | mesa => exact hk rfl
  | polytrope =>
    have : ∀ c ∈ polytropeCalls, c.1 ≠ "_P" ∧ c.1 ≠ "_rho" := by decide
    rcases hq with e | e
    · exact (this c hc).1 e
    · exact (this c hc).2 e
  | analytic =>
    have : ∀ c ∈ analyticCalls, c.1 ≠ "_P" ∧ c.1 ≠ "_rho" := by decide
    rcases hq with e | e
    · exact (this c hc).1 e
    · exact (this c hc).2 e

/-! ### The Hough functions -/

theorem mode_inj : ∀ b ∈ functionNames, ∀ b' ∈ functionNames, ∀ i ∈ [1, 2, 3], ∀ j ∈ [1, 2, 3],
    modeName b i = modeName b' j → b = b' ∧ i = j := by decide +kernel

theorem mode_not_record (b b' : String) (i j : ℕ) (hi : i ∈ [1, 2, 3]) (n p : Bool) :
    modeName b i ≠ modeName b' j ++ suffix n p := by
  intro h
  have hl : ("_" ++ b ++ "_mode_").toList ++ (toString i).toList = (modeName b' j).toList ++ (suffix n p).toList := by
    simpa [String.toList_append, modeName] using congrArg String.toList h
  revert hl
  simp only [List.mem_cons, List.not_mem_nil, or_false] at hi
  refine append_right_cancel_last _ _ _ _ 1 ?_ ?_ ?_
  · rcases hi with rfl | rfl | rfl <;> decide
  · cases n <;> cases p <;> decide
  · rcases hi with rfl | rfl | rfl <;> cases n <;> cases p <;> decide

theorem storeHoughs_spec (i : ℕ) (hi : i ∈ [1, 2, 3]) (H : String → List ℝ) (bs : List String) (hnd : bs.Nodup)
    (hsub : ∀ b ∈ bs, b ∈ functionNames) (hH : ∀ b ∈ bs, H b ≠ []) (s : Attrs) :
    ∃ s', (bs.map fun b => (b, H b)).foldlM (storeHough i) s = some s' ∧
      (∀ b ∈ bs, s' (modeName b i) = some (.arr (H b)) ∧
        ∃ r, s' (modeName b i ++ suffix false false) = some (.record r) ∧ Spec.Describes r (H b)) ∧
      ∀ k, (∀ b ∈ bs, k ≠ modeName b i ∧ k ≠ modeName b i ++ suffix false false) → s' k = s k := by
  induction bs generalizing s with
  | nil => exact ⟨s, rfl, by simp, by simp⟩
  | cons x bs ih =>
    have hnd' := List.nodup_cons.1 hnd
    obtain ⟨s1, r, e1, e2, e3, e4⟩ := (C166_record (modeName x i) false false (set s (modeName x i) (.arr (H x)))).1 (H x)
      (set_same _ _ _) (hH x (by simp))
    obtain ⟨s', f1, f2, f3⟩ := ih hnd'.2 (fun b hb => hsub b (by simp [hb])) (fun b hb => hH b (by simp [hb])) s1
    have hx : ∀ b ∈ bs, modeName x i ≠ modeName b i := by
      intro b hb he
      have := (mode_inj x (hsub x (by simp)) b (hsub b (by simp [hb])) i hi i hi he).1
      exact hnd'.1 (this ▸ hb)
    refine ⟨s', ?_, ?_, ?_⟩
    · simp only [List.map_cons, List.foldlM_cons, Option.bind_eq_bind, storeHough, e1]
      exact f1
    · intro b hb
      rcases List.mem_cons.1 hb with rfl | hb
      · refine ⟨?_, r, ?_, e3⟩
        · rw [f3 _ (fun b' hb' => ⟨hx b' hb', mode_not_record _ _ _ _ hi _ _⟩), e4 _ (mode_not_record _ _ _ _ hi _ _), set_same]
        · rw [f3 _ (fun b' hb' => ⟨fun h => mode_not_record _ _ _ _ hi _ _ h.symm, fun h => hx b' hb' (C166_names _ _ _ _ _ _ h).1⟩), e2]
      · exact f2 b hb
    · intro k hk
      rw [f3 k (fun b hb => hk b (by simp [hb])), e4 k (hk x (by simp)).2, set_other _ _ _ _ (hk x (by simp)).1]

theorem normHoughs_spec (i : ℕ) (hi : i ∈ [1, 2, 3]) (c : ℝ) (A : String → List ℝ) (bs : List String) (hnd : bs.Nodup)
    (hsub : ∀ b ∈ bs, b ∈ functionNames) (hA : ∀ b ∈ bs, A b ≠ []) (s : Attrs)
    (hs : ∀ b ∈ bs, s (modeName b i) = some (.arr (A b))) :
    ∃ s', bs.foldlM (normHough i c) s = some s' ∧
      (∀ b ∈ bs, s' (modeName b i) = some (.arr ((A b).map (· * c))) ∧
        ∃ r, s' (modeName b i ++ suffix true false) = some (.record r) ∧ Spec.Describes r ((A b).map (· * c))) ∧
      ∀ k, (∀ b ∈ bs, k ≠ modeName b i ∧ k ≠ modeName b i ++ suffix true false) → s' k = s k := by
  induction bs generalizing s with
  | nil => exact ⟨s, rfl, by simp, by simp⟩
  | cons x bs ih =>
    have hnd' := List.nodup_cons.1 hnd
    obtain ⟨s1, r, e1, e2, e3, e4⟩ := (C166_record (modeName x i) true false
      (set s (modeName x i) (.arr ((A x).map (· * c))))).1 ((A x).map (· * c))
      (set_same _ _ _) (by simpa using hA x (by simp))
    have hx : ∀ b ∈ bs, modeName x i ≠ modeName b i := by
      intro b hb he
      have := (mode_inj x (hsub x (by simp)) b (hsub b (by simp [hb])) i hi i hi he).1
      exact hnd'.1 (this ▸ hb)
    obtain ⟨s', f1, f2, f3⟩ := ih hnd'.2 (fun b hb => hsub b (by simp [hb])) (fun b hb => hA b (by simp [hb])) s1 (by
      intro b hb
      rw [e4 _ (mode_not_record _ _ _ _ hi _ _), set_other _ _ _ _ (hx b hb).symm, hs b (by simp [hb])])
    refine ⟨s', ?_, ?_, ?_⟩
    · simp only [List.foldlM_cons, Option.bind_eq_bind, normHough, hs x (by simp), e1]
      exact f1
    · intro b hb
      rcases List.mem_cons.1 hb with rfl | hb
      · refine ⟨?_, r, ?_, e3⟩
        · rw [f3 _ (fun b' hb' => ⟨hx b' hb', mode_not_record _ _ _ _ hi _ _⟩), e4 _ (mode_not_record _ _ _ _ hi _ _), set_same]
        · rw [f3 _ (fun b' hb' => ⟨fun h => mode_not_record _ _ _ _ hi _ _ h.symm, fun h => hx b' hb' (C166_names _ _ _ _ _ _ h).1⟩), e2]
      · exact f2 b hb
    · intro k hk
      rw [f3 k (fun b hb => hk b (by simp [hb])), e4 k (hk x (by simp)).2, set_other _ _ _ _ (hk x (by simp)).1]

theorem functionNames_nodup : functionNames.Nodup := by decide

/-- **C166.** For the Hough functions of the three modes the two kinds of records are right: the plain record describes the function
as it was computed, the "normed" record the function multiplied with the normalisation factor of its mode, which is the
function that is used from there on; each name on the list of debug properties of a mode has such a record. -/
theorem C166_houghs_partial (H : ℕ → String → List ℝ) (c : ℕ → ℝ) (s : Attrs)
    (hH : ∀ i ∈ [1, 2, 3], ∀ b ∈ functionNames, H i b ≠ []) :
    ∃ s', houghDebug H c s = some s' ∧ ∀ i ∈ [1, 2, 3], ∀ b ∈ angularNames,
      s' ("_" ++ b ++ "_mode_" ++ toString i) = some (.arr ((H i b).map (· * c i))) ∧
      (∃ r, s' ("_" ++ b ++ "_mode_" ++ toString i ++ "_max_min") = some (.record r) ∧ Spec.Describes r (H i b)) ∧
      (∃ r, s' ("_" ++ b ++ "_mode_" ++ toString i ++ "_max_min_normed") = some (.record r) ∧
        Spec.Describes r ((H i b).map (· * c i))) := by
  have h1 : (1 : ℕ) ∈ [1, 2, 3] := by simp
  have h2 : (2 : ℕ) ∈ [1, 2, 3] := by simp
  have h3 : (3 : ℕ) ∈ [1, 2, 3] := by simp
  have hF := functionNames_nodup
  obtain ⟨s1, a1, b1, k1⟩ := storeHoughs_spec 1 h1 (H 1) functionNames hF (fun b hb => hb) (hH 1 h1) s
  obtain ⟨s2, a2, b2, k2⟩ := storeHoughs_spec 2 h2 (H 2) functionNames hF (fun b hb => hb) (hH 2 h2) s1
  obtain ⟨s3, a3, b3, k3⟩ := storeHoughs_spec 3 h3 (H 3) functionNames hF (fun b hb => hb) (hH 3 h3) s2
  -- names of another mode are not touched
  have other : ∀ (i j : ℕ), i ∈ [1, 2, 3] → j ∈ [1, 2, 3] → i ≠ j → ∀ b ∈ functionNames, ∀ n : Bool,
      ∀ b' ∈ functionNames, modeName b i ≠ modeName b' j ∧ modeName b i ≠ modeName b' j ++ suffix n false := by
    intro i j hi hj hij b hb n b' hb'
    exact ⟨fun h => hij (mode_inj b hb b' hb' i hi j hj h).2, mode_not_record _ _ _ _ hi _ _⟩
  have otherR : ∀ (i j : ℕ), i ∈ [1, 2, 3] → j ∈ [1, 2, 3] → ∀ b ∈ functionNames, ∀ m n : Bool, (i ≠ j ∨ m ≠ n) →
      ∀ b' ∈ functionNames, modeName b i ++ suffix m false ≠ modeName b' j ∧
        modeName b i ++ suffix m false ≠ modeName b' j ++ suffix n false := by
    intro i j hi hj b hb m n hij b' hb'
    refine ⟨fun h => mode_not_record _ _ _ _ hj _ _ h.symm, fun h => ?_⟩
    obtain ⟨e1, e2, _⟩ := C166_names _ _ _ _ _ _ h
    rcases hij with h | h
    · exact h (mode_inj b hb b' hb' i hi j hj e1).2
    · exact h e2
  have v3 : ∀ i ∈ [1, 2, 3], ∀ b ∈ functionNames, s3 (modeName b i) = some (.arr (H i b)) ∧
      ∃ r, s3 (modeName b i ++ suffix false false) = some (.record r) ∧ Spec.Describes r (H i b) := by
    intro i hi b hb
    have hi' := hi
    simp only [List.mem_cons, List.not_mem_nil, or_false] at hi'
    rcases hi' with rfl | rfl | rfl
    · rw [k3 _ (other 1 3 h1 h3 (by decide) b hb false), k3 _ (otherR 1 3 h1 h3 b hb false false (by decide)),
        k2 _ (other 1 2 h1 h2 (by decide) b hb false), k2 _ (otherR 1 2 h1 h2 b hb false false (by decide))]
      exact b1 b hb
    · rw [k3 _ (other 2 3 h2 h3 (by decide) b hb false), k3 _ (otherR 2 3 h2 h3 b hb false false (by decide))]
      exact b2 b hb
    · exact b3 b hb
  obtain ⟨s4, a4, b4, k4⟩ := normHoughs_spec 1 h1 (c 1) (H 1) functionNames hF (fun b hb => hb) (hH 1 h1) s3
    (fun b hb => (v3 1 h1 b hb).1)
  obtain ⟨s5, a5, b5, k5⟩ := normHoughs_spec 2 h2 (c 2) (H 2) functionNames hF (fun b hb => hb) (hH 2 h2) s4
    (fun b hb => by rw [k4 _ (other 2 1 h2 h1 (by decide) b hb true)]; exact (v3 2 h2 b hb).1)
  obtain ⟨s6, a6, b6, k6⟩ := normHoughs_spec 3 h3 (c 3) (H 3) functionNames hF (fun b hb => hb) (hH 3 h3) s5
    (fun b hb => by
      rw [k5 _ (other 3 2 h3 h2 (by decide) b hb true), k4 _ (other 3 1 h3 h1 (by decide) b hb true)]
      exact (v3 3 h3 b hb).1)
  have v6 : ∀ i ∈ [1, 2, 3], ∀ b ∈ functionNames, s6 (modeName b i) = some (.arr ((H i b).map (· * c i))) ∧
      (∃ r, s6 (modeName b i ++ suffix false false) = some (.record r) ∧ Spec.Describes r (H i b)) ∧
      ∃ r, s6 (modeName b i ++ suffix true false) = some (.record r) ∧ Spec.Describes r ((H i b).map (· * c i)) := by
    intro i hi b hb
    have hp : s6 (modeName b i ++ suffix false false) = s3 (modeName b i ++ suffix false false) := by
      rw [k6 _ (otherR i 3 hi h3 b hb false true (by simp)), k5 _ (otherR i 2 hi h2 b hb false true (by simp)),
        k4 _ (otherR i 1 hi h1 b hb false true (by simp))]
    rw [hp]
    refine ⟨?_, (v3 i hi b hb).2, ?_⟩
    all_goals
      have hi' := hi
      simp only [List.mem_cons, List.not_mem_nil, or_false] at hi'
      rcases hi' with rfl | rfl | rfl
    · rw [k6 _ (other 1 3 h1 h3 (by decide) b hb true), k5 _ (other 1 2 h1 h2 (by decide) b hb true)]
      exact (b4 b hb).1
    · rw [k6 _ (other 2 3 h2 h3 (by decide) b hb true)]; exact (b5 b hb).1
    · exact (b6 b hb).1
    · rw [k6 _ (otherR 1 3 h1 h3 b hb true true (by decide)), k5 _ (otherR 1 2 h1 h2 b hb true true (by decide))]
      exact (b4 b hb).2
    · rw [k6 _ (otherR 2 3 h2 h3 b hb true true (by decide))]; exact (b5 b hb).2
    · exact (b6 b hb).2
  refine ⟨fill (angularList 3) (fill (angularList 2) (fill (angularList 1) s6)), ?_, ?_⟩
  · simp only [houghDebug, storeHoughs, normHoughs, a1, a2, a3, a4, a5, a6, Option.bind_eq_bind, Option.bind_some,
      Option.pure_def]
  · intro i hi b hb
    have keep : ∀ k v, s6 k = some v → fill (angularList 3) (fill (angularList 2) (fill (angularList 1) s6)) k = some v :=
      fun k v h => (fill_spec _ _).1 _ _ ((fill_spec _ _).1 _ _ ((fill_spec _ _).1 _ _ h))
    have hb' : b ∈ functionNames := by revert b; decide
    obtain ⟨x1, ⟨r, x2, x3⟩, r', x4, x5⟩ := v6 i hi b hb'
    exact ⟨keep _ _ x1, ⟨r, keep _ _ x2, x3⟩, r', keep _ _ x4, x5⟩

/-! ### What is printed -/

theorem isIn_suffix (a : String) (n p : Bool) : isIn "max_min" (a ++ suffix n p) = true := by
  have h : "max_min".toList <:+: (suffix n p).toList := by
    cases n <;> cases p
    · exact ⟨['_'], [], by decide⟩
    · exact ⟨['_'], "_poly".toList, by decide⟩
    · exact ⟨['_'], "_normed".toList, by decide⟩
    · exact ⟨['_'], "_normed_poly".toList, by decide⟩
  simp only [isIn, decide_eq_true_eq, String.toList_append]
  exact h.trans (List.suffix_append _ _).isInfix

/-- **C166.** Every debug property is printed: all records of attributes without "_attr_list" in their names, as they are stored;
nothing is printed for names without "max_min", nor the list of names that the object keeps. -/
theorem C166_printed (s : Attrs) :
    (∀ a n p, ¬ "_attr_list".toList <:+: (a ++ suffix n p).toList → printed s (a ++ suffix n p) = s (a ++ suffix n p)) ∧
    (∀ k, ¬ "max_min".toList <:+: k.toList → printed s k = none) ∧ printed s "_attr_list_max_min" = none ∧
    (∀ k v, printed s k = some v → s k = some v) := by
  refine ⟨?_, ?_, ?_, ?_⟩
  · intro a n p h
    have h2 : isIn "_attr_list" (a ++ suffix n p) = false := by simpa [isIn] using h
    simp [printed, isIn_suffix, h2]
  · intro k h
    have h2 : isIn "max_min" k = false := by simpa [isIn] using h
    simp [printed, h2]
  · have h2 : isIn "_attr_list" "_attr_list_max_min" = true := by
      simp only [isIn, decide_eq_true_eq]; exact ⟨[], "_max_min".toList, by decide⟩
    simp [printed, h2]
  · intro k v h
    unfold printed at h
    split at h
    · exact h
    · simp at h

/-! ### A concrete case -/

/-- The profiles of a star with three points. -/
noncomputable def star : Attrs := fun k => if k ∈ (calls .mesa).map (·.1) then some (.arr [3, 1, 2]) else none

/-- All profiles of the example have values, and the factor of the normalisation is two: the record for the normalised density
gradient exists and is not its record. -/
example : ∃ s' r, profileDebug .mesa star = some s' ∧ s' "_drho_max_min_normed" = some (.record r) ∧
    ¬ Spec.Describes r ([3, 1, 2].map (· / 2)) := by
  have hs : ∀ c ∈ calls .mesa, star c.1 = some (.arr [3, 1, 2]) := by
    intro c hc
    have : c.1 ∈ (calls .mesa).map (·.1) := List.mem_map_of_mem hc
    simp only [star, this, if_true]
  obtain ⟨s', h, _⟩ := C166_profiles .mesa star (by intro c hc; rw [hs c hc]; simp)
  have hc : ("_drho", true, false) ∈ calls .mesa := by decide
  obtain ⟨r, h1, _, h2⟩ := C166_normed_wrong .mesa star s' h "_drho" false hc [3, 1, 2] (hs _ hc) ⟨3, by simp, by norm_num⟩ 2
    (by norm_num) (by norm_num)
  exact ⟨s', r, h, h1, h2⟩

example : ∃ s', houghDebug (fun i _ => [1, (i : ℝ), -1]) (fun _ => 2) (fun _ => none) = some s' := by
  obtain ⟨s', h, _⟩ := C166_houghs_partial (fun i _ => [1, (i : ℝ), -1]) (fun _ => 2) (fun _ => none) (by simp)
  exact ⟨s', h⟩

end Verif.Debug
