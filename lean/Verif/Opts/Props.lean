import Mathlib.Data.List.TakeWhile
import Verif.Opts.Model
import Verif.CommonLemmas
import Mathlib.Data.List.Basic
import Mathlib.Tactic.Tauto
/-!
# C42 (TOML empty tables), C43 (option lookup), C61 (finding the inlist)
-/
namespace Verif.Opts
open Verif.Inlist (Str contains)

/-- The value stored in a nested table under a path of keys. -/
inductive At : Tbl → List Str → Val → Prop
  | here {t k v} : find k t = some v → At t [k] v
  | deep {t k s p v} : find k t = some (.tbl s) → At s p v → At t (k :: p) v

/-- Some key of the path is missing in a table on the way. -/
inductive Missing : Tbl → List Str → Prop
  | here {t k p} : find k t = none → Missing t (k :: p)
  | deep {t k s p} : find k t = some (.tbl s) → Missing s p → Missing t (k :: p)

/-! ## C42 -/

theorem find_adjust (k : Str) (t : Tbl) : find k (adjust t) = (find k t).map adjV := by
  induction t with
  | nil => simp [find, adjust]
  | cons e es ih =>
    obtain ⟨k', v⟩ := e
    by_cases h : k' = k
    · simp [find, adjust, h]
    · have : (k' == k) = false := by simp [h]
      simpa [find, adjust, this] using ih

theorem adjV_tbl (t : Tbl) : adjV (.tbl t) = if t = [] then .none else .tbl (adjust t) := by
  cases t with
  | nil => simp [adjV]
  | cons e es => simp [adjV]

theorem at_nonempty {t : Tbl} {p : List Str} {v : Val} (h : At t p v) : t ≠ [] := by
  intro e
  subst e
  cases h with
  | here h => simp [find] at h
  | deep h _ => simp [find] at h

theorem at_adjust {t : Tbl} {p : List Str} {v : Val} (h : At t p v) : At (adjust t) p (adjV v) := by
  induction h with
  | here h => exact .here (by rw [find_adjust, h]; rfl)
  | deep h h' ih =>
    refine .deep (s := adjust _) ?_ ih
    rw [find_adjust, h, Option.map_some, adjV_tbl, if_neg (at_nonempty h')]

theorem adjV_eq_tbl {v : Val} {s : Tbl} (h : adjV v = .tbl s) : ∃ t, v = .tbl t ∧ t ≠ [] ∧ s = adjust t := by
  cases v with
  | tbl t =>
    rw [adjV_tbl] at h
    split_ifs at h with h0
    exact ⟨t, rfl, h0, by cases h; rfl⟩
  | _ => simp [adjV] at h

theorem at_adjust_inv {t' : Tbl} {p : List Str} {w : Val} (h : At t' p w) : ∀ t, t' = adjust t → ∃ v, At t p v ∧ w = adjV v := by
  induction h with
  | here h =>
    rintro t rfl
    rw [find_adjust] at h
    obtain ⟨v, hv, rfl⟩ := Option.map_eq_some_iff.1 h
    exact ⟨v, .here hv, rfl⟩
  | deep h h' ih =>
    rintro t rfl
    rw [find_adjust] at h
    obtain ⟨v, hv, h2⟩ := Option.map_eq_some_iff.1 h
    obtain ⟨u, rfl, _, rfl⟩ := adjV_eq_tbl h2
    obtain ⟨x, hx, rfl⟩ := ih _ rfl
    exact ⟨x, .deep hv hx, rfl⟩

/-- **C42.** Wherever the document has an empty table the adjusted document has `None`. -/
theorem C42_empty_table_none (doc : Tbl) (p : List Str) (h : At doc p (.tbl [])) : At (adjust doc) p .none := by
  simpa [adjV] using at_adjust h

/-- **C42.** No path of the adjusted document leads to an empty table. -/
theorem C42_no_empty_table_left_partial (doc : Tbl) (p : List Str) : ¬ At (adjust doc) p (.tbl []) := by
  intro h
  obtain ⟨v, _, hv⟩ := at_adjust_inv h _ rfl
  obtain ⟨t, _, ht, h2⟩ := adjV_eq_tbl hv.symm
  cases t with
  | nil => exact ht rfl
  | cons e es => simp [adjust] at h2

/-- **C42.** Everything else is unchanged: the same paths exist; a value that is no table is stored
under a path after the adjustment iff it was before (for `None`, iff `None` or an empty table was);
a non-empty table keeps its keys in order. -/
theorem C42_rest_unchanged (doc : Tbl) (p : List Str) :
    (∀ v, (∀ t, v ≠ .tbl t) → v ≠ .none → (At (adjust doc) p v ↔ At doc p v)) ∧
    (At (adjust doc) p .none ↔ At doc p .none ∨ At doc p (.tbl [])) ∧
    (∀ es, es ≠ [] → At doc p (.tbl es) → ∃ es', At (adjust doc) p (.tbl es') ∧ es'.map (·.1) = es.map (·.1)) ∧
    ((∃ v, At (adjust doc) p v) ↔ ∃ v, At doc p v) := by
  refine ⟨?_, ?_, ?_, ?_⟩
  · intro v hv hn
    have hid : adjV v = v := by
      cases v with
      | tbl t => exact absurd rfl (hv t)
      | _ => simp [adjV]
    constructor
    · intro h
      obtain ⟨w, hw, e⟩ := at_adjust_inv h _ rfl
      have : w = v := by
        cases w with
        | tbl t =>
          rw [adjV_tbl] at e
          split_ifs at e
          · exact absurd e hn
          · exact absurd e (hv _)
        | _ => simpa [adjV] using e.symm
      rwa [← this]
    · intro h
      have := at_adjust h
      rwa [hid] at this
  · constructor
    · intro h
      obtain ⟨w, hw, e⟩ := at_adjust_inv h _ rfl
      cases w with
      | tbl t =>
        rw [adjV_tbl] at e
        split_ifs at e with h0
        subst h0; exact Or.inr hw
      | none => exact Or.inl hw
      | _ => simp [adjV] at e
    · rintro (h | h) <;> simpa [adjV] using at_adjust h
  · intro es h0 h
    refine ⟨adjust es, ?_, ?_⟩
    · have := at_adjust h
      rwa [adjV_tbl, if_neg h0] at this
    · clear h h0
      induction es with
      | nil => rfl
      | cons e es ih => obtain ⟨k, v⟩ := e; simp [adjust, ih]
  · constructor
    · rintro ⟨v, h⟩
      obtain ⟨w, hw, _⟩ := at_adjust_inv h _ rfl
      exact ⟨w, hw⟩
    · rintro ⟨v, h⟩; exact ⟨_, at_adjust h⟩

mutual
theorem adjV_idem : ∀ v : Val, adjV (adjV v) = adjV v
  | .tbl [] => by simp [adjV]
  | .tbl ((k, v) :: es) => by
    have h1 := adjV_idem v
    have h2 := adjust_idem es
    simp [adjV, adjust, h1, h2]
  | .none => by simp [adjV]
  | .bool _ => by simp [adjV]
  | .num _ => by simp [adjV]
  | .str _ => by simp [adjV]
  | .arr _ => by simp [adjV]
theorem adjust_idem : ∀ t : List (Str × Val), adjust (adjust t) = adjust t
  | [] => by simp [adjust]
  | (k, v) :: es => by simp [adjust, adjV_idem v, adjust_idem es]
end

/-- **C42.** Adjusting twice is adjusting once. -/
theorem C42_idempotent (doc : Tbl) : adjust (adjust doc) = adjust doc := adjust_idem doc

/-- **C42, limits.** Empty tables inside arrays are not converted (they are not under a path of
keys), and an empty document stays the empty table. -/
theorem C42_array_elements_wrong (k : Str) :
    adjust [(k, .arr [.tbl []])] = [(k, .arr [.tbl []])] ∧ adjust [] = [] := by
  simp [adjust, adjV]

/-- Non-vacuity: `a.b = {}`, `a.c = 3`. -/
def exDoc : Tbl := [("a".toList, .tbl [("b".toList, .tbl []), ("c".toList, .num 3)]), ("d".toList, .arr [.tbl []])]
example : At exDoc ["a".toList, "b".toList] (.tbl []) := .deep rfl (.here rfl)
example : At exDoc ["a".toList, "c".toList] (.num 3) := .deep rfl (.here rfl)
example : At (adjust exDoc) ["a".toList, "b".toList] .none := C42_empty_table_none _ _ (.deep rfl (.here rfl))

/-! ## C43 -/

theorem getHa_at {t : Tbl} {p : List Str} {v : Val} (h : At t p v) : getHa (.tbl t) p = some v := by
  induction h with
  | here h => simp [getHa, h]
  | @deep t k s p v h h' ih =>
    have : p ≠ [] := by cases h' <;> simp
    simp [getHa, h, this, ih]

theorem getHa_missing {t : Tbl} {p : List Str} (h : Missing t p) : getHa (.tbl t) p = some .none := by
  induction h with
  | here h => simp [getHa, h]
  | @deep t k s p h h' ih =>
    have : p ≠ [] := by cases h' <;> simp
    simp [getHa, h, this, ih]

/-- A value that is no table stands on the way. -/
inductive Blocked : Tbl → List Str → Val → Prop
  | here {t k q p v} : find k t = some v → (∀ s, v ≠ .tbl s) → Blocked t (k :: q :: p) v
  | deep {t k s p v} : find k t = some (.tbl s) → Blocked s p v → Blocked t (k :: p) v

theorem trichotomy (t : Tbl) (p : List Str) (hp : p ≠ []) : (∃ v, At t p v) ∨ Missing t p ∨ ∃ v, Blocked t p v := by
  induction p generalizing t with
  | nil => exact absurd rfl hp
  | cons k r ih =>
    cases hf : find k t with
    | none => exact Or.inr (Or.inl (.here hf))
    | some v =>
      cases r with
      | nil => exact Or.inl ⟨v, .here hf⟩
      | cons q r =>
        by_cases hv : ∃ s, v = .tbl s
        · obtain ⟨s, rfl⟩ := hv
          rcases ih s (by simp) with ⟨w, h⟩ | h | ⟨w, h⟩
          · exact Or.inl ⟨w, .deep hf h⟩
          · exact Or.inr (Or.inl (.deep hf h))
          · exact Or.inr (Or.inr ⟨w, .deep hf h⟩)
        · exact Or.inr (Or.inr ⟨v, .here hf (fun s e => hv ⟨s, e⟩)⟩)

theorem getHa_blocked {t : Tbl} {p : List Str} {v : Val} (h : Blocked t p v) :
    getHa (.tbl t) p = none ∨ (getHa (.tbl t) p = some .none ∧ ((∃ s, v = .str s) ∨ ∃ l, v = .arr l)) := by
  induction h with
  | @here t k q p v h hv =>
    cases v with
    | tbl s => exact absurd rfl (hv s)
    | str s =>
      by_cases hc : contains q s = true
      · left; simp [getHa, h, hc]
      · right; simp [getHa, h, hc]
    | arr l =>
      by_cases hc : l.any (isStr q) = true
      · left; simp only [getHa, h]; simp [hc]
      · right; simp only [getHa, h]; simp [hc]
    | none => left; simp [getHa, h]
    | bool b => left; simp [getHa, h]
    | num b => left; simp [getHa, h]
  | @deep t k s p v h h' ih =>
    have : p ≠ [] := by cases h' <;> simp
    simpa [getHa, h, this] using ih

/-- **C43.** A value under the path is what the lookup returns. -/
theorem C43_lookup_value (doc : Tbl) (p : List Str) (v : Val) (h : At doc p v) : getHa (.tbl doc) p = some v :=
  getHa_at h

/-- **C43.** Conversely a result other than `None` is the value under the path, and if no non-table
value stands on the way, the result is `None` exactly when a key is missing or `None` is stored. -/
theorem C43_lookup_none_iff_partial (doc : Tbl) (p : List Str) (hp : p ≠ []) :
    (∀ v, v ≠ .none → getHa (.tbl doc) p = some v → At doc p v) ∧
    ((∀ v, ¬ Blocked doc p v) → (getHa (.tbl doc) p = some .none ↔ Missing doc p ∨ At doc p .none)) := by
  constructor
  · intro v hv h
    rcases trichotomy doc p hp with ⟨w, hw⟩ | hm | ⟨w, hb⟩
    · rw [getHa_at hw] at h; cases h; exact hw
    · rw [getHa_missing hm] at h; cases h; exact absurd rfl hv
    · rcases getHa_blocked hb with h' | ⟨h', _⟩
      · rw [h'] at h; cases h
      · rw [h'] at h; cases h; exact absurd rfl hv
  · intro hb
    constructor
    · intro h
      rcases trichotomy doc p hp with ⟨w, hw⟩ | hm | ⟨w, hw⟩
      · rw [getHa_at hw] at h; cases h; exact Or.inr hw
      · exact Or.inl hm
      · exact absurd hw (hb w)
    · rintro (h | h)
      · exact getHa_missing h
      · exact getHa_at h

/-- **C43 fails** below a `None` (in particular below an empty TOML table, which reads as `None`), a
number or a boolean: instead of `None`, looking up any deeper option raises. -/
theorem C43_below_none_wrong (doc : Tbl) (p : List Str) (v : Val) (h : Blocked doc p v)
    (hv : (∀ s, v ≠ .str s) ∧ ∀ l, v ≠ .arr l) : getHa (.tbl doc) p = none := by
  rcases getHa_blocked h with h | ⟨_, ⟨s, e⟩ | ⟨l, e⟩⟩
  · exact h
  · exact absurd e (hv.1 s)
  · exact absurd e (hv.2 l)

example : getHa (.tbl (adjust exDoc)) ["a".toList, "b".toList, "x".toList] = none :=
  C43_below_none_wrong (adjust exDoc) _ .none (.deep rfl (.here rfl (by simp))) (by simp)
example : Missing exDoc ["a".toList, "z".toList] := .deep rfl (.here (by decide +kernel))

theorem find_setKey (d : Tbl) (k k' : Str) (v : Val) :
    find k' (setKey d k v) = if k' = k then some v else find k' d := by
  unfold setKey
  split_ifs with h h1 h1
  · subst h1
    induction d with
    | nil => simp at h
    | cons e d ih =>
      by_cases he : e.1 = k'
      · simp [find, he]
      · have : d.any (·.1 == k') = true := by simpa [he] using h
        have := ih this
        simpa [find, he] using this
  · clear h
    induction d with
    | nil => simp [find]
    | cons e d ih =>
      by_cases he : e.1 = k
      · have : (e.1 == k') = false := by rw [he]; simp [Ne.symm h1]
        simpa [find, he, this, Ne.symm h1] using ih
      · by_cases he' : e.1 = k'
        · simp [find, he, he', h1]
        · simpa [find, he, he'] using ih
  · subst h1
    have hn : d.find? (·.1 == k') = none := by
      rw [List.find?_eq_none]; intro x hx
      have := h
      simp only [List.any_eq_true, not_exists, not_and] at this
      exact this x hx
    simp [find, List.find?_append, hn]
  · simp only [find, List.find?_append]
    have : (k == k') = false := by simp [Ne.symm h1]
    cases d.find? (·.1 == k') <;> simp [this]

theorem loop3_spec (doc : Val) (items : List Item) (d : Tbl) (hneg : ∀ i ∈ items, i.neg.isSome)
    (hget : ∀ i ∈ items, (getHa doc i.path).isSome) (hnd : (items.map (·.key)).Nodup) :
    ∃ d', loop3 doc d items = .done d' ∧
      (∀ i ∈ items, ∀ ng v, i.neg = some ng → getHa doc i.path = some v → find i.key d' = some (negIf ng v)) ∧
      (∀ k, k ∉ items.map (·.key) → find k d' = find k d) := by
  induction items generalizing d with
  | nil => exact ⟨d, rfl, by simp, by simp⟩
  | cons i is ih =>
    obtain ⟨ng, hng⟩ := Option.isSome_iff_exists.1 (hneg i (by simp))
    obtain ⟨v, hv⟩ := Option.isSome_iff_exists.1 (hget i (by simp))
    rw [List.map_cons, List.nodup_cons] at hnd
    obtain ⟨d', h1, h2, h3⟩ := ih (setKey d i.key (negIf ng v)) (fun j hj => hneg j (by simp [hj]))
      (fun j hj => hget j (by simp [hj])) hnd.2
    refine ⟨d', by simp [loop3, hng, hv, h1], ?_, ?_⟩
    · intro j hj ng' v' hn' hv'
      rcases List.mem_cons.1 hj with e | e
      · subst e
        rw [h3 _ hnd.1, find_setKey, if_pos rfl]
        rw [hng] at hn'; rw [hv] at hv'
        cases hn'; cases hv'; rfl
      · exact h2 j e ng' v' hn' hv'
    · intro k hk
      rw [List.map_cons, List.mem_cons, not_or] at hk
      rw [h3 k hk.2, find_setKey, if_neg hk.1]

theorem loop2_spec (doc : Val) (items : List Item) (d : Tbl) (hneg : ∀ i ∈ items, i.neg = none)
    (hget : ∀ i ∈ items, (getHa doc i.path).isSome) (hnd : (items.map (·.key)).Nodup) :
    ∃ d', loop2 doc d items = some d' ∧
      (∀ i ∈ items, ∀ v, getHa doc i.path = some v → find i.key d' = some v) ∧
      (∀ k, k ∉ items.map (·.key) → find k d' = find k d) := by
  induction items generalizing d with
  | nil => exact ⟨d, rfl, by simp, by simp⟩
  | cons i is ih =>
    have hng := hneg i (by simp)
    obtain ⟨v, hv⟩ := Option.isSome_iff_exists.1 (hget i (by simp))
    rw [List.map_cons, List.nodup_cons] at hnd
    obtain ⟨d', h1, h2, h3⟩ := ih (setKey d i.key v) (fun j hj => hneg j (by simp [hj]))
      (fun j hj => hget j (by simp [hj])) hnd.2
    refine ⟨d', by simp [loop2, hng, hv, h1], ?_, ?_⟩
    · intro j hj v' hv'
      rcases List.mem_cons.1 hj with e | e
      · subst e
        rw [h3 _ hnd.1, find_setKey, if_pos rfl]
        rw [hv] at hv'
        cases hv'; rfl
      · exact h2 j e v' hv'
    · intro k hk
      rw [List.map_cons, List.mem_cons, not_or] at hk
      rw [h3 k hk.2, find_setKey, if_neg hk.1]

/-- **C43.** Reading options into a dictionary with negation flags: every requested key gets the
value under its path, or its boolean complement when negated; nothing else is stored. -/
theorem C43_dict_negated (doc : Val) (items : List Item) (hneg : ∀ i ∈ items, i.neg.isSome)
    (hget : ∀ i ∈ items, (getHa doc i.path).isSome) (hnd : (items.map (·.key)).Nodup) :
    ∃ d, readDict doc items = some d ∧
      (∀ i ∈ items, ∀ v, getHa doc i.path = some v →
        find i.key d = some (if i.neg = some true then .bool (!truthy v) else v)) ∧
      (∀ k, k ∉ items.map (·.key) → find k d = none) := by
  obtain ⟨d, h1, h2, h3⟩ := loop3_spec doc items [] hneg hget hnd
  refine ⟨d, by simp [readDict, h1], ?_, fun k hk => by rw [h3 k hk]; rfl⟩
  intro i hi v hv
  obtain ⟨ng, hng⟩ := Option.isSome_iff_exists.1 (hneg i hi)
  rw [h2 i hi ng v hng hv, hng]
  cases ng <;> simp [negIf]

/-- **C43.** Reading options into a dictionary without flags. -/
theorem C43_dict_plain (doc : Val) (items : List Item) (hneg : ∀ i ∈ items, i.neg = none)
    (hget : ∀ i ∈ items, (getHa doc i.path).isSome) (hnd : (items.map (·.key)).Nodup) :
    ∃ d, readDict doc items = some d ∧
      (∀ i ∈ items, ∀ v, getHa doc i.path = some v → find i.key d = some v) ∧
      (∀ k, k ∉ items.map (·.key) → find k d = none) := by
  obtain ⟨d, h1, h2, h3⟩ := loop2_spec doc items [] hneg hget hnd
  refine ⟨d, ?_, h2, fun k hk => by rw [h3 k hk]; rfl⟩
  cases items with
  | nil => simpa [readDict, loop3, loop2] using h1
  | cons i is =>
    have : loop3 doc [] (i :: is) = .valueError [] := by simp [loop3, hneg i (by simp)]
    simp [readDict, this, h1]

/-- **C43.** Reading options into a list with flags. -/
theorem C43_list_negated (doc : Val) (ps : List (List Str × Bool)) (h : ∀ x ∈ ps, (getHa doc x.1).isSome) :
    ∃ vs, readList doc (ps.map fun x => .pair x.1 x.2) = some vs ∧ vs.length = ps.length ∧
      ∀ (i : Nat) (x : List Str × Bool) (v : Val), ps[i]? = some x → getHa doc x.1 = some v →
        vs[i]? = some (if x.2 then .bool (!truthy v) else v) := by
  have key : ∃ vs, listLoop doc (ps.map fun x => .pair x.1 x.2) = some (some vs) ∧ vs.length = ps.length ∧
      ∀ (i : Nat) (x : List Str × Bool) (v : Val), ps[i]? = some x → getHa doc x.1 = some v →
        vs[i]? = some (if x.2 then .bool (!truthy v) else v) := by
    induction ps with
    | nil => exact ⟨[], rfl, rfl, by simp⟩
    | cons x ps ih =>
      obtain ⟨v, hv⟩ := Option.isSome_iff_exists.1 (h x (by simp))
      obtain ⟨vs, h1, h2, h3⟩ := ih (fun y hy => h y (by simp [hy]))
      refine ⟨negIf x.2 v :: vs, by simp [listLoop, listElem, hv, h1], by simp [h2], ?_⟩
      intro i y w hy hw
      cases i with
      | zero =>
        simp only [List.getElem?_cons_zero, Option.some.injEq] at hy
        subst hy
        rw [hv] at hw; cases hw
        simp [negIf]
      | succ i => simp only [List.getElem?_cons_succ] at hy ⊢; exact h3 i y w hy hw
  obtain ⟨vs, h1, h2, h3⟩ := key
  exact ⟨vs, by simp [readList, h1], h2, h3⟩

/-- **C43.** Reading a list of plain paths returns the values under them if the first path does not
have two keys. -/
theorem C43_list_plain_partial (doc : Val) (p : List Str) (ps : List (List Str)) (h2 : p.length ≠ 2) :
    readList doc ((p :: ps).map .path) = (p :: ps).mapM (getHa doc) := by
  have : listLoop doc ((p :: ps).map .path) = none := by
    have he : listElem doc (.path p) = none := by
      match p, h2 with
      | [], _ => rfl
      | [_], _ => rfl
      | [_, _], h => simp at h
      | _ :: _ :: _ :: _, _ => rfl
    simp [listLoop, he]
  rw [readList, this]
  simp only [List.mapM_map]
  rfl

/-- **C43 fails** for a list of two-key paths: the second key is taken for a negation flag and the
result is a boolean, whatever the document stores under the path. -/
theorem C43_list_two_keys_wrong (doc : Val) (a b : Str) (hb : b ≠ []) (vs : List Val)
    (h : readList doc [.path [a, b]] = some vs) : ∃ c, vs = [.bool c] := by
  cases hg : getHaStr doc a with
  | none => simp [readList, listLoop, listElem, hg] at h
  | some v =>
    simp [readList, listLoop, listElem, hg, negIf, hb] at h
    exact ⟨_, h.symm⟩

example : readList (.tbl exDoc) [.path ["a".toList, "c".toList]] = some [.bool false] ∧
    getHa (.tbl exDoc) ["a".toList, "c".toList] = some (.num 3) := ⟨rfl, rfl⟩

/-! ## C61 -/

theorem findBase_split (name : Str) (dirs : List Str) (b d : List Str) (h : findBase name dirs = some (b, d)) :
    b ++ d = dirs := by
  unfold findBase at h
  cases hf : dirs.reverse.findIdx? (contains name) with
  | none => simp [hf] at h
  | some i => simp [hf] at h; rw [← h.1, ← h.2, List.take_append_drop]

theorem takeW_dot (n : Str) (h : '.' ∉ n) (r : Str) : (n ++ '.' :: r).takeWhile (· ≠ '.') = n := by
  rw [List.takeWhile_append_of_pos (by intro x hx; have : x ≠ '.' := (fun e => h (e ▸ hx)); simpa using this)]
  simp

/-- **C61.** With a full inlist path `…/name.suffix` (no further dots) in which a parent directory
contains the base-directory name, the parser's default inlist path is that path, the base directory
is the nearest such parent, and the file is read in the format of its suffix. -/
theorem C61_default_path_partial (baseName : Str) (dirs : List Str) (name suffix : Str) (h1 : '.' ∉ name) (h2 : '.' ∉ suffix)
    (hb : ∃ d ∈ dirs, contains baseName d = true) :
    ∃ i, mode1 baseName dirs (name ++ '.' :: suffix) = some i ∧
      i.path = (dirs, name ++ '.' :: suffix) ∧
      (∃ l, i.base.getLast? = some l ∧ contains baseName l = true) ∧ (∀ d ∈ i.dir, contains baseName d = false) ∧
      prepare false i none = (if suffix = "toml".toList then .toml else .custom, (dirs, name ++ '.' :: suffix)) := by
  have hf : ∃ i, dirs.reverse.findIdx? (contains baseName) = some i := by
    obtain ⟨d, hd, hc⟩ := hb
    cases h : dirs.reverse.findIdx? (contains baseName) with
    | some i => exact ⟨i, rfl⟩
    | none =>
      rw [List.findIdx?_eq_none_iff] at h
      have := h d (by simpa using hd)
      rw [hc] at this; cases this
  obtain ⟨i, hi⟩ := hf
  have hn : firstPart (name ++ '.' :: suffix) = name := takeW_dot name h1 suffix
  have hs : lastPart (name ++ '.' :: suffix) = suffix := by
    unfold lastPart
    have : (name ++ '.' :: suffix).reverse = suffix.reverse ++ '.' :: name.reverse := by simp
    rw [this, takeW_dot _ (by simpa using h2), List.reverse_reverse]
  have hfb : findBase baseName dirs = some (dirs.take (dirs.length - i), dirs.drop (dirs.length - i)) := by
    simp [findBase, hi]
  have hpath : ∀ (x : PathInfo), x = ⟨dirs.take (dirs.length - i), dirs.drop (dirs.length - i), name, suffix⟩ →
      x.path = (dirs, name ++ '.' :: suffix) := by
    rintro x rfl; simp [PathInfo.path, List.take_append_drop]
  rw [List.findIdx?_eq_some_iff_getElem] at hi
  obtain ⟨hlt, hc, hbefore⟩ := hi
  have hlt' : i < dirs.length := by simpa using hlt
  refine ⟨⟨dirs.take (dirs.length - i), dirs.drop (dirs.length - i), name, suffix⟩, ?_, hpath _ rfl, ?_, ?_, ?_⟩
  · simp [mode1, hfb, hn, hs]
  · refine ⟨dirs.reverse[i], ?_, hc⟩
    rw [List.getLast?_eq_getElem?, List.length_take, Nat.min_eq_left (by omega), List.getElem?_take,
      if_pos (by omega), List.getElem?_eq_getElem (by omega), List.getElem_reverse]
    congr 2
    omega
  · intro d hd
    obtain ⟨j, hj, rfl⟩ := List.getElem_of_mem hd
    simp only [List.getElem_drop] at *
    rw [List.length_drop] at hj
    have := hbefore (dirs.length - 1 - (dirs.length - i + j)) (by omega)
    simp only [List.getElem_reverse] at this
    have e : dirs.length - 1 - (dirs.length - 1 - (dirs.length - i + j)) = dirs.length - i + j := by omega
    simp only [e] at this
    simpa using this
  · simp [prepare, PathInfo.path, List.take_append_drop]

theorem parts_count (file : Str) : firstPart file ++ '.' :: lastPart file = file ↔ file.count '.' = 1 := by
  have hf : '.' ∉ firstPart file := fun h => by simpa using List.mem_takeWhile_imp h
  have hl : '.' ∉ lastPart file := fun h => by
    have := List.mem_takeWhile_imp (List.mem_reverse.1 h)
    simp at this
  constructor
  · intro h
    rw [← h, List.count_append, List.count_cons, List.count_eq_zero.2 hf, List.count_eq_zero.2 hl]
    simp
  · intro h
    obtain ⟨a, b, rfl⟩ := List.append_of_mem (List.count_pos_iff.1 (by rw [h]; exact one_pos))
    rw [List.count_append, List.count_cons] at h
    simp only [beq_self_eq_true, if_true] at h
    have ha : '.' ∉ a := List.count_eq_zero.1 (by omega)
    have hb : '.' ∉ b := List.count_eq_zero.1 (by omega)
    have e1 : firstPart (a ++ '.' :: b) = a := takeW_dot a ha b
    have e2 : lastPart (a ++ '.' :: b) = b := by
      unfold lastPart
      rw [List.reverse_append, List.reverse_cons, List.append_assoc, List.singleton_append]
      have := takeW_dot b.reverse (by simpa using hb) a.reverse
      rw [this, List.reverse_reverse]
    rw [e1, e2]

/-- **C61 refuted**, with the exact condition: the default inlist is the file given exactly if its name has one dot; of a name
with more dots the middle is dropped, a name without one is doubled. -/
theorem C61_dotted_name_wrong (baseName : Str) (dirs : List Str) (file : Str) (i : PathInfo)
    (h : mode1 baseName dirs file = some i) : (i.path = (dirs, file) ↔ file.count '.' = 1) ∧
    (∀ a b c, '.' ∉ a → '.' ∉ c → file = a ++ '.' :: (b ++ '.' :: c) → i.path.2 = a ++ '.' :: c) ∧
    ('.' ∉ file → i.path.2 = file ++ '.' :: file) := by
  unfold mode1 at h
  obtain ⟨b, hb, rfl⟩ := Option.map_eq_some_iff.1 h
  have hd : b.1 ++ b.2 = dirs := by
    simp only [findBase] at hb
    split at hb
    · obtain rfl := Option.some.inj hb
      exact List.take_append_drop _ _
    · cases hb
  refine ⟨?_, ?_, ?_⟩
  · rw [← parts_count]
    simp only [PathInfo.path, hd, Prod.mk.injEq, true_and]
  · rintro a' b' c' ha hc rfl
    have e1 : firstPart (a' ++ '.' :: (b' ++ '.' :: c')) = a' := takeW_dot a' ha _
    have e2 : lastPart (a' ++ '.' :: (b' ++ '.' :: c')) = c' := by
      unfold lastPart
      rw [show a' ++ '.' :: (b' ++ '.' :: c') = (a' ++ '.' :: b') ++ '.' :: c' by simp, List.reverse_append,
        List.reverse_cons, List.append_assoc, List.singleton_append]
      rw [takeW_dot c'.reverse (by simpa using hc), List.reverse_reverse]
    simp only [PathInfo.path, e1, e2]
  · intro hn
    have e1 : firstPart file = file := List.takeWhile_eq_self_iff.2 fun x hx => by
      have : x ≠ '.' := fun e => hn (e ▸ hx)
      simpa using this
    have e2 : lastPart file = file := by
      unfold lastPart
      rw [List.takeWhile_eq_self_iff.2 fun x hx => by
        have : x ≠ '.' := fun e => hn (e ▸ List.mem_reverse.1 hx)
        simpa using this, List.reverse_reverse]
    simp only [PathInfo.path, e1, e2]

/-- **C61 fails** when another inlist is named on the command line: it is read in the format of the
default inlist, whatever its own suffix. -/
theorem C61_command_line_format_wrong (i : PathInfo) (hi : i.suffix = "toml".toList) (dirs : List Str) (name : Str) :
    prepare false i (some (dirs, name ++ ".in".toList)) = (.toml, (dirs, name ++ ".in".toList)) := by
  simp [prepare, hi]

example : ∃ d ∈ ["home".toList, "aesolver-1".toList, "in".toList], contains "aesolver".toList d = true := by decide +kernel

/-- What counts as false in Python: `None`, `False`, zero and everything empty. -/
inductive PyFalse : Val → Prop
  | none : PyFalse .none
  | false : PyFalse (.bool false)
  | zero : PyFalse (.num 0)
  | str : PyFalse (.str [])
  | arr : PyFalse (.arr [])
  | tbl : PyFalse (.tbl [])

theorem truthy_iff (v : Val) : truthy v = true ↔ ¬ PyFalse v := by
  constructor
  · rintro h ⟨⟩ <;> simp [truthy] at h
  · intro h
    cases v with
    | none => exact absurd .none h
    | bool b => cases b with
      | false => exact absurd .false h
      | true => rfl
    | num n => by_cases hn : n = 0
               · subst hn; exact absurd .zero h
               · simpa [truthy] using hn
    | str s => cases s with
      | nil => exact absurd .str h
      | cons a l => rfl
    | arr s => cases s with
      | nil => exact absurd .arr h
      | cons a l => rfl
    | tbl s => cases s with
      | nil => exact absurd .tbl h
      | cons a l => rfl

/-- **C43.** A negated option is stored as a boolean: `True` exactly when the document's value is one
of Python's false values. -/
theorem C43_negated_value (doc : Val) (items : List Item) (hneg : ∀ i ∈ items, i.neg.isSome)
    (hget : ∀ i ∈ items, (getHa doc i.path).isSome) (hnd : (items.map (·.key)).Nodup) :
    ∃ d, readDict doc items = some d ∧
      ∀ i ∈ items, i.neg = some true → ∀ v, getHa doc i.path = some v →
        ∃ b, find i.key d = some (.bool b) ∧ (b = true ↔ PyFalse v) := by
  obtain ⟨d, h1, h2, -⟩ := C43_dict_negated doc items hneg hget hnd
  refine ⟨d, h1, fun i hi hn v hv => ⟨!truthy v, ?_, ?_⟩⟩
  · rw [h2 i hi v hv, if_pos hn]
  · have := truthy_iff v
    cases ht : truthy v
    · simp only [ht, Bool.false_eq_true, false_iff, not_not] at this; simpa using this
    · simp only [ht, true_iff] at this; simpa using this

end Verif.Opts
