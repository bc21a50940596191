import Verif.Load.Claims
import Mathlib.Tactic.Ring
import Mathlib.Tactic.FieldSimp
import Mathlib.Tactic.NormNum
import Mathlib.Tactic.Push
/-!
# Dictionaries and `dimensionalize`
-/
namespace Verif.Load
open Verif.Inlist (Str)

noncomputable section

section dict
variable {α : Type}

theorem get_cons (e : Str × α) (d : Dict α) (k : Str) : get (e :: d) k = if e.1 = k then some e.2 else get d k := by
  unfold get
  by_cases h : e.1 = k
  · simp [h]
  · rw [List.find?_cons_of_neg (by simpa using h), if_neg h]

theorem get_nil (k : Str) : get ([] : Dict α) k = none := rfl

theorem get_none {d : Dict α} {k : Str} : get d k = none ↔ k ∉ d.map (·.1) := by
  induction d with
  | nil => simp [get_nil]
  | cons e d ih =>
    rw [get_cons]
    by_cases h : e.1 = k
    · simp [h]
    · simp only [h, if_false, ih, List.map_cons, List.mem_cons, not_or]
      exact ⟨fun g => ⟨fun q => h q.symm, g⟩, fun g => g.2⟩

theorem get_mem {d : Dict α} {k : Str} {v : α} (h : get d k = some v) : (k, v) ∈ d := by
  induction d with
  | nil => cases h
  | cons e d ih =>
    rw [get_cons] at h
    by_cases g : e.1 = k
    · rw [if_pos g] at h
      have := Option.some.inj h
      subst g; subst this
      exact List.mem_cons_self
    · rw [if_neg g] at h
      exact List.mem_cons_of_mem _ (ih h)

theorem get_of_mem {d : Dict α} (hd : (d.map (·.1)).Nodup) {k : Str} {v : α} (h : (k, v) ∈ d) : get d k = some v := by
  induction d with
  | nil => cases h
  | cons e d ih =>
    rw [List.map_cons, List.nodup_cons] at hd
    rw [get_cons]
    rcases List.mem_cons.1 h with h | h
    · subst h; simp
    · rw [if_neg, ih hd.2 h]
      intro g
      exact hd.1 (g ▸ List.mem_map_of_mem (f := (·.1)) h)

theorem get_put (d : Dict α) (k k' : Str) (v : α) : get (put d k v) k' = if k = k' then some v else get d k' := by
  unfold put
  by_cases h : d.any (fun e => e.1 == k)
  · rw [if_pos h]
    induction d with
    | nil => cases h
    | cons e d ih =>
      rw [List.map_cons, get_cons]
      by_cases he : e.1 = k
      · simp only [he, beq_self_eq_true, if_true]
        by_cases hk : k = k'
        · rw [if_pos hk, if_pos hk]
        · rw [if_neg hk, if_neg hk, get_cons, he, if_neg hk]
          by_cases h2 : d.any (fun e => e.1 == k)
          · rw [ih h2, if_neg hk]
          · congr 1
            conv_rhs => rw [← List.map_id d]
            refine List.map_congr_left fun x hx => ?_
            have : x.1 ≠ k := fun q => h2 (List.any_eq_true.2 ⟨x, hx, by simpa using q⟩)
            simp [this]
      · have h2 : d.any (fun e => e.1 == k) := by
          rw [List.any_cons] at h
          simpa [he] using h
        have e1 : (e.1 == k) = false := by simpa using he
        have e2 : (if (e.1 == k) = true then (k, v) else e) = e := by rw [e1]; rfl
        rw [e2, get_cons, ih h2]
        by_cases hk : k = k'
        · rw [if_neg (fun q : e.1 = k' => he (q.trans hk.symm)), if_pos hk, if_pos hk]
        · rw [if_neg hk, if_neg hk]
  · rw [if_neg h]
    have hn : k ∉ d.map (·.1) := by
      intro q
      obtain ⟨x, hx, rfl⟩ := List.mem_map.1 q
      exact h (List.any_eq_true.2 ⟨x, hx, by simp⟩)
    induction d with
    | nil =>
      rw [List.nil_append, get_cons, get_nil]
    | cons e d ih =>
      rw [List.cons_append, get_cons, get_cons]
      rw [List.map_cons, List.mem_cons, not_or] at hn
      by_cases he : e.1 = k'
      · rw [if_pos he, if_pos he, if_neg]
        intro q
        exact hn.1 (q.trans he.symm)
      · rw [if_neg he, if_neg he]
        apply ih _ hn.2
        intro q
        apply h
        rw [List.any_cons, q, Bool.or_true]

theorem keys_put (d : Dict α) (k : Str) (v : α) :
    (put d k v).map (·.1) = if k ∈ d.map (·.1) then d.map (·.1) else d.map (·.1) ++ [k] := by
  unfold put
  have hiff : d.any (fun e => e.1 == k) = true ↔ k ∈ d.map (·.1) := by
    rw [List.any_eq_true, List.mem_map]
    exact ⟨fun ⟨x, hx, q⟩ => ⟨x, hx, by simpa using q⟩, fun ⟨x, hx, q⟩ => ⟨x, hx, by simpa using q⟩⟩
  by_cases h : k ∈ d.map (·.1)
  · rw [if_pos (hiff.2 h), if_pos h, List.map_map]
    refine List.map_congr_left fun x _ => ?_
    by_cases hx : x.1 = k <;> simp [hx]
  · rw [if_neg (fun q => h (hiff.1 q)), if_neg h, List.map_append]
    rfl

theorem nodup_put {d : Dict α} (h : (d.map (·.1)).Nodup) (k : Str) (v : α) : ((put d k v).map (·.1)).Nodup := by
  rw [keys_put]
  by_cases hk : k ∈ d.map (·.1)
  · rwa [if_pos hk]
  · rw [if_neg hk]
    exact List.nodup_append.2 ⟨h, List.nodup_singleton _, fun a ha b hb q => hk (by
      rw [List.mem_singleton] at hb; rw [← hb, ← q]; exact ha)⟩

/-- All updates with this name carry the same value. -/
theorem get_foldl_put_mem (es : List (Str × α)) (n : Str) (w : α) (h1 : ∀ e ∈ es, e.1 = n → e.2 = w) :
    ∀ d : Dict α, (∃ e ∈ es, e.1 = n) → get (es.foldl (fun a e => put a e.1 e.2) d) n = some w := by
  induction es with
  | nil => rintro d ⟨e, he, _⟩; cases he
  | cons e es ih =>
    intro d hex
    rw [List.foldl_cons]
    by_cases h2 : ∃ e ∈ es, e.1 = n
    · exact ih (fun e he => h1 e (List.mem_cons_of_mem _ he)) _ h2
    · obtain ⟨x, hx, q⟩ := hex
      have hxe : x = e := by
        rcases List.mem_cons.1 hx with g | g
        · exact g
        · exact absurd ⟨x, g, q⟩ h2
      subst hxe
      have key : ∀ (l : List (Str × α)) (d : Dict α), (¬ ∃ e ∈ l, e.1 = n) →
          get (l.foldl (fun a e => put a e.1 e.2) d) n = get d n := by
        intro l
        induction l with
        | nil => intros; rfl
        | cons y l ihl =>
          intro d hl
          rw [List.foldl_cons, ihl _ (fun ⟨e, he, qe⟩ => hl ⟨e, List.mem_cons_of_mem _ he, qe⟩), get_put, if_neg]
          exact fun qy => hl ⟨y, List.mem_cons_self, qy⟩
      rw [key _ _ h2, get_put, if_pos q, h1 x List.mem_cons_self q]

theorem get_foldl_put_not (es : List (Str × α)) (n : Str) :
    ∀ d : Dict α, (¬ ∃ e ∈ es, e.1 = n) → get (es.foldl (fun a e => put a e.1 e.2) d) n = get d n := by
  induction es with
  | nil => intros; rfl
  | cons y l ihl =>
    intro d hl
    rw [List.foldl_cons, ihl _ (fun ⟨e, he, qe⟩ => hl ⟨e, List.mem_cons_of_mem _ he, qe⟩), get_put, if_neg]
    exact fun qy => hl ⟨y, List.mem_cons_self, qy⟩

end dict

/-! ### The loop of `dimensionalize` -/

theorem dimAll_some {c : DimClass} {d : Dict V} : ∀ {r : Dict V} {es : List (Str × V)}, dimAll c d r = some es →
    (∀ e ∈ r, (dimOne c d e.1 e.2).isSome) ∧ ∀ x, x ∈ es ↔ ∃ e ∈ r, dimOne c d e.1 e.2 = some (some x) := by
  intro r
  induction r with
  | nil => intro es h; cases h; simp
  | cons e r ih =>
    intro es h
    unfold dimAll at h
    cases h1 : dimOne c d e.1 e.2 with
    | none => rw [h1] at h; simp at h
    | some o =>
      rw [h1] at h
      cases h2 : dimAll c d r with
      | none => rw [h2] at h; simp at h
      | some es' =>
        rw [h2] at h
        simp only [Option.bind_eq_bind, Option.bind_some, Option.pure_def, Option.some.injEq] at h
        obtain ⟨i1, i2⟩ := ih h2
        refine ⟨?_, fun x => ?_⟩
        · intro y hy
          rcases List.mem_cons.1 hy with g | g
          · rw [g, h1]; rfl
          · exact i1 y g
        · rw [← h, List.mem_append, i2]
          constructor
          · rintro (g | ⟨y, hy, q⟩)
            · refine ⟨e, List.mem_cons_self, ?_⟩
              rw [h1]
              rw [Option.mem_toList] at g
              exact congrArg some g
            · exact ⟨y, List.mem_cons_of_mem _ hy, q⟩
          · rintro ⟨y, hy, q⟩
            rcases List.mem_cons.1 hy with g | g
            · left
              subst g
              rw [h1] at q
              rw [Option.mem_toList]
              exact Option.some.inj q
            · exact Or.inr ⟨y, g, q⟩

/-- The result name and value of one entry. -/
theorem dimOne_name {c : DimClass} {d : Dict V} {k : Str} {v : V} {x : Str × V} (h : dimOne c d k v = some (some x)) :
    k ∉ c.avoid ∧ ((∃ f u, get c.facs (upper k) = some f ∧ f.eval d = some u ∧ x.1 = k ++ "_dim".toList ∧
        dimVal c k v u = some x.2) ∨
      (get c.facs (upper k) = none ∧ x.1 = k ∧ dimVal c k v (.sc 1) = some x.2)) := by
  unfold dimOne at h
  by_cases ha : k ∈ c.avoid
  · rw [if_pos ha] at h; cases h
  · rw [if_neg ha] at h
    refine ⟨ha, ?_⟩
    obtain ⟨p, hp, h⟩ := Option.bind_eq_some_iff.1 h
    obtain ⟨w, hw, h⟩ := Option.map_eq_some_iff.1 h
    have hx := (Option.some.inj h).symm
    subst hx
    unfold dimFac at hp
    cases hf : get c.facs (upper k) with
    | none =>
      right
      rw [hf] at hp
      have := Option.some.inj hp
      subst this
      exact ⟨rfl, rfl, hw⟩
    | some f =>
      left
      rw [hf] at hp
      obtain ⟨u, hu, hp⟩ := Option.map_eq_some_iff.1 hp
      subst hp
      exact ⟨f, u, rfl, hu, rfl, hw⟩

theorem dimOne_avoid {c : DimClass} {d : Dict V} {k : Str} {v : V} : dimOne c d k v = some none ↔ k ∈ c.avoid := by
  constructor
  · intro h
    by_contra ha
    unfold dimOne at h
    rw [if_neg ha] at h
    obtain ⟨p, hp, h⟩ := Option.bind_eq_some_iff.1 h
    obtain ⟨w, hw, h⟩ := Option.map_eq_some_iff.1 h
    cases h
  · intro h
    unfold dimOne
    rw [if_pos h]

/-- Names that are not names of results. -/
def NoDim (d : Dict V) : Prop := ∀ e ∈ d, ∀ e' ∈ d, e'.1 ≠ e.1 ++ "_dim".toList

/-- What a dictionary contains after `dimensionalize`. -/
theorem dim_get {c : DimClass} {d d' : Dict V} (hd : (d.map (·.1)).Nodup) (hn : NoDim d)
    (h : dimensionalize c d = some d') :
    (∀ k v, (k, v) ∈ d → k ∈ c.avoid → get d' k = some v) ∧
    (∀ k v, (k, v) ∈ d → k ∉ c.avoid → get c.facs (upper k) = none →
      ∃ w, dimVal c k v (.sc 1) = some w ∧ get d' k = some w) ∧
    (∀ k v f, (k, v) ∈ d → k ∉ c.avoid → get c.facs (upper k) = some f →
      get d' k = some v ∧ ∃ u w, f.eval d = some u ∧ dimVal c k v u = some w ∧
        get d' (k ++ "_dim".toList) = some w) ∧
    (∀ n, get d' n ≠ none → (∃ v, (n, v) ∈ d) ∨
      ∃ k v f, (k, v) ∈ d ∧ k ∉ c.avoid ∧ get c.facs (upper k) = some f ∧ n = k ++ "_dim".toList) := by
  unfold dimensionalize at h
  cases hes : dimAll c d d with
  | none => rw [hes] at h; cases h
  | some es =>
    rw [hes] at h
    have h' := Option.some.inj h
    subst h'
    obtain ⟨hs, hm⟩ := dimAll_some hes
    have app_inj : ∀ a b : Str, a ++ "_dim".toList = b ++ "_dim".toList → a = b := fun a b q => List.append_cancel_right q
    have val_inj : ∀ {k v v'}, (k, v) ∈ d → (k, v') ∈ d → v = v' := fun h1 h2 =>
      Option.some.inj ((get_of_mem hd h1).symm.trans (get_of_mem hd h2))
    refine ⟨?_, ?_, ?_, ?_⟩
    · intro k v hkv ha
      rw [get_foldl_put_not, get_of_mem hd hkv]
      rintro ⟨x, hx, q⟩
      obtain ⟨y, hy, hy2⟩ := (hm x).1 hx
      obtain ⟨hna, ⟨f, u, _, _, hx1, _⟩ | ⟨_, hx1, _⟩⟩ := dimOne_name hy2
      · exact hn y hy _ hkv (q.symm.trans hx1)
      · rw [← hx1, q] at hna; exact hna ha
    · intro k v hkv ha hf
      have hsome := hs _ hkv
      cases ho : dimOne c d k v with
      | none => rw [ho] at hsome; cases hsome
      | some o =>
        cases o with
        | none => exact absurd (dimOne_avoid.1 ho) ha
        | some x =>
          obtain ⟨_, ⟨f, u, g, _⟩ | ⟨_, hx1, hx2⟩⟩ := dimOne_name ho
          · rw [hf] at g; cases g
          · refine ⟨x.2, hx2, get_foldl_put_mem _ _ _ ?_ _ ⟨x, (hm x).2 ⟨_, hkv, ho⟩, hx1⟩⟩
            intro y hy q
            obtain ⟨z, hz, hz2⟩ := (hm y).1 hy
            obtain ⟨_, ⟨f, u, _, _, hy1, _⟩ | ⟨_, hy1, _⟩⟩ := dimOne_name hz2
            · exact absurd (q.symm.trans hy1) (hn z hz _ hkv)
            · have e1 : z = (k, v) := by
                obtain ⟨zk, zv⟩ := z
                have : zk = k := hy1.symm.trans q
                subst this
                rw [val_inj hz hkv]
              subst e1
              rw [ho] at hz2
              exact (congrArg Prod.snd (Option.some.inj (Option.some.inj hz2))).symm
    · intro k v f hkv ha hf
      have hsome := hs _ hkv
      constructor
      · rw [get_foldl_put_not, get_of_mem hd hkv]
        rintro ⟨x, hx, q⟩
        obtain ⟨y, hy, hy2⟩ := (hm x).1 hx
        obtain ⟨hna, ⟨f, u, _, _, hx1, _⟩ | ⟨hyf, hx1, _⟩⟩ := dimOne_name hy2
        · exact hn y hy _ hkv (q.symm.trans hx1)
        · rw [← hx1, q, hf] at hyf; cases hyf
      · cases ho : dimOne c d k v with
        | none => rw [ho] at hsome; cases hsome
        | some o =>
          cases o with
          | none => exact absurd (dimOne_avoid.1 ho) ha
          | some x =>
            obtain ⟨_, ⟨f', u, g, hu, hx1, hx2⟩ | ⟨g, _⟩⟩ := dimOne_name ho
            · rw [hf] at g; cases g
              refine ⟨u, x.2, hu, hx2, get_foldl_put_mem _ _ _ ?_ _ ⟨x, (hm x).2 ⟨_, hkv, ho⟩, hx1⟩⟩
              intro y hy q
              obtain ⟨z, hz, hz2⟩ := (hm y).1 hy
              obtain ⟨_, ⟨f, u, _, _, hy1, _⟩ | ⟨_, hy1, _⟩⟩ := dimOne_name hz2
              · have e1 : z = (k, v) := by
                  obtain ⟨zk, zv⟩ := z
                  have : zk = k := app_inj _ _ (hy1.symm.trans q)
                  subst this
                  rw [val_inj hz hkv]
                subst e1
                rw [ho] at hz2
                exact (congrArg Prod.snd (Option.some.inj (Option.some.inj hz2))).symm
              · exact absurd (hy1.symm.trans q) (hn _ hkv z hz)
            · rw [hf] at g; cases g
    · intro n hne
      by_cases hex : ∃ e ∈ es, e.1 = n
      · obtain ⟨x, hx, q⟩ := hex
        obtain ⟨y, hy, hy2⟩ := (hm x).1 hx
        obtain ⟨hna, ⟨f, u, hf, _, hx1, _⟩ | ⟨hyf, hx1, _⟩⟩ := dimOne_name hy2
        · exact Or.inr ⟨y.1, y.2, f, hy, hna, hf, q.symm.trans hx1⟩
        · left
          refine ⟨y.2, ?_⟩
          rw [← q, hx1]
          exact hy
      · rw [get_foldl_put_not _ _ _ hex] at hne
        obtain ⟨v, hv⟩ := Option.ne_none_iff_exists'.1 hne
        exact Or.inl ⟨v, get_mem hv⟩

end

end Verif.Load
