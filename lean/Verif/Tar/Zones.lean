import Verif.Tar.Model
import Mathlib.Tactic.Common
import Mathlib.Tactic.SplitIfs
import Mathlib.Data.List.Basic
/-! # Zones of a boolean profile -/
namespace Verif.Tar

/-- A maximal run of the value `c` in the list `v`: the indices `a ≤ i < b`. -/
def Zone (v : List Bool) (c : Bool) (a b : ℕ) : Prop :=
  a < b ∧ b ≤ v.length ∧ (∀ i, a ≤ i → i < b → v[i]? = some c) ∧
  (a = 0 ∨ v[a - 1]? = some (!c)) ∧ (b = v.length ∨ v[b]? = some (!c))

/-- The list `z` holds exactly the maximal runs of `c` in `v`, from left to right. -/
def IsZones (v : List Bool) (c : Bool) (z : List (ℕ × ℕ)) : Prop :=
  z.Pairwise (fun p q => p.2 < q.1) ∧ ∀ a b, (a, b) ∈ z ↔ Zone v c a b

/-- Shift of an index pair. -/
def shift (p : ℕ × ℕ) : ℕ × ℕ := (p.1 + 1, p.2 + 1)

/-- Lengthen the first pair to the left. -/
def ext0 : List (ℕ × ℕ) → List (ℕ × ℕ)
  | [] => []
  | (_, b) :: l => (0, b) :: l

/-- The runs of `true`, computed from the right. -/
def runs : List Bool → List (ℕ × ℕ)
  | [] => []
  | [c] => if c then [(0, 1)] else []
  | c :: d :: l =>
    if c then (if d then ext0 ((runs (d :: l)).map shift) else (0, 1) :: (runs (d :: l)).map shift)
    else (runs (d :: l)).map shift

theorem nonzero_cons (c : Bool) (m : List Bool) :
    nonzero (c :: m) = (if c then [0] else []) ++ (nonzero m).map (· + 1) := by
  unfold nonzero
  rw [List.length_cons, List.range_succ_eq_map, List.filter_cons, List.filter_map]
  cases c <;> simp [Function.comp_def]

theorem starts_cons2 (c d : Bool) (l : List Bool) :
    starts (c :: d :: l) = (if !c && d then [1] else []) ++ (starts (d :: l)).map (· + 1) := by
  unfold starts
  rw [show (c :: d :: l).dropLast = c :: (d :: l).dropLast from rfl, List.tail_cons]
  rw [show List.zipWith (fun a b => !a && b) (c :: (d :: l).dropLast) (d :: l)
    = (!c && d) :: List.zipWith (fun a b => !a && b) (d :: l).dropLast (d :: l).tail from rfl, nonzero_cons]
  rw [List.map_append]
  congr 1
  cases c <;> cases d <;> rfl

theorem ends_cons2 (c d : Bool) (l : List Bool) :
    ends (c :: d :: l) = (if c && !d then [0] else []) ++ (ends (d :: l)).map (· + 1) := by
  unfold ends
  rw [show (c :: d :: l).dropLast = c :: (d :: l).dropLast from rfl, List.tail_cons]
  rw [show List.zipWith (fun a b => a && !b) (c :: (d :: l).dropLast) (d :: l)
    = (c && !d) :: List.zipWith (fun a b => a && !b) (d :: l).dropLast (d :: l).tail from rfl, nonzero_cons]

/-- The starts of the runs of `true`. -/
def lo (v : List Bool) : List ℕ := (if v.head? = some true then [0] else []) ++ starts v

/-- The ends of the runs of `true`. -/
def hi (v : List Bool) : List ℕ :=
  (ends v).map (· + 1) ++ (if v.getLast? = some true then [v.length] else [])

theorem lo_hi : ∀ v : List Bool, (lo v).length = (hi v).length ∧ runs v = (lo v).zip (hi v)
  | [] => by simp [lo, hi, runs, starts, ends, nonzero]
  | [c] => by cases c <;> simp [lo, hi, runs, starts, ends, nonzero]
  | c :: d :: l => by
    obtain ⟨h1, h2⟩ := lo_hi (d :: l)
    have hhi : hi (c :: d :: l) = (if c && !d then [1] else []) ++ (hi (d :: l)).map (· + 1) := by
      unfold hi
      rw [ends_cons2, List.getLast?_cons_cons, List.map_append, List.map_append]
      simp only [List.append_assoc]
      congr 1
      · cases c <;> cases d <;> rfl
      · congr 1
        split <;> simp
    have hsh : ∀ (a b : List ℕ), (a.map (· + 1)).zip (b.map (· + 1)) = (a.zip b).map shift := by
      intro a b
      rw [List.zip_map]; rfl
    cases c with
    | false =>
      have hlo : lo (false :: d :: l) = (lo (d :: l)).map (· + 1) := by
        unfold lo
        rw [starts_cons2]
        cases d <;> simp
      rw [hlo, hhi]
      simp only [Bool.false_and, Bool.false_eq_true, if_false, List.nil_append, runs]
      rw [hsh, ← h2]
      simp [h1]
    | true =>
      cases d with
      | false =>
        have hlo : lo (true :: false :: l) = 0 :: (lo (false :: l)).map (· + 1) := by
          unfold lo
          rw [starts_cons2]
          simp
        rw [hlo, hhi]
        simp only [runs]
        simp [hsh, ← h2, h1]
      | true =>
        have hlo : lo (true :: true :: l) = 0 :: (starts (true :: l)).map (· + 1) := by
          unfold lo
          rw [starts_cons2]
          simp
        have hlo' : lo (true :: l) = 0 :: starts (true :: l) := by unfold lo; simp
        rw [hlo, hhi]
        simp only [runs, h2]
        rw [hlo'] at h1 ⊢
        cases hh : hi (true :: l) with
        | nil => rw [hh] at h1; simp at h1
        | cons x xs =>
          rw [hh] at h1
          simp [ext0, shift, hsh] at h1 ⊢
          exact h1

theorem runs_pos : ∀ v : List Bool, ∀ p ∈ runs v, p.1 < p.2
  | [] => by simp [runs]
  | [c] => by cases c <;> simp [runs]
  | c :: d :: l => by
    have ih := runs_pos (d :: l)
    have hs : ∀ p ∈ (runs (d :: l)).map shift, 0 < p.1 ∧ p.1 < p.2 := by
      intro p hp
      obtain ⟨q, hq, rfl⟩ := List.mem_map.1 hp
      have := ih q hq
      simp only [shift]; omega
    intro p hp
    simp only [runs] at hp
    split at hp
    · split at hp
      · cases hr : (runs (d :: l)).map shift with
        | nil => rw [hr] at hp; simp [ext0] at hp
        | cons x xs =>
          obtain ⟨a, b⟩ := x
          rw [hr] at hp hs
          simp only [ext0, List.mem_cons] at hp
          rcases hp with rfl | hp
          · have := hs (a, b) (by simp); simp only at this ⊢; omega
          · exact (hs p (by simp [hp])).2
      · rcases List.mem_cons.1 hp with rfl | hp
        · simp
        · exact (hs p hp).2
    · exact (hs p hp).2

/-- The head run of a list that starts with `false` does not start at 0. -/
theorem runs_false_head (l : List Bool) : ∀ p ∈ runs (false :: l), 0 < p.1 := by
  cases l with
  | nil => simp [runs]
  | cons d l =>
    intro p hp
    simp only [runs, Bool.false_eq_true, if_false] at hp
    obtain ⟨q, _, rfl⟩ := List.mem_map.1 hp
    simp [shift]

theorem runs_sorted : ∀ v : List Bool, (runs v).Pairwise (fun p q => p.2 < q.1)
  | [] => by simp [runs]
  | [c] => by cases c <;> simp [runs]
  | c :: d :: l => by
    have ih := runs_sorted (d :: l)
    have hs : ((runs (d :: l)).map shift).Pairwise (fun p q => p.2 < q.1) := by
      rw [List.pairwise_map]
      refine ih.imp ?_
      intro a b h
      simp only [shift]; omega
    simp only [runs]
    split
    · split
      · cases hr : (runs (d :: l)).map shift with
        | nil => simp [ext0]
        | cons x xs =>
          obtain ⟨a, b⟩ := x
          rw [hr] at hs
          simp only [ext0]
          rw [List.pairwise_cons] at hs ⊢
          exact hs
      · rename_i hd
        have hd : d = false := by simpa using hd
        subst hd
        rw [List.pairwise_cons]
        refine ⟨?_, hs⟩
        intro p hp
        obtain ⟨q, hq, rfl⟩ := List.mem_map.1 hp
        have := runs_false_head l q hq
        simp only [shift]; omega
    · exact hs

theorem zone_shift (c : Bool) (w : List Bool) (a b : ℕ) :
    Zone (c :: w) true (a + 1) (b + 1) ↔ Zone w true a b ∧ (a = 0 → c = false) := by
  unfold Zone
  constructor
  · rintro ⟨h1, h2, h3, h4, h5⟩
    simp only [List.length_cons] at h2 h5
    refine ⟨⟨by omega, by omega, ?_, ?_, ?_⟩, ?_⟩
    · intro i hi hj
      have := h3 (i + 1) (by omega) (by omega)
      simpa using this
    · rcases h4 with h | h
      · omega
      · rcases Nat.eq_zero_or_pos a with ha | ha
        · left; exact ha
        · right
          obtain ⟨k, rfl⟩ : ∃ k, a = k + 1 := ⟨a - 1, by omega⟩
          simpa using h
    · rcases h5 with h | h
      · left; omega
      · right; simpa using h
    · rintro rfl
      rcases h4 with h | h
      · omega
      · simpa using h
  · rintro ⟨⟨h1, h2, h3, h4, h5⟩, h6⟩
    refine ⟨by omega, by simpa using h2, ?_, ?_, ?_⟩
    · intro i hi hj
      obtain ⟨k, rfl⟩ : ∃ k, i = k + 1 := ⟨i - 1, by omega⟩
      simpa using h3 k (by omega) (by omega)
    · right
      rcases Nat.eq_zero_or_pos a with ha | ha
      · subst ha; simp [h6 rfl]
      · obtain ⟨k, rfl⟩ : ∃ k, a = k + 1 := ⟨a - 1, by omega⟩
        rcases h4 with h | h
        · omega
        · simpa using h
    · rcases h5 with h | h
      · left; simp [h]
      · right; simpa using h

theorem zone_zero_one (c d : Bool) (l : List Bool) :
    Zone (c :: d :: l) true 0 1 ↔ c = true ∧ d = false := by
  unfold Zone
  constructor
  · rintro ⟨_, _, h3, _, h5⟩
    refine ⟨by simpa using h3 0 le_rfl (by omega), ?_⟩
    rcases h5 with h | h
    · simp at h
    · simpa using h
  · rintro ⟨rfl, rfl⟩
    refine ⟨by omega, by simp, ?_, by simp, by simp⟩
    intro i _ hi
    obtain rfl : i = 0 := by omega
    rfl

theorem zone_zero_two (c d : Bool) (l : List Bool) (b : ℕ) :
    Zone (c :: d :: l) true 0 (b + 2) ↔ c = true ∧ Zone (d :: l) true 0 (b + 1) := by
  unfold Zone
  constructor
  · rintro ⟨_, h2, h3, _, h5⟩
    refine ⟨by simpa using h3 0 le_rfl (by omega), by omega, by simpa using h2, ?_, by simp, ?_⟩
    · intro i _ hi
      simpa using h3 (i + 1) (by omega) (by omega)
    · rcases h5 with h | h
      · left; simpa using h
      · right; simpa using h
  · rintro ⟨rfl, _, h2, h3, _, h5⟩
    refine ⟨by omega, by simpa using h2, ?_, by simp, ?_⟩
    · intro i _ hi
      cases i with
      | zero => rfl
      | succ k => simpa using h3 k (by omega) (by omega)
    · rcases h5 with h | h
      · left; simpa using h
      · right; simpa using h

theorem mem_runs : ∀ (v : List Bool) (a b : ℕ), (a, b) ∈ runs v ↔ Zone v true a b
  | [], a, b => by
    simp only [runs, List.not_mem_nil, false_iff]
    rintro ⟨h1, h2, _⟩
    simp at h2; omega
  | [c], a, b => by
    constructor
    · intro h
      cases c
      · simp [runs] at h
      · simp only [runs, if_true, List.mem_singleton, Prod.mk.injEq] at h
        obtain ⟨rfl, rfl⟩ := h
        refine ⟨by omega, by simp, ?_, by simp, by simp⟩
        intro i _ hi
        obtain rfl : i = 0 := by omega
        rfl
    · rintro ⟨h1, h2, h3, _, _⟩
      simp only [List.length_singleton] at h2
      obtain rfl : a = 0 := by omega
      obtain rfl : b = 1 := by omega
      have := h3 0 le_rfl (by omega)
      simp at this
      simp [runs, this]
  | c :: d :: l, a, b => by
    have ih := mem_runs (d :: l)
    have hmem : ∀ a b, (a + 1, b + 1) ∈ (runs (d :: l)).map shift ↔ Zone (d :: l) true a b := by
      intro a b
      rw [← ih]
      simp [shift]
    have hno : ∀ b, (0, b) ∉ (runs (d :: l)).map shift := by
      intro b hb
      obtain ⟨q, _, hq⟩ := List.mem_map.1 hb
      simp [shift] at hq
    have hb0 : ∀ a, (a, 0) ∉ (runs (d :: l)).map shift := by
      intro a hb
      obtain ⟨q, _, hq⟩ := List.mem_map.1 hb
      simp [shift] at hq
    have hz0 : ∀ a, ¬ Zone (c :: d :: l) true a 0 := by
      rintro a ⟨h, _⟩; omega
    cases c with
    | false =>
      simp only [runs, Bool.false_eq_true, if_false]
      cases b with
      | zero => simp only [hb0, hz0]
      | succ b =>
        cases a with
        | zero =>
          simp only [hno, false_iff]
          rintro ⟨_, _, h, _⟩
          simpa using h 0 le_rfl (by omega)
        | succ a => rw [hmem, zone_shift]; simp
    | true =>
      simp only [runs, if_true]
      cases d with
      | false =>
        simp only [Bool.false_eq_true, if_false, List.mem_cons, Prod.mk.injEq]
        cases b with
        | zero => simp only [hb0, hz0]; simp
        | succ b =>
          cases a with
          | zero =>
            simp only [hno, or_false, true_and]
            cases b with
            | zero => simp [zone_zero_one]
            | succ b =>
              rw [zone_zero_two]
              constructor
              · intro h; omega
              · rintro ⟨_, _, _, h, _⟩
                simpa using h 0 le_rfl (by omega)
          | succ a =>
            rw [hmem, zone_shift]
            constructor
            · rintro (h | h)
              · omega
              · refine ⟨h, ?_⟩
                rintro rfl
                have := h.2.2.1 0 le_rfl h.1
                simp at this
            · rintro ⟨h, _⟩; right; exact h
      | true =>
        simp only [if_true]
        -- the first run of `true :: l` starts at 0
        have hex : ∃ b' z, runs (true :: l) = (0, b') :: z := by
          have h := lo_hi (true :: l)
          have hlo' : lo (true :: l) = 0 :: starts (true :: l) := by unfold lo; simp
          rw [hlo'] at h
          cases hh : hi (true :: l) with
          | nil => rw [hh] at h; simp at h
          | cons x xs => exact ⟨x, _, by rw [h.2, hh]; rfl⟩
        obtain ⟨b', z, hz⟩ := hex
        have hso := runs_sorted (true :: l)
        have hpos := runs_pos (true :: l)
        rw [hz] at hso hpos hmem hno hb0
        have ih' : ∀ a b, (a, b) ∈ (0, b') :: z ↔ Zone (true :: l) true a b := by
          intro a b; rw [← hz]; exact ih a b
        rw [hz]
        simp only [List.map_cons, shift, ext0]
        rw [List.pairwise_cons] at hso
        have hb'pos : 0 < b' := by simpa using hpos (0, b') (by simp)
        have hz1 : ∀ p ∈ z, 0 < p.1 := fun p hp => by
          have := hso.1 p hp; simp only at this; omega
        cases b with
        | zero =>
          simp only [hz0, iff_false]
          intro h
          rcases List.mem_cons.1 h with h | h
          · simp at h
          · obtain ⟨q, _, hq⟩ := List.mem_map.1 h
            simp [shift] at hq
        | succ b =>
          cases a with
          | zero =>
            cases b with
            | zero =>
              rw [zone_zero_one]
              simp only [List.mem_cons, Prod.mk.injEq, true_and]
              constructor
              · rintro (h | h)
                · omega
                · simp [shift] at h
              · simp
            | succ b =>
              rw [zone_zero_two, ← ih']
              simp only [List.mem_cons, Prod.mk.injEq, true_and]
              constructor
              · rintro (h | h)
                · left; omega
                · simp [shift] at h
              · rintro (h | h)
                · left; omega
                · exact absurd (hz1 _ h) (by simp)
          | succ a =>
            rw [zone_shift, ← ih']
            simp only [List.mem_cons, Prod.mk.injEq, List.mem_map, shift]
            constructor
            · rintro (h | ⟨q, hq, h⟩)
              · omega
              · obtain ⟨h1, h2⟩ := h
                have hq1 := hz1 q hq
                obtain ⟨q1, q2⟩ := q
                simp only at h1 h2 hq1
                obtain rfl : q1 = a := by omega
                obtain rfl : q2 = b := by omega
                exact ⟨Or.inr hq, by omega⟩
            · rintro ⟨h | h, h'⟩
              · exact absurd (h' h.1) (by simp)
              · right; exact ⟨(a, b), h, rfl, rfl⟩

theorem isZones_runs (v : List Bool) : IsZones v true (runs v) := ⟨runs_sorted v, mem_runs v⟩

theorem zone_not (v : List Bool) (c : Bool) (a b : ℕ) : Zone (v.map (!·)) c a b ↔ Zone v (!c) a b := by
  unfold Zone
  have h : ∀ (i : ℕ) (c : Bool), (v.map (!·))[i]? = some c ↔ v[i]? = some (!c) := by
    intro i c
    rw [List.getElem?_map]
    cases v[i]? with
    | none => simp
    | some x => cases x <;> cases c <;> simp
  simp only [h, List.length_map]

/-- The runs of `false`. -/
def runsF (v : List Bool) : List (ℕ × ℕ) := runs (v.map (!·))

theorem isZones_runsF (v : List Bool) : IsZones v false (runsF v) := by
  refine ⟨runs_sorted _, fun a b => ?_⟩
  unfold runsF
  rw [mem_runs, zone_not]; rfl

theorem starts_not (v : List Bool) : starts (v.map (!·)) = (ends v).map (· + 1) := by
  unfold starts ends
  rw [← List.map_dropLast, ← List.map_tail, List.zipWith_map]
  simp

theorem ends_not (v : List Bool) : (ends (v.map (!·))).map (· + 1) = starts v := by
  unfold starts ends
  rw [← List.map_dropLast, ← List.map_tail, List.zipWith_map]
  simp

end Verif.Tar
