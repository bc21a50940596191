import Verif.Tar.Masks
import Mathlib.Algebra.BigOperators.Intervals
import Mathlib.Tactic.Ring
import Mathlib.Tactic.Abel
import Mathlib.Tactic.LinearCombination
/-! # Contributions of the zones and the adjusted profile -/
namespace Verif.Tar
open Finset

section sums
variable {K : Type} [Field K]

/-- Sum over the runs = sum over the indices with value `true`. -/
theorem runs_sum : ∀ (v : List Bool) (f : ℕ → K),
    ((runs v).map fun p => ∑ i ∈ Ico p.1 p.2, f i).sum
      = ∑ i ∈ range v.length, if v[i]? = some true then f i else 0
  | [], f => by simp [runs]
  | [c], f => by cases c <;> simp [runs]
  | c :: d :: l, f => by
    have ih := runs_sum (d :: l) (fun i => f (i + 1))
    have hsh : ∀ z : List (ℕ × ℕ), ((z.map shift).map fun p => ∑ i ∈ Ico p.1 p.2, f i).sum
        = (z.map fun p => ∑ i ∈ Ico p.1 p.2, f (i + 1)).sum := by
      intro z
      rw [List.map_map]
      congr 1
      refine List.map_congr_left fun p _ => ?_
      simp only [Function.comp, shift]
      rw [Finset.sum_Ico_add' f p.1 p.2 1]
    rw [List.length_cons, Finset.sum_range_succ']
    have hr : ∀ x, (∑ i ∈ range (d :: l).length, if (c :: d :: l)[i + 1]? = some true then f (i + 1) else 0)
        + x = ((runs (d :: l)).map fun p => ∑ i ∈ Ico p.1 p.2, f (i + 1)).sum + x := by
      intro x; rw [ih]; simp
    rw [hr]
    cases c with
    | false => simp only [runs, Bool.false_eq_true, if_false]; rw [hsh]; simp
    | true =>
      cases d with
      | false =>
        simp only [runs, if_true, Bool.false_eq_true, if_false, List.map_cons, List.sum_cons]
        rw [hsh]
        simp [add_comm]
      | true =>
        simp only [runs, if_true]
        have hex : ∃ b' z, runs (true :: l) = (0, b') :: z := by
          have h := lo_hi (true :: l)
          have hlo' : lo (true :: l) = 0 :: starts (true :: l) := by unfold lo; simp
          rw [hlo'] at h
          cases hh : hi (true :: l) with
          | nil => rw [hh] at h; simp at h
          | cons x xs => exact ⟨x, _, by rw [h.2, hh]; rfl⟩
        obtain ⟨b', z, hz⟩ := hex
        rw [hz]
        simp only [List.map_cons, shift, ext0, List.sum_cons]
        have e : ∑ i ∈ Ico 0 (b' + 1), f i = f 0 + ∑ i ∈ Ico 0 b', f (i + 1) := by
          simp only [← Finset.range_eq_Ico]
          rw [Finset.sum_range_succ', add_comm]
        rw [e]
        have h2 := hsh z
        rw [h2]
        simp
        ring

/-- Increment of a profile over a radial interval, charged to its left point. -/
def incr (y : List K) (i : ℕ) : K := y.getD (i + 1) 0 - y.getD i 0

/-- The profile that only accumulates the increments of the intervals whose left point is valid. -/
def validPart (v : List Bool) (y : List K) (j : ℕ) : K :=
  y.getD 0 0 + ∑ i ∈ range j, if v[i]? = some true then incr y i else 0

/-- The part accumulated over the other intervals. -/
def invalidPart (v : List Bool) (y : List K) (j : ℕ) : K :=
  ∑ i ∈ range j, if v[i]? = some false then incr y i else 0

theorem parts (v : List Bool) (y : List K) (j : ℕ) (hj : j ≤ v.length) :
    validPart v y j = y.getD j 0 - invalidPart v y j := by
  induction j with
  | zero => simp [validPart, invalidPart]
  | succ j ih =>
    have h := ih (by omega)
    simp only [validPart, invalidPart] at h ⊢
    rw [Finset.sum_range_succ, Finset.sum_range_succ]
    obtain ⟨c, hc⟩ : ∃ c, v[j]? = some c := ⟨_, List.getElem?_eq_getElem (by omega)⟩
    rw [hc]
    have hi : incr y j = y.getD (j + 1) 0 - y.getD j 0 := rfl
    cases c
    · rw [if_neg (by simp), if_pos rfl, hi]; linear_combination h
    · rw [if_pos rfl, if_neg (by simp), hi]; linear_combination h

/-- Telescoping over a zone that may be cut at the last point. -/
theorem zone_tele (y : List K) (n a b : ℕ) (ha : a < n) (hab : a < b) :
    ∑ i ∈ Ico a b, (if i < n - 1 then incr y i else 0) = y.getD (min b (n - 1)) 0 - y.getD a 0 := by
  have h1 : ∀ b, a ≤ b → b ≤ n - 1 → ∑ i ∈ Ico a b, (if i < n - 1 then incr y i else 0)
      = y.getD b 0 - y.getD a 0 := by
    intro b hab hb
    induction b, hab using Nat.le_induction with
    | base => simp
    | succ b hab ih =>
      rw [Finset.sum_Ico_succ_top hab, ih (by omega), if_pos (by omega)]
      simp only [incr]; ring
  rcases Nat.lt_or_ge (n - 1) b with h | h
  · rw [Nat.min_eq_right (by omega), ← h1 (n - 1) (by omega) le_rfl,
      ← Finset.sum_Ico_consecutive _ (show a ≤ n - 1 by omega) (show n - 1 ≤ b by omega)]
    rw [Finset.sum_eq_zero (s := Ico (n - 1) b), add_zero]
    intro i hi
    rw [Finset.mem_Ico] at hi
    rw [if_neg (by omega)]
  · rw [Nat.min_eq_left h]
    exact h1 b hab.le h

/-- The number a zone contributes. -/
def zc (n : ℕ) (y : List K) (p : ℕ × ℕ) : K := y.getD (min p.2 (n - 1)) 0 - y.getD p.1 0

theorem runsF_bounds (v : List Bool) : ∀ p ∈ runsF v, p.1 < p.2 ∧ p.2 ≤ v.length := by
  intro p hp
  have := ((isZones_runsF v).2 p.1 p.2).1 hp
  exact ⟨this.1, this.2.1⟩

/-- What is accumulated over the invalid intervals before `j` is the sum of the contributions of the invalid zones
before `j`. -/
theorem invalidPart_split (v : List Bool) (y : List K) (l1 l2 : List (ℕ × ℕ)) (hz : runsF v = l1 ++ l2)
    (j : ℕ) (hj : j < v.length) (h1 : ∀ p ∈ l1, p.2 ≤ j ∨ (j = v.length - 1 ∧ p.2 ≤ v.length))
    (h2 : ∀ p ∈ l2, j ≤ p.1) :
    invalidPart v y j = (l1.map (zc v.length y)).sum := by
  have hb := runsF_bounds v
  have h := runs_sum (v.map (!·)) (fun i => if i < j then incr y i else 0)
  rw [show runs (v.map (!·)) = runsF v from rfl, hz, List.map_append, List.sum_append,
    List.length_map] at h
  have e2 : (l2.map fun p => ∑ i ∈ Ico p.1 p.2, if i < j then incr y i else 0).sum = 0 := by
    refine List.sum_eq_zero fun x hx => ?_
    obtain ⟨p, hp, rfl⟩ := List.mem_map.1 hx
    refine Finset.sum_eq_zero fun i hi => ?_
    rw [Finset.mem_Ico] at hi
    have := h2 p hp
    rw [if_neg (by omega)]
  have e1 : (l1.map fun p => ∑ i ∈ Ico p.1 p.2, if i < j then incr y i else 0)
      = l1.map (zc v.length y) := by
    refine List.map_congr_left fun p hp => ?_
    have hpb := hb p (by rw [hz]; simp [hp])
    rcases h1 p hp with h | ⟨h, _⟩
    · rw [zc, ← zone_tele y v.length p.1 p.2 (by omega) hpb.1]
      refine Finset.sum_congr rfl fun i hi => ?_
      rw [Finset.mem_Ico] at hi
      rw [if_pos (by omega), if_pos (by omega)]
    · subst h
      rw [zc, ← zone_tele y v.length p.1 p.2 (by omega) hpb.1]
  rw [e1, e2, add_zero] at h
  rw [h, invalidPart]
  have hnot : ∀ i : ℕ, (v.map (!·))[i]? = some true ↔ v[i]? = some false := by
    intro i
    rw [List.getElem?_map]
    cases v[i]? with
    | none => simp
    | some x => cases x <;> simp
  simp only [hnot]
  rw [show v.length = j + (v.length - j) by omega, Finset.sum_range_add]
  rw [Finset.sum_eq_zero (s := range (v.length - j)), add_zero]
  · refine Finset.sum_congr rfl fun i hi => ?_
    rw [Finset.mem_range] at hi
    simp [hi]
  · intro i _
    simp

theorem cumsumFrom_length (l : List K) : ∀ a, (cumsumFrom a l).length = l.length := by
  induction l with
  | nil => intro a; rfl
  | cons x l ih => intro a; simp [cumsumFrom, ih]

theorem cumsumFrom_get (l : List K) : ∀ (a : K) (k : ℕ), k < l.length →
    (cumsumFrom a l)[k]? = some (a + (l.take (k + 1)).sum) := by
  induction l with
  | nil => intro a k h; simp at h
  | cons x l ih =>
    intro a k h
    cases k with
    | zero => simp [cumsumFrom]
    | succ k =>
      simp only [cumsumFrom, List.getElem?_cons_succ]
      rw [ih (a + x) k (by simpa using h)]
      simp [List.take_succ_cons, add_assoc]

theorem cumsum_get (l : List K) (k : ℕ) (h : k < l.length) : (cumsum l)[k]? = some ((l.take (k + 1)).sum) := by
  rw [cumsum, cumsumFrom_get l 0 k h, zero_add]

theorem cumsum_last (l : List K) (h : l ≠ []) : (cumsum l).getLast? = some l.sum := by
  have hp : 0 < l.length := List.length_pos_iff.2 h
  rw [List.getLast?_eq_getElem?, cumsum, cumsumFrom_length, ← cumsum, cumsum_get l _ (by omega)]
  rw [List.take_of_length_le (by omega)]

end sums

section loops
variable {K : Type} [Field K]

theorem setMask_length (p : List K) (m : Option Slice) (f : ℕ → K) : (setMask p m f).length = p.length := by
  simp [setMask]

theorem setMask_get (p : List K) (m : Option Slice) (f : ℕ → K) (j : ℕ) (hj : j < p.length) :
    (setMask p m f)[j]? = if sel p.length m j then some (f j) else p[j]? := by
  simp only [setMask, List.getElem?_mapIdx]
  rw [List.getElem?_eq_getElem hj]
  simp only [Option.map_some]
  split <;> rfl

theorem invalidLoop_length (s : List K) (l : List (Option Slice × K)) : ∀ i (p : List K),
    (invalidLoop s i l p).length = p.length := by
  induction l with
  | nil => intro i p; rfl
  | cons x l ih => intro i p; obtain ⟨m, c⟩ := x; simp [invalidLoop, ih, setMask_length]

theorem invalidLoop_none (s : List K) (l : List (Option Slice × K)) (j : ℕ) : ∀ i (p : List K), j < p.length →
    (∀ x ∈ l, sel p.length x.1 j = false) → (invalidLoop s i l p)[j]? = p[j]? := by
  induction l with
  | nil => intro i p _ _; rfl
  | cons x l ih =>
    intro i p hj h
    obtain ⟨m, c⟩ := x
    simp only [invalidLoop]
    rw [ih _ _ (by rw [setMask_length]; exact hj)
      (fun x hx => by rw [setMask_length]; exact h x (by simp [hx])), setMask_get _ _ _ _ hj]
    have hm : sel p.length m j = false := h (m, c) (by simp)
    simp [hm]

theorem invalidLoop_hit (s : List K) (l1 l2 : List (Option Slice × K)) (m : Option Slice) (c : K) (j : ℕ) :
    ∀ i (p : List K), j < p.length → sel p.length m j = true → (∀ x ∈ l2, sel p.length x.1 j = false) →
    (invalidLoop s i (l1 ++ (m, c) :: l2) p)[j]?
      = some (if i + l1.length > 0 then c - s.getD (i + l1.length - 1) 0 else c) := by
  induction l1 with
  | nil =>
    intro i p hj hm h
    simp only [List.nil_append, invalidLoop]
    rw [invalidLoop_none _ _ _ _ _ (by rw [setMask_length]; exact hj)
      (fun x hx => by rw [setMask_length]; exact h x hx), setMask_get _ _ _ _ hj, if_pos hm]
    simp
  | cons x l1 ih =>
    intro i p hj hm h
    obtain ⟨m', c'⟩ := x
    simp only [List.cons_append, invalidLoop]
    rw [ih _ _ (by rw [setMask_length]; exact hj) (by rw [setMask_length]; exact hm)
      (fun x hx => by rw [setMask_length]; exact h x hx)]
    simp only [List.length_cons]
    rw [show i + 1 + l1.length = i + (l1.length + 1) by omega]

theorem validLoop_length (y : List K) (l : List (K × Option Slice)) : ∀ (p : List K),
    (validLoop y l p).length = p.length := by
  induction l with
  | nil => intro p; rfl
  | cons x l ih => intro p; obtain ⟨m, c⟩ := x; simp [validLoop, ih, setMask_length]

theorem validLoop_none (y : List K) (l : List (K × Option Slice)) (j : ℕ) : ∀ (p : List K), j < p.length →
    (∀ x ∈ l, sel p.length x.2 j = false) → (validLoop y l p)[j]? = p[j]? := by
  induction l with
  | nil => intro p _ _; rfl
  | cons x l ih =>
    intro p hj h
    obtain ⟨a, m⟩ := x
    simp only [validLoop]
    rw [ih _ (by rw [setMask_length]; exact hj)
      (fun x hx => by rw [setMask_length]; exact h x (by simp [hx])), setMask_get _ _ _ _ hj]
    have hm : sel p.length m j = false := h (a, m) (by simp)
    simp [hm]

theorem validLoop_hit (y : List K) (l1 l2 : List (K × Option Slice)) (m : Option Slice) (a : K) (j : ℕ) :
    ∀ (p : List K), j < p.length → sel p.length m j = true → (∀ x ∈ l2, sel p.length x.2 j = false) →
    (validLoop y (l1 ++ (a, m) :: l2) p)[j]? = some (y.getD j 0 - a) := by
  induction l1 with
  | nil =>
    intro p hj hm h
    simp only [List.nil_append, validLoop]
    rw [validLoop_none _ _ _ _ (by rw [setMask_length]; exact hj)
      (fun x hx => by rw [setMask_length]; exact h x hx), setMask_get _ _ _ _ hj, if_pos hm]
  | cons x l1 ih =>
    intro p hj hm h
    obtain ⟨a', m'⟩ := x
    simp only [List.cons_append, validLoop]
    exact ih _ (by rw [setMask_length]; exact hj) (by rw [setMask_length]; exact hm)
      (fun x hx => by rw [setMask_length]; exact h x hx)

/-- A mask with a known range. -/
theorem sel_range (n : ℕ) (m : Option Slice) (p : ℕ × ℕ) (h : m.map (Slice.range n) = some p) (j : ℕ) :
    sel n m j = decide (p.1 ≤ j ∧ j < p.2) := by
  cases m with
  | none => simp at h
  | some s =>
    simp only [Option.map_some, Option.some.injEq] at h
    subst h
    rfl

end loops
end Verif.Tar
