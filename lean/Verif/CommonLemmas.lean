import Verif.Common
import Mathlib.Algebra.BigOperators.Group.Finset.Basic
import Mathlib.Algebra.BigOperators.Intervals
/-! Helper lemmas about checked reads and C loops. -/
namespace Verif
variable {α σ : Type}

@[simp] theorem length_tab (n : Nat) (f : Nat → α) : (tab n f).length = n := by simp [tab]

theorem tab_surj (l : List α) (d : α) : l = tab l.length (fun i => l.getD i d) := by
  apply List.ext_getElem (by simp)
  intro i h1 h2
  simp [tab, List.getD_eq_getElem?_getD, h1]

theorem rd_tab (n k : Nat) (f : Nat → α) (h : k < n) : rd (tab n f) (k : Int) = some (f k) := by
  simp [rd, tab, h]

theorem rd_tab_int (n : Nat) (i : Int) (f : Nat → α) (h0 : 0 ≤ i) (h : i < n) :
    rd (tab n f) i = some (f i.toNat) := by
  obtain ⟨k, rfl⟩ := Int.eq_ofNat_of_zero_le h0
  rw [rd_tab _ _ _ (by omega)]
  simp

theorem rd_isSome (l : List α) (i : Int) : (rd l i).isSome = true ↔ 0 ≤ i ∧ i < l.length := by
  unfold rd
  split
  · simp; omega
  · simp; omega

theorem rd_none (l : List α) (i : Int) : rd l i = none ↔ (i < 0 ∨ (l.length : Int) ≤ i) := by
  rw [← Option.not_isSome_iff_eq_none, rd_isSome]; omega

theorem foldlM_some (l : List Nat) (body : σ → Nat → Option σ) (step : σ → Nat → σ) (acc : σ)
    (h : ∀ k ∈ l, ∀ a, body a k = some (step a k)) :
    l.foldlM body acc = some (l.foldl step acc) := by
  induction l generalizing acc with
  | nil => rfl
  | cons k l ih =>
    rw [List.foldlM_cons, h k (by simp)]
    exact ih _ (fun k hk a => h k (by simp [hk]) a)

theorem foldlM_none (l : List Nat) (body : σ → Nat → Option σ) (acc : σ) (k : Nat) (hk : k ∈ l)
    (h : ∀ a, body a k = none) : l.foldlM body acc = none := by
  induction l generalizing acc with
  | nil => cases hk
  | cons j l ih =>
    rw [List.foldlM_cons]
    rcases List.mem_cons.1 hk with rfl | hk'
    · rw [h]; rfl
    · cases hb : body acc j with
      | none => rfl
      | some a => exact ih a hk'

/-- A loop whose body always succeeds. -/
theorem forUp_some (lo hi : Int) (acc : σ) (body : Int → σ → Option σ) (step : Nat → σ → σ)
    (h : ∀ k : Nat, lo + k < hi → ∀ a, body (lo + k) a = some (step k a)) :
    forUp lo hi acc body = some ((List.range (hi - lo).toNat).foldl (fun a k => step k a) acc) := by
  unfold forUp
  apply foldlM_some
  intro k hk a
  rw [List.mem_range] at hk
  exact h k (by omega) a

theorem forUp_none (lo hi : Int) (acc : σ) (body : Int → σ → Option σ) (i : Int)
    (h1 : lo ≤ i) (h2 : i < hi) (h : ∀ a, body i a = none) : forUp lo hi acc body = none := by
  unfold forUp
  apply foldlM_none _ _ _ (i - lo).toNat
  · rw [List.mem_range]; omega
  · intro a
    have : lo + ((i - lo).toNat : Int) = i := by omega
    rw [this]; exact h a

theorem forUp_empty (lo hi : Int) (acc : σ) (body : Int → σ → Option σ) (h : hi ≤ lo) :
    forUp lo hi acc body = some acc := by
  have : (hi - lo).toNat = 0 := by omega
  simp [forUp, this]

theorem foldl_add_sum [AddCommMonoid α] (n : Nat) (g : Nat → α) (acc : α) :
    (List.range n).foldl (fun a k => a + g k) acc = acc + ∑ k ∈ Finset.range n, g k := by
  induction n with
  | zero => simp
  | succ n ih => rw [List.range_succ, List.foldl_append, ih, Finset.sum_range_succ]; simp [add_assoc]

/-- The summation loop. -/
theorem forUp_sum [AddCommMonoid α] (lo hi : Int) (acc : α) (body : Int → α → Option α) (g : Nat → α)
    (h : ∀ k : Nat, lo + k < hi → ∀ a, body (lo + k) a = some (a + g k)) :
    forUp lo hi acc body = some (acc + ∑ k ∈ Finset.range (hi - lo).toNat, g k) := by
  rw [forUp_some lo hi acc body (fun k a => a + g k) h, foldl_add_sum]

theorem mapM_total {α β : Type} (l : List α) (f : α → Option β) (g : α → β)
    (h : ∀ x ∈ l, f x = some (g x)) : l.mapM f = some (l.map g) := by
  induction l with
  | nil => rfl
  | cons x xs ih =>
    rw [List.mapM_cons, h x (by simp), ih (fun y hy => h y (by simp [hy]))]; rfl

end Verif
