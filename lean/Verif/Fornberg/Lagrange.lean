import Mathlib.Algebra.Polynomial.Derivative
import Mathlib.LinearAlgebra.Lagrange
import Mathlib.Tactic.Ring
import Mathlib.Tactic.FieldSimp
import Mathlib.Tactic.LinearCombination
/-! Lagrange basis polynomials built one node at a time, and their derivatives at a point. -/
namespace Verif.Fornberg
open Polynomial Finset
variable {K : Type} [Field K]

/-- `∏_{j<n} (x n - x j)`. -/
def cprod (x : Nat → K) (n : Nat) : K := ∏ j ∈ range n, (x n - x j)

/-- Basis polynomial of node `v` on nodes `0 … n`. -/
noncomputable def ell (x : Nat → K) : Nat → Nat → K[X]
  | 0, _ => 1
  | n + 1, v => if v ≤ n then C (1 / (x (n+1) - x v)) * ((C (x (n+1)) - X) * ell x n v)
      else C (cprod x n / cprod x (n+1)) * ((X - C (x n)) * ell x n n)

/-- Distinct first `n` nodes. -/
def Distinct (x : Nat → K) (n : Nat) : Prop := ∀ i j, i < n → j < n → x i = x j → i = j

theorem cprod_ne {x : Nat → K} {n N : Nat} (h : Distinct x N) (hn : n < N) : cprod x n ≠ 0 := by
  unfold cprod
  rw [prod_ne_zero_iff]
  intro j hj
  rw [mem_range] at hj
  intro e
  have := h n j hn (by omega) (sub_eq_zero.1 e)
  omega

theorem ell_diag_eval (x : Nat → K) (N n : Nat) (h : Distinct x N) (hn : n < N) (t : K) :
    (ell x n n).eval t = (∏ j ∈ range n, (t - x j)) / cprod x n := by
  induction n with
  | zero => simp [ell, cprod]
  | succ n ih =>
    have h1 := cprod_ne h (show n < N by omega)
    have h2 := cprod_ne h hn
    rw [ell, if_neg (by omega), prod_range_succ]
    simp only [eval_mul, eval_C, eval_sub, eval_X]
    rw [ih (by omega)]
    field_simp

theorem ell_eval (x : Nat → K) (N n : Nat) (h : Distinct x N) (hn : n < N) (v j : Nat)
    (hv : v ≤ n) (hj : j ≤ n) : (ell x n v).eval (x j) = if j = v then 1 else 0 := by
  induction n generalizing v j with
  | zero =>
    have : j = v := by omega
    simp [ell, this]
  | succ n ih =>
    by_cases hvn : v ≤ n
    · rw [ell, if_pos hvn]
      simp only [eval_mul, eval_C, eval_sub, eval_X]
      have hne : x (n+1) - x v ≠ 0 := by
        intro e
        have := h (n+1) v hn (by omega) (sub_eq_zero.1 e); omega
      by_cases hjn : j ≤ n
      · rw [ih (by omega) v j hvn hjn]
        split
        · rename_i e; subst e; field_simp
        · simp
      · have : j = n + 1 := by omega
        subst this
        rw [if_neg (by omega)]; simp
    · have : v = n + 1 := by omega
      subst this
      rw [ell_diag_eval x N (n+1) h hn]
      by_cases e : j = n + 1
      · subst e
        rw [if_pos rfl]
        exact div_self (cprod_ne h hn)
      · rw [if_neg e]
        have : ∏ k ∈ range (n+1), (x j - x k) = 0 := by
          apply prod_eq_zero (i := j) (mem_range.2 (by omega)); simp
        rw [this]; simp

theorem ell_degree (x : Nat → K) (n v : Nat) : (ell x n v).degree ≤ n := by
  induction n generalizing v with
  | zero => simp [ell]
  | succ n ih =>
    have lin1 : ∀ a : K, (C a - X : K[X]).degree ≤ 1 := fun a =>
      le_trans (degree_sub_le _ _) (max_le (le_trans degree_C_le (by norm_num)) degree_X_le)
    have lin2 : ∀ a : K, (X - C a : K[X]).degree ≤ 1 := fun a =>
      le_trans (degree_sub_le _ _) (max_le degree_X_le (le_trans degree_C_le (by norm_num)))
    have key : ∀ (c : K) (l q : K[X]), l.degree ≤ 1 → q.degree ≤ n →
        (C c * (l * q)).degree ≤ ((n + 1 : Nat) : WithBot Nat) := by
      intro c l q hl hq
      refine le_trans (degree_mul_le _ _) ?_
      refine le_trans (add_le_add degree_C_le (degree_mul_le _ _)) ?_
      rw [zero_add]
      refine le_trans (add_le_add hl hq) ?_
      rw [add_comm]; norm_cast
    rw [ell]
    split
    · exact key _ _ _ (lin1 _) (ih v)
    · exact key _ _ _ (lin2 _) (ih n)

/-- Interpolation: a polynomial of degree ≤ n is recovered from its values at `n+1` nodes. -/
theorem interp (x : Nat → K) (N n : Nat) (h : Distinct x N) (hn : n < N) (p : K[X])
    (hp : p.degree ≤ n) : p = ∑ v ∈ range (n+1), C (p.eval (x v)) * ell x n v := by
  have hinj : Set.InjOn x (↑(range (n+1)) : Set Nat) := by
    intro i hi j hj e
    simp only [coe_range, Set.mem_Iio] at hi hj
    exact h i j (by omega) (by omega) e
  have lt : ((n : Nat) : WithBot Nat) < ((range (n+1)).card : WithBot Nat) := by
    rw [card_range]; norm_cast; omega
  apply eq_of_degrees_lt_of_eval_index_eq (range (n+1)) hinj
  · exact lt_of_le_of_lt hp lt
  · apply lt_of_le_of_lt _ lt
    apply le_trans (degree_sum_le _ _)
    apply Finset.sup_le
    intro v _
    refine le_trans (degree_mul_le _ _) ?_
    refine le_trans (add_le_add degree_C_le (ell_degree x n v)) ?_
    rw [zero_add]
  · intro j hj
    rw [mem_range] at hj
    rw [eval_finsetSum, sum_eq_single j]
    · rw [eval_mul, eval_C, ell_eval x N n h hn j j (by omega) (by omega)]; simp
    · intro v hv hvj
      rw [mem_range] at hv
      rw [eval_mul, eval_C, ell_eval x N n h hn v j (by omega) (by omega), if_neg (Ne.symm hvj)]
      simp
    · intro hj'; simp at hj'; omega

/-- `m`-th derivative of the basis polynomial at `x0`. -/
noncomputable def D (x : Nat → K) (x0 : K) (m n v : Nat) : K :=
  (derivative^[m] (ell x n v)).eval x0

theorem D_exact (x : Nat → K) (x0 : K) (N n m : Nat) (h : Distinct x N) (hn : n < N) (p : K[X])
    (hp : p.degree ≤ n) :
    ∑ v ∈ range (n+1), D x x0 m n v * p.eval (x v) = (derivative^[m] p).eval x0 := by
  conv_rhs => rw [interp x N n h hn p hp]
  rw [iterate_derivative_sum, eval_finsetSum]
  apply sum_congr rfl
  intro v _
  rw [iterate_derivative_C_mul, eval_mul, eval_C, D, mul_comm]

/-- Leibniz rule for a linear factor. -/
theorem leibniz (a : K) (q : K[X]) (m : Nat) :
    derivative^[m] ((X - C a) * q) = (X - C a) * derivative^[m] q +
      C ((m : Nat) : K) * derivative^[m-1] q := by
  induction m with
  | zero => simp
  | succ m ih =>
    rw [Function.iterate_succ_apply', ih]
    simp only [derivative_add, derivative_mul, derivative_sub, derivative_X, derivative_C]
    rw [Nat.add_sub_cancel, Function.iterate_succ_apply']
    cases m with
    | zero => simp; ring
    | succ m =>
      rw [Nat.add_sub_cancel, ← Function.iterate_succ_apply' derivative m]
      push_cast
      simp only [map_add, map_one]
      ring

theorem D_zero (x : Nat → K) (x0 : K) (m : Nat) : D x x0 m 0 0 = if m = 0 then 1 else 0 := by
  unfold D ell
  cases m with
  | zero => simp
  | succ m => simp

theorem D_off (x : Nat → K) (x0 : K) (m n v : Nat) (hv : v ≤ n) :
    D x x0 m (n+1) v = (1 / (x (n+1) - x v)) *
      ((x (n+1) - x0) * D x x0 m n v - (m : K) * D x x0 (m-1) n v) := by
  unfold D
  rw [ell, if_pos hv, iterate_derivative_C_mul]
  have : (C (x (n+1)) - X) * ell x n v = -((X - C (x (n+1))) * ell x n v) := by ring
  rw [this, iterate_derivative_neg, leibniz]
  simp only [eval_mul, eval_C, eval_neg, eval_add, eval_sub, eval_X]
  ring

theorem D_diag (x : Nat → K) (x0 : K) (m n : Nat) :
    D x x0 m (n+1) (n+1) = (cprod x n / cprod x (n+1)) *
      ((m : K) * D x x0 (m-1) n n - (x n - x0) * D x x0 m n n) := by
  unfold D
  rw [ell, if_neg (by omega), iterate_derivative_C_mul, leibniz]
  simp only [eval_mul, eval_C, eval_add, eval_sub, eval_X]
  ring

theorem D_high (x : Nat → K) (x0 : K) (m n v : Nat) (h : n < m) : D x x0 m n v = 0 := by
  unfold D
  have : derivative^[m] (ell x n v) = 0 := by
    apply iterate_derivative_eq_zero
    apply lt_of_le_of_lt _ h
    exact natDegree_le_of_degree_le (ell_degree x n v)
  rw [this]; simp

end Verif.Fornberg
