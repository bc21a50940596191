import Verif.Cheby.Model
import Mathlib.Analysis.SpecialFunctions.Trigonometric.Chebyshev.Basic
import Mathlib.RingTheory.Polynomial.Chebyshev
import Mathlib.Algebra.Polynomial.Sequence
import Mathlib.LinearAlgebra.Matrix.ToLin
import Mathlib.LinearAlgebra.Matrix.NonsingularInverse
import Mathlib.Analysis.Calculus.Deriv.Polynomial
import Mathlib.Analysis.SpecialFunctions.Sqrt
import Mathlib.Algebra.BigOperators.Field
import Mathlib.LinearAlgebra.Lagrange
import Mathlib.Tactic.FieldSimp
import Mathlib.Tactic.LinearCombination
import Mathlib.Tactic.Positivity
/-!
# Lemmas on the collocation matrices
-/
namespace Verif.Cheby
noncomputable section
open Real Matrix Polynomial Polynomial.Chebyshev

variable {M : ℕ}

theorem theta_pos (i : Fin M) : 0 < theta M i := by
  have : (0 : ℝ) < M := by exact_mod_cast i.pos
  unfold theta; positivity

theorem theta_lt (i : Fin M) : theta M i < π / 2 := by
  have hM : (0 : ℝ) < M := by exact_mod_cast i.pos
  have hi : (i : ℝ) + 1 ≤ M := by exact_mod_cast i.isLt
  unfold theta
  rw [div_mul_eq_mul_div, div_lt_div_iff₀ (by positivity) (by norm_num)]
  nlinarith [pi_pos]

theorem mu_pos (i : Fin M) : 0 < mu M i :=
  cos_pos_of_mem_Ioo ⟨by linarith [theta_pos i, pi_pos], theta_lt i⟩

theorem s_eq (i : Fin M) : s M i = sin (theta M i) := by
  unfold s mu
  rw [← sin_sq, sqrt_sq]
  exact sin_nonneg_of_nonneg_of_le_pi (theta_pos i).le (by linarith [theta_lt i, pi_pos])

theorem s_pos (i : Fin M) : 0 < s M i := by
  rw [s_eq]
  exact sin_pos_of_pos_of_lt_pi (theta_pos i) (by linarith [theta_lt i, pi_pos])

theorem s_sq (i : Fin M) : s M i ^ 2 = 1 - mu M i ^ 2 := by
  rw [s_eq, sin_sq]; rfl

theorem mu_lt_one (i : Fin M) : mu M i < 1 := by
  nlinarith [s_sq i, s_pos i, mu_pos i]

theorem mu_injective : Function.Injective (mu M) := by
  intro i j h
  have := injOn_cos ⟨(theta_pos i).le, by linarith [theta_lt i, pi_pos]⟩ ⟨(theta_pos j).le, by linarith [theta_lt j, pi_pos]⟩ h
  have hM : (0 : ℝ) < M := by exact_mod_cast i.pos
  unfold theta at this
  have h2 : ((i : ℝ) + 1 / 2) = (j : ℝ) + 1 / 2 := by
    have hp : π / (2 * M) ≠ 0 := by positivity
    exact mul_left_cancel₀ hp this
  have h3 : (i : ℝ) = j := by linarith
  exact Fin.ext (by exact_mod_cast h3)

theorem arg_eq (odd : Bool) (i j : Fin M) :
    arg M odd i j = (jIndex odd j) * theta M i + (jIndex odd j : ℕ) * π := by
  have hM : (M : ℝ) ≠ 0 := by exact_mod_cast i.pos.ne'
  unfold arg theta
  field_simp
  ring

/-- Sign of the basis functions. -/
def sg (n : ℕ) : ℝ := (-1) ^ n

theorem cij_eq (odd : Bool) (i j : Fin M) : cij M odd i j = sg (jIndex odd j) * (T ℝ (jIndex odd j)).eval (mu M i) := by
  rw [cij, arg_eq, cos_add_nat_mul_pi, mu, T_real_cos, sg]
  simp

theorem n_sij (odd : Bool) (i j : Fin M) :
    (jIndex odd j) * sij M odd i j = sg (jIndex odd j) * ((derivative (T ℝ (jIndex odd j))).eval (mu M i) * s M i) := by
  rw [sij, arg_eq, sin_add_nat_mul_pi, T_derivative_eq_U, eval_mul, s_eq, mul_assoc, mu, U_real_cos, sg]
  simp
  ring

theorem T_second (n : ℕ) (x : ℝ) : (1 - x ^ 2) * (derivative (derivative (T ℝ n))).eval x =
    x * (derivative (T ℝ n)).eval x - n ^ 2 * (T ℝ n).eval x := by
  have := congrArg (eval x) (one_sub_X_sq_mul_derivative_derivative_T_eq_poly_in_T (R := ℝ) n)
  simpa using this

/-- The polynomial with coefficients `c`. -/
def poly (odd : Bool) (c : Fin M → ℝ) : ℝ[X] := ∑ j, (c j * sg (jIndex odd j)) • T ℝ (jIndex odd j)

theorem poly_eval (odd : Bool) (c : Fin M → ℝ) (x : ℝ) :
    (poly odd c).eval x = ∑ j, c j * sg (jIndex odd j) * (T ℝ (jIndex odd j)).eval x := by
  simp [poly, eval_finset_sum, eval_smul]

theorem poly_d1 (odd : Bool) (c : Fin M → ℝ) (x : ℝ) :
    (derivative (poly odd c)).eval x = ∑ j, c j * sg (jIndex odd j) * (derivative (T ℝ (jIndex odd j))).eval x := by
  simp [poly, eval_finset_sum, derivative_smul, eval_smul]

theorem poly_d2 (odd : Bool) (c : Fin M → ℝ) (x : ℝ) :
    (derivative (derivative (poly odd c))).eval x =
      ∑ j, c j * sg (jIndex odd j) * (derivative (derivative (T ℝ (jIndex odd j)))).eval x := by
  simp [poly, eval_finset_sum, derivative_smul, eval_smul]

/-- Value, first and second derivative of `p · (1 or sqrt(1-x²))` at a collocation point. -/
def F0 (pf : Bool) (p : ℝ[X]) (i : Fin M) : ℝ := if pf then p.eval (mu M i) * s M i else p.eval (mu M i)
def F1 (pf : Bool) (p : ℝ[X]) (i : Fin M) : ℝ :=
  if pf then (derivative p).eval (mu M i) * s M i - p.eval (mu M i) * mu M i / s M i else (derivative p).eval (mu M i)
def F2 (pf : Bool) (p : ℝ[X]) (i : Fin M) : ℝ :=
  if pf then (derivative (derivative p)).eval (mu M i) * s M i - 2 * (derivative p).eval (mu M i) * mu M i / s M i
    - p.eval (mu M i) / s M i ^ 3
  else (derivative (derivative p)).eval (mu M i)

theorem raw0_mulVec (odd pf : Bool) (c : Fin M → ℝ) : raw0 M odd pf *ᵥ c = F0 pf (poly odd c) := by
  funext i
  simp only [mulVec, dotProduct, raw0, of_apply, F0, poly_eval]
  cases pf with
  | false => simp only [Bool.false_eq_true, if_false, cij_eq]; exact Finset.sum_congr rfl fun j _ => by ring
  | true => simp only [if_true, cij_eq, Finset.sum_mul]; exact Finset.sum_congr rfl fun j _ => by ring

theorem raw1_mulVec (odd pf : Bool) (c : Fin M → ℝ) : raw1 M odd pf *ᵥ c = F1 pf (poly odd c) := by
  funext i
  have hs := (s_pos i).ne'
  simp only [mulVec, dotProduct, raw1, of_apply, F1, poly_eval, poly_d1, n_sij, cij_eq]
  cases pf with
  | false =>
    simp only [Bool.false_eq_true, if_false]
    exact Finset.sum_congr rfl fun j _ => by field_simp
  | true =>
    simp only [if_true, Finset.sum_mul, Finset.sum_div, ← Finset.sum_sub_distrib]
    exact Finset.sum_congr rfl fun j _ => by ring

theorem raw2_mulVec (odd pf : Bool) (c : Fin M → ℝ) : raw2 M odd pf *ᵥ c = F2 pf (poly odd c) := by
  funext i
  have hs := (s_pos i).ne'
  simp only [mulVec, dotProduct, raw2, of_apply, F2, poly_eval, poly_d1, poly_d2]
  have key : ∀ j : Fin M, s M i ^ 2 * (derivative (derivative (T ℝ (jIndex odd j)))).eval (mu M i) =
      mu M i * (derivative (T ℝ (jIndex odd j))).eval (mu M i) - (jIndex odd j : ℝ) ^ 2 * (T ℝ (jIndex odd j)).eval (mu M i) := by
    intro j; rw [s_sq]; exact T_second _ _
  cases pf with
  | false =>
    simp only [Bool.false_eq_true, if_false]
    refine Finset.sum_congr rfl fun j _ => ?_
    have h1 := n_sij odd i j
    have h2 := cij_eq odd i j
    have h3 := key j
    have e : (jIndex odd j : ℝ) / s M i ^ 3 * (mu M i * sij M odd i j - (jIndex odd j) * cij M odd i j * s M i) =
        (mu M i * ((jIndex odd j) * sij M odd i j) - (jIndex odd j : ℝ) ^ 2 * cij M odd i j * s M i) / s M i ^ 3 := by ring
    rw [e, h1, h2]
    field_simp
    linear_combination (-(c j * sg (jIndex odd j))) * h3
  | true =>
    simp only [if_true, Finset.sum_mul, Finset.mul_sum, Finset.sum_div, ← Finset.sum_sub_distrib]
    refine Finset.sum_congr rfl fun j _ => ?_
    have h1 := n_sij odd i j
    have h2 := cij_eq odd i j
    have h3 := key j
    rw [h1, h2]
    field_simp
    linear_combination (-(c j * (s M i) ^ 2 * (sg (jIndex odd j)))) * h3

/-- Chebyshev polynomials as a polynomial sequence. -/
def chebSeq : Polynomial.Sequence ℝ := ⟨fun n => T ℝ n, fun n => by simp [degree_T]⟩

theorem jIndex_inj (odd : Bool) : Function.Injective (fun j : Fin M => jIndex odd j) := by
  intro a b h
  apply Fin.ext
  cases odd <;> simp [jIndex] at h <;> omega

theorem jIndex_lt (odd : Bool) (j : Fin M) : jIndex odd j < 2 * M := by
  have := j.isLt
  cases odd <;> simp [jIndex] <;> omega

theorem sg_ne (n : ℕ) : sg n ≠ 0 := by unfold sg; positivity

theorem poly_eq_zero (odd : Bool) (c : Fin M → ℝ) (h : poly odd c = 0) : c = 0 := by
  have hli : LinearIndependent ℝ (fun j : Fin M => chebSeq (jIndex odd j)) :=
    (chebSeq.linearIndependent).comp _ (jIndex_inj odd)
  rw [Fintype.linearIndependent_iff] at hli
  have := hli (fun j => c j * sg (jIndex odd j)) h
  funext j
  exact (mul_eq_zero.1 (this j)).resolve_right (sg_ne _)

theorem poly_degree (odd : Bool) (c : Fin M → ℝ) : (poly odd c).degree < (2 * M : ℕ) := by
  unfold poly
  refine (degree_sum_le _ _).trans_lt ?_
  rw [Finset.sup_lt_iff (WithBot.bot_lt_coe _)]
  intro j _
  refine (degree_smul_le _ _).trans_lt ?_
  rw [degree_T]
  exact_mod_cast jIndex_lt odd j

/-- Even (`odd = false`) or odd polynomials. -/
def HasParity (odd : Bool) (p : ℝ[X]) : Prop := ∀ x, p.eval (-x) = if odd then -p.eval x else p.eval x

theorem poly_parity (odd : Bool) (c : Fin M → ℝ) : HasParity odd (poly odd c) := by
  intro x
  have hT : ∀ j : Fin M, (T ℝ (jIndex odd j)).eval (-x) = if odd then -(T ℝ (jIndex odd j)).eval x else (T ℝ (jIndex odd j)).eval x := by
    intro j
    rw [T_eval_neg]
    cases odd with
    | false =>
      have : ((jIndex false j : ℕ) : ℤ).negOnePow = 1 := Int.negOnePow_even _ ⟨(j : ℤ), by simp [jIndex]; ring⟩
      simp [this]
    | true =>
      have : ((jIndex true j : ℕ) : ℤ).negOnePow = -1 := Int.negOnePow_odd _ ⟨(j : ℤ), by simp [jIndex]⟩
      simp [this]
  rw [poly_eval, poly_eval]
  cases odd with
  | false => simp only [Bool.false_eq_true, if_false] at hT ⊢; simp only [hT]
  | true =>
    simp only [if_true] at hT ⊢
    simp only [hT, mul_neg, Finset.sum_neg_distrib]

/-- A polynomial with parity of degree below `2M` is determined by its values at the collocation points. -/
theorem eq_of_colloc (odd : Bool) (p q : ℝ[X]) (hp : HasParity odd p) (hq : HasParity odd q)
    (dp : p.degree < (2 * M : ℕ)) (dq : q.degree < (2 * M : ℕ))
    (h : ∀ i : Fin M, p.eval (mu M i) = q.eval (mu M i)) : p = q := by
  let S : Finset ℝ := (Finset.univ.image (mu M)) ∪ (Finset.univ.image (fun i => -mu M i))
  have hcard : S.card = 2 * M := by
    rw [Finset.card_union_of_disjoint, Finset.card_image_of_injective _ mu_injective,
      Finset.card_image_of_injective _ (fun a b hab => mu_injective (neg_injective hab))]
    · simp; ring
    · rw [Finset.disjoint_left]
      intro x hx hx'
      obtain ⟨i, _, rfl⟩ := Finset.mem_image.1 hx
      obtain ⟨j, _, hj⟩ := Finset.mem_image.1 hx'
      have := mu_pos i
      have := mu_pos j
      linarith
  apply Polynomial.eq_of_degrees_lt_of_eval_finset_eq S (by rwa [hcard]) (by rwa [hcard])
  intro x hx
  rcases Finset.mem_union.1 hx with hx | hx
  · obtain ⟨i, _, rfl⟩ := Finset.mem_image.1 hx
    exact h i
  · obtain ⟨i, _, rfl⟩ := Finset.mem_image.1 hx
    rw [hp, hq, h i]

theorem raw0_isUnit (odd pf : Bool) : IsUnit (raw0 M odd pf) := by
  rw [← mulVec_injective_iff_isUnit]
  intro a b h
  have h0 : raw0 M odd pf *ᵥ (a - b) = 0 := by rw [mulVec_sub, h, sub_self]
  rw [raw0_mulVec] at h0
  have hz : poly odd (a - b) = 0 := by
    apply eq_of_colloc odd _ _ (poly_parity _ _) (fun x => by simp) (poly_degree (M := M) _ _) (by rw [degree_zero]; exact WithBot.bot_lt_coe _)
    intro i
    have := congrFun h0 i
    have hs := (s_pos i).ne'
    cases pf with
    | false => simpa [F0] using this
    | true => simpa [F0, hs] using this
  exact sub_eq_zero.1 (poly_eq_zero odd _ hz)

/-- The collocation samples of a polynomial with parity come from coefficients. -/
theorem exists_coeffs (odd pf : Bool) (p : ℝ[X]) (hp : HasParity odd p) (dp : p.degree < (2 * M : ℕ)) :
    poly odd (d0 M odd pf *ᵥ F0 pf p) = p := by
  have hu := raw0_isUnit (M := M) odd pf
  have h : raw0 M odd pf *ᵥ (d0 M odd pf *ᵥ F0 pf p) = F0 pf p := by
    rw [mulVec_mulVec, d0, mul_nonsing_inv _ ((isUnit_iff_isUnit_det _).1 hu), one_mulVec]
  rw [raw0_mulVec] at h
  apply eq_of_colloc odd _ _ (poly_parity _ _) hp (poly_degree (M := M) _ _) dp
  intro i
  have := congrFun h i
  have hs := (s_pos i).ne'
  cases pf with
  | false => simpa [F0] using this
  | true => simpa [F0, hs] using this

theorem diff1_F (odd pf : Bool) (p : ℝ[X]) (hp : HasParity odd p) (dp : p.degree < (2 * M : ℕ)) :
    diff1 M (F0 pf p) odd pf = F1 pf p := by
  rw [diff1, d1, ← mulVec_mulVec, raw1_mulVec, exists_coeffs odd pf p hp dp]

theorem diff2_F (odd pf : Bool) (p : ℝ[X]) (hp : HasParity odd p) (dp : p.degree < (2 * M : ℕ)) :
    diff2 M (F0 pf p) odd pf = F2 pf p := by
  rw [diff2, d2, ← mulVec_mulVec, raw2_mulVec, exists_coeffs odd pf p hp dp]

end
end Verif.Cheby
