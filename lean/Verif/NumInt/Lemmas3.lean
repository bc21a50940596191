import Verif.NumInt.Lemmas2
import Mathlib.Analysis.Calculus.Deriv.Pow
/-! Simpson and integral lemmas. -/
namespace Verif.NumInt
open Finset Spec

theorem simpson_panels {K : Type} [CommRing K] (g : Nat → K) (m : Nat) :
    g 0 + g (2*(m+1)) + ∑ k ∈ range m, (4 * g (2*k+1) + 2 * g (2*k+2)) + 4 * g (2*(m+1)-1)
      = ∑ k ∈ range (m+1), (g (2*k) + 4 * g (2*k+1) + g (2*k+2)) := by
  induction m with
  | zero => simp; ring
  | succ m ih =>
    rw [sum_range_succ _ (m+1), ← ih, sum_range_succ _ m]
    have e1 : 2 * (m + 1 + 1) - 1 = 2 * m + 3 := by omega
    have e2 : 2 * (m + 1) - 1 = 2 * m + 1 := by omega
    have e3 : 2 * (m + 1) + 1 = 2 * m + 3 := by omega
    have e4 : 2 * (m + 1) + 2 = 2 * m + 4 := by omega
    have e5 : 2 * (m + 1 + 1) = 2 * m + 4 := by omega
    have e6 : 2 * (m + 1) = 2 * m + 2 := by omega
    rw [e1, e2, e3, e4, e5, e6]; ring

/-- Antiderivative of a cubic. -/
noncomputable def cubicAnti (a b c d t : ℝ) : ℝ := a * t + b * t^2 / 2 + c * t^3 / 3 + d * t^4 / 4

theorem cubicAnti_deriv (a b c d t : ℝ) :
    HasDerivAt (cubicAnti a b c d) (a + b * t + c * t^2 + d * t^3) t := by
  have h1 := (hasDerivAt_id t).const_mul a
  have h2 := ((hasDerivAt_pow 2 t).const_mul b).div_const 2
  have h3 := ((hasDerivAt_pow 3 t).const_mul c).div_const 3
  have h4 := ((hasDerivAt_pow 4 t).const_mul d).div_const 4
  refine (((h1.add h2).add h3).add h4).congr_deriv ?_
  push_cast
  ring

theorem integral_cubic (a b c d u v : ℝ) :
    ∫ t in u..v, (a + b * t + c * t^2 + d * t^3) = cubicAnti a b c d v - cubicAnti a b c d u := by
  apply intervalIntegral.integral_eq_sub_of_hasDerivAt
  · intro t _; exact cubicAnti_deriv a b c d t
  · apply Continuous.intervalIntegrable; fun_prop

theorem eval_cubic (p : Polynomial ℝ) (hp : p.natDegree ≤ 3) (t : ℝ) :
    p.eval t = p.coeff 0 + p.coeff 1 * t + p.coeff 2 * t^2 + p.coeff 3 * t^3 := by
  rw [Polynomial.eval_eq_sum_range' (n := 4) (by omega)]
  simp [Finset.sum_range_succ]

theorem integral_poly3 (p : Polynomial ℝ) (hp : p.natDegree ≤ 3) (u v : ℝ) :
    ∫ t in u..v, p.eval t = cubicAnti (p.coeff 0) (p.coeff 1) (p.coeff 2) (p.coeff 3) v -
      cubicAnti (p.coeff 0) (p.coeff 1) (p.coeff 2) (p.coeff 3) u := by
  rw [← integral_cubic]
  congr 1; funext t; exact eval_cubic p hp t

theorem simpson_cubic (a b c d x0 h : ℝ) (m : Nat) :
    h / 3 * ∑ k ∈ range m, (
      (fun t : ℝ => a + b * t + c * t^2 + d * t^3) (x0 + (2*k : Nat) * h) +
      4 * (fun t : ℝ => a + b * t + c * t^2 + d * t^3) (x0 + (2*k+1 : Nat) * h) +
      (fun t : ℝ => a + b * t + c * t^2 + d * t^3) (x0 + (2*k+2 : Nat) * h)) =
    cubicAnti a b c d (x0 + (2*m : Nat) * h) - cubicAnti a b c d x0 := by
  induction m with
  | zero => simp
  | succ m ih =>
    rw [sum_range_succ, mul_add, ih]
    unfold cubicAnti
    push_cast
    ring

/-- Telescoping: affine integrands. -/
theorem trapSum_affine (n : Nat) (x : Nat → ℝ) (a b : ℝ) :
    trapSum n x (fun i => a * x i + b) = ∫ t in (x 0)..(x (n - 1)), (a * t + b) := by
  have : ∫ t in (x 0)..(x (n - 1)), (a * t + b) = cubicAnti b a 0 0 (x (n-1)) - cubicAnti b a 0 0 (x 0) := by
    rw [← integral_cubic]
    congr 1; funext t; ring
  rw [this]
  unfold trapSum
  generalize n - 1 = m
  induction m with
  | zero => simp
  | succ m ih =>
    rw [sum_range_succ, ih]
    unfold cubicAnti
    ring

/-! ### reductions -/

theorem privateSum_some {K : Type} [Field K] (g : Nat → Option K) (v : Nat → K) (its : List Nat)
    (h : ∀ i ∈ its, g i = some (v i)) : privateSum g its = some ((its.map v).sum) := by
  unfold privateSum
  rw [foldlM_some its _ (fun a i => a + v i)]
  · congr 1
    have : ∀ (l : List Nat) (a : K), l.foldl (fun a i => a + v i) a = a + (l.map v).sum := by
      intro l
      induction l with
      | nil => simp
      | cons i l ih => intro a; simp [ih, add_assoc]
    rw [this]; simp
  · intro k hk a; rw [h k hk]; rfl

theorem reduction_some {K : Type} [Field K] (sched : List (List Nat)) (init : K)
    (g : Nat → Option K) (v : Nat → K) (h : ∀ i ∈ sched.flatten, g i = some (v i)) :
    reduction sched init g = some (init + (sched.flatten.map v).sum) := by
  unfold reduction
  induction sched generalizing init with
  | nil => simp
  | cons its l ih =>
    rw [List.foldlM_cons, privateSum_some g v its (fun i hi => h i (by simp [hi]))]
    refine (ih (init + (its.map v).sum) (fun i hi => h i (by rw [List.flatten_cons]; exact List.mem_append_right _ hi))).trans ?_
    simp [add_assoc]

theorem reduction_sched {K : Type} [Field K] (sched : List (List Nat)) (lo hi : Nat) (init : K)
    (g : Nat → Option K) (v : Nat → K) (hs : IsSchedule sched lo hi)
    (h : ∀ i, lo ≤ i → i < hi → g i = some (v i)) :
    reduction sched init g = some (init + ∑ k ∈ range (hi - lo), v (lo + k)) := by
  rw [reduction_some sched init g v]
  · congr 2
    rw [(hs.map v).sum_eq, List.range'_eq_map_range, List.map_map, Finset.sum_range]
    rw [← List.sum_ofFn]
    congr 1
    apply List.ext_getElem <;> simp
  · intro i hi'
    have := hs.mem_iff.1 hi'
    rw [List.mem_range'_1] at this
    exact h i this.1 (by omega)

end Verif.NumInt
