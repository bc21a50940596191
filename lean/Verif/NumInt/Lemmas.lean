import Verif.NumInt.Model
import Verif.CommonLemmas
import Mathlib.Algebra.Field.Basic
import Mathlib.Tactic.Ring
import Mathlib.Tactic.FieldSimp
import Mathlib.Tactic.LinearCombination
/-! Helper lemmas for the numerical integrator. -/
namespace Verif.NumInt
open Finset

/-- Serial unequal-spacing branch as a finite sum. -/
theorem trapz_uneven {K : Type} [Field K] (o : Integrator K) (n : Nat) (x f : Nat → K)
    (he : o.equally_spaced = false) (hs : o.arr_size = n)
    (hv : ∀ k : Nat, k < n → rd o.my_var k = some (x k))
    (hf : o.my_integrand = tab n f) :
    trapz o = some (∑ k ∈ range (n - 1), (f (k+1) + f k) / 2 * (x (k+1) - x k)) := by
  unfold trapz
  rw [he, hs, hf]
  simp only [Bool.false_eq_true, if_false]
  rw [forUp_sum _ _ _ _ (fun k => (f (k+1) + f k) / 2 * (x (k+1) - x k))]
  · have : ((n : Int) - 1).toNat = n - 1 := by omega
    simp [this]
  · intro k hk a
    have h1 : (1 + (k : Int)) = ((k + 1 : Nat) : Int) := by push_cast; ring
    have h2 : (1 + (k : Int)) - 1 = ((k : Nat) : Int) := by ring
    rw [h2, h1, hv _ (by omega), hv _ (by omega), rd_tab _ _ _ (by omega), rd_tab _ _ _ (by omega)]
    simp

theorem trapz_even {K : Type} [Field K] (o : Integrator K) (n : Nat) (x f : Nat → K)
    (he : o.equally_spaced = true) (hs : o.arr_size = n) (hn : 1 ≤ n)
    (hv0 : rd o.my_var 0 = some (x 0)) (hv1 : rd o.my_var 1 = some (x 1))
    (hf : o.my_integrand = tab n f) :
    trapz o = some (((f 0 + f (n-1)) / 2 + ∑ k ∈ range (n - 2), f (k+1)) * (x 1 - x 0)) := by
  unfold trapz
  have e1 : ((n : Int) - 1) = ((n - 1 : Nat) : Int) := by omega
  have e0 : (0 : Int) = ((0 : Nat) : Int) := rfl
  have r0 : rd (tab n f) 0 = some (f 0) := rd_tab n 0 f (by omega)
  have rn : rd (tab n f) ((n : Int) - 1) = some (f (n-1)) := by rw [e1, rd_tab _ _ _ (by omega)]
  simp only [he, hs, hf, hv0, hv1, if_true, r0, rn, Option.bind_eq_bind, Option.bind_some]
  rw [forUp_sum _ _ _ _ (fun k => f (k+1))]
  · have : ((n : Int) - 1 - 1).toNat = n - 2 := by omega
    simp [this]
  · intro k hk a
    have h1 : (1 + (k : Int)) = ((k + 1 : Nat) : Int) := by push_cast; ring
    rw [h1, rd_tab _ _ _ (by omega)]
    simp

theorem simpson_odd {K : Type} [Field K] (o : Integrator K) (m : Nat) (x f : Nat → K)
    (he : o.equally_spaced = true) (hs : o.arr_size = ((2 * m + 1 : Nat) : Int)) (hm : 1 ≤ m)
    (hv0 : rd o.my_var 0 = some (x 0)) (hv1 : rd o.my_var 1 = some (x 1))
    (hf : o.my_integrand = tab (2 * m + 1) f) :
    simpson o = some ((x 1 - x 0) / 3 *
      (f 0 + f (2*m) + ∑ k ∈ range (m - 1), (4 * f (2*k+1) + 2 * f (2*k+2)) + 4 * f (2*m-1))) := by
  unfold simpson
  have hmod : (((2 * m + 1 : Nat) : Int) - 1).tmod 2 = 0 := by
    have : (((2 * m + 1 : Nat) : Int) - 1) = ((2 * m : Nat) : Int) := by push_cast; ring
    rw [this]; simp
  have hdiv : ((2 * m + 1 : Nat) : Int).tdiv 2 = m := by
    have : ((2 * m + 1 : Nat) : Int).tdiv ((2 : Nat) : Int) = (((2 * m + 1) / 2 : Nat) : Int) := rfl
    rw [show (2 : Int) = ((2 : Nat) : Int) from rfl, this]; congr 1; omega
  have e1 : (((2 * m + 1 : Nat) : Int) - 1) = ((2 * m : Nat) : Int) := by push_cast; ring
  have e2 : (((2 * m : Nat) : Int) - 1) = ((2 * m - 1 : Nat) : Int) := by omega
  have r0 : rd (tab (2*m+1) f) 0 = some (f 0) := rd_tab _ 0 f (by omega)
  rw [e1] at hmod
  have r1 : rd (tab (2*m+1) f) ((2*m : Nat) : Int) = some (f (2*m)) := rd_tab _ _ f (by omega)
  have r2 : rd (tab (2*m+1) f) ((2*m-1 : Nat) : Int) = some (f (2*m-1)) := rd_tab _ _ f (by omega)
  simp only [he, hs, hf, hv0, hv1, if_true, hdiv, e1, hmod, e2, r0, r1, r2, ne_eq,
    not_true_eq_false, if_false, Option.bind_eq_bind, Option.bind_some]
  rw [forUp_sum _ _ _ _ (fun k => (4 * f (2*k+1) + 2 * f (2*k+2)))]
  · have : ((m : Int) - 1).toNat = m - 1 := by omega
    simp [this]
  · intro k hk a
    have h1 : 2 * (1 + (k : Int)) - 1 = ((2 * k + 1 : Nat) : Int) := by push_cast; ring
    have h2 : 2 * (1 + (k : Int)) = ((2 * k + 2 : Nat) : Int) := by push_cast; ring
    rw [h1, h2, rd_tab _ _ _ (by omega), rd_tab _ _ _ (by omega)]
    simp

end Verif.NumInt
