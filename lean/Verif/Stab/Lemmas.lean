import Mathlib.LinearAlgebra.Matrix.ToLinearEquiv
import Mathlib.Tactic.FieldSimp
import Verif.Stab.Model
import Verif.Stab.Hurwitz
/-!
# Jacobians and characteristic polynomials of the amplitude equations
-/
set_option linter.unusedSimpArgs false
namespace Verif.Stab
open Real

theorem isEig_iff_det {n : ℕ} (J : Matrix (Fin n) (Fin n) ℝ) (z : ℂ) :
    IsEig J z ↔ (Matrix.diagonal (fun _ => z) - J.map Complex.ofReal).det = 0 := by
  rw [← Matrix.exists_mulVec_eq_zero_iff]
  constructor
  · rintro ⟨v, hv, h⟩
    refine ⟨v, hv, ?_⟩
    rw [Matrix.sub_mulVec, h]
    funext i
    simp
  · rintro ⟨v, hv, h⟩
    refine ⟨v, hv, ?_⟩
    rw [Matrix.sub_mulVec] at h
    funext i
    have := congrFun h i
    simp at this
    linear_combination -this

/-- Jacobian of the three-mode system. -/
noncomputable def jac4 (γ ω : Fin 3 → ℝ) (η : ℝ) (x : Fin 4 → ℝ) : Matrix (Fin 4) (Fin 4) ℝ :=
  let s := sin (x 3)
  let c := cos (x 3)
  !![γ 0, 2 * η * ω 0 * x 2 * s, 2 * η * ω 0 * x 1 * s, 2 * η * ω 0 * x 1 * x 2 * c;
     -(2 * η * ω 1 * x 2 * s), γ 1, -(2 * η * ω 1 * x 0 * s), -(2 * η * ω 1 * x 0 * x 2 * c);
     -(2 * η * ω 2 * x 1 * s), -(2 * η * ω 2 * x 0 * s), γ 2, -(2 * η * ω 2 * x 0 * x 1 * c);
     2 * η * c * (-(ω 0 * x 1 * x 2 / x 0 ^ 2) - ω 1 * x 2 / x 1 - ω 2 * x 1 / x 2),
     2 * η * c * (ω 0 * x 2 / x 0 + ω 1 * x 0 * x 2 / x 1 ^ 2 - ω 2 * x 0 / x 2),
     2 * η * c * (ω 0 * x 1 / x 0 - ω 1 * x 0 / x 1 + ω 2 * x 0 * x 1 / x 2 ^ 2),
     -(2 * η * s * (ω 0 * x 1 * x 2 / x 0 - ω 1 * x 0 * x 2 / x 1 - ω 2 * x 0 * x 1 / x 2))]

/-- Partial derivative of a sum of `t`, `1/t`, `sin t`, `cos t` terms, the building block of both fields. -/
theorem hasDerivAt_lin (a b t : ℝ) : HasDerivAt (fun t => a * t + b) a t := by
  simpa using ((hasDerivAt_id t).const_mul a).add_const b

theorem hd_congr {f g : ℝ → ℝ} {a b t : ℝ} (h : HasDerivAt g b t) (hf : ∀ u, f u = g u) (hab : a = b) :
    HasDerivAt f a t := by
  rw [show f = g from funext hf, hab]; exact h

theorem hasDerivAt_linv (a b d t : ℝ) (ht : t ≠ 0) :
    HasDerivAt (fun t => a * t + d / t + b) (a - d / t ^ 2) t := by
  have h := (hasDerivAt_lin a b t).add ((hasDerivAt_inv ht).const_mul d)
  refine hd_congr h (fun u => ?_) ?_
  · simp [div_eq_mul_inv]; ring
  · simp [div_eq_mul_inv]; ring

theorem hasDerivAt_sin' (a b t : ℝ) : HasDerivAt (fun t => a * sin t + b) (a * cos t) t :=
  ((hasDerivAt_sin t).const_mul a).add_const b

theorem hasDerivAt_cos' (a b t : ℝ) : HasDerivAt (fun t => a * cos t + b) (-(a * sin t)) t := by
  simpa using ((hasDerivAt_cos t).const_mul a).add_const b

theorem isJac_jac4 (γ ω : Fin 3 → ℝ) (δ η : ℝ) (x : Fin 4 → ℝ) (h0 : x 0 ≠ 0) (h1 : x 1 ≠ 0)
    (h2 : x 2 ≠ 0) : IsJac (aeField γ ω δ η) x (jac4 γ ω η x) := by
  intro i j
  fin_cases i <;> fin_cases j
  · exact hd_congr (hasDerivAt_lin (γ 0) (2 * η * ω 0 * x 1 * x 2 * sin (x 3)) (x 0))
      (fun t => by simp [aeField, jac4, Function.update] <;> ring) (by simp [aeField, jac4] <;> ring)
  · exact hd_congr (hasDerivAt_lin (2 * η * ω 0 * x 2 * sin (x 3)) (γ 0 * x 0) (x 1))
      (fun t => by simp [aeField, jac4, Function.update] <;> ring) (by simp [aeField, jac4] <;> ring)
  · exact hd_congr (hasDerivAt_lin (2 * η * ω 0 * x 1 * sin (x 3)) (γ 0 * x 0) (x 2))
      (fun t => by simp [aeField, jac4, Function.update] <;> ring) (by simp [aeField, jac4] <;> ring)
  · exact hd_congr (hasDerivAt_sin' (2 * η * ω 0 * x 1 * x 2) (γ 0 * x 0) (x 3))
      (fun t => by simp [aeField, jac4, Function.update] <;> ring) (by simp [aeField, jac4] <;> ring)
  · exact hd_congr (hasDerivAt_lin (-(2 * η * ω 1 * x 2 * sin (x 3))) (γ 1 * x 1) (x 0))
      (fun t => by simp [aeField, jac4, Function.update] <;> ring) (by simp [aeField, jac4] <;> ring)
  · exact hd_congr (hasDerivAt_lin (γ 1) (-(2 * η * ω 1 * x 0 * x 2 * sin (x 3))) (x 1))
      (fun t => by simp [aeField, jac4, Function.update] <;> ring) (by simp [aeField, jac4] <;> ring)
  · exact hd_congr (hasDerivAt_lin (-(2 * η * ω 1 * x 0 * sin (x 3))) (γ 1 * x 1) (x 2))
      (fun t => by simp [aeField, jac4, Function.update] <;> ring) (by simp [aeField, jac4] <;> ring)
  · exact hd_congr (hasDerivAt_sin' (-(2 * η * ω 1 * x 0 * x 2)) (γ 1 * x 1) (x 3))
      (fun t => by simp [aeField, jac4, Function.update] <;> ring) (by simp [aeField, jac4] <;> ring)
  · exact hd_congr (hasDerivAt_lin (-(2 * η * ω 2 * x 1 * sin (x 3))) (γ 2 * x 2) (x 0))
      (fun t => by simp [aeField, jac4, Function.update] <;> ring) (by simp [aeField, jac4] <;> ring)
  · exact hd_congr (hasDerivAt_lin (-(2 * η * ω 2 * x 0 * sin (x 3))) (γ 2 * x 2) (x 1))
      (fun t => by simp [aeField, jac4, Function.update] <;> ring) (by simp [aeField, jac4] <;> ring)
  · exact hd_congr (hasDerivAt_lin (γ 2) (-(2 * η * ω 2 * x 0 * x 1 * sin (x 3))) (x 2))
      (fun t => by simp [aeField, jac4, Function.update] <;> ring) (by simp [aeField, jac4] <;> ring)
  · exact hd_congr (hasDerivAt_sin' (-(2 * η * ω 2 * x 0 * x 1)) (γ 2 * x 2) (x 3))
      (fun t => by simp [aeField, jac4, Function.update] <;> ring) (by simp [aeField, jac4] <;> ring)
  · exact hd_congr (hasDerivAt_linv (2 * η * cos (x 3) * (-(ω 1 * x 2 / x 1) - ω 2 * x 1 / x 2)) (-δ)
      (2 * η * cos (x 3) * ω 0 * x 1 * x 2) (x 0) h0)
      (fun t => by simp [aeField, jac4, Function.update] <;> ring) (by simp [aeField, jac4] <;> ring)
  · exact hd_congr (hasDerivAt_linv (2 * η * cos (x 3) * (ω 0 * x 2 / x 0 - ω 2 * x 0 / x 2)) (-δ)
      (-(2 * η * cos (x 3) * ω 1 * x 0 * x 2)) (x 1) h1)
      (fun t => by simp [aeField, jac4, Function.update] <;> ring) (by simp [aeField, jac4] <;> ring)
  · exact hd_congr (hasDerivAt_linv (2 * η * cos (x 3) * (ω 0 * x 1 / x 0 - ω 1 * x 0 / x 1)) (-δ)
      (-(2 * η * cos (x 3) * ω 2 * x 0 * x 1)) (x 2) h2)
      (fun t => by simp [aeField, jac4, Function.update] <;> ring) (by simp [aeField, jac4] <;> ring)
  · exact hd_congr (hasDerivAt_cos' (2 * η * (ω 0 * x 1 * x 2 / x 0 - ω 1 * x 0 * x 2 / x 1 - ω 2 * x 0 * x 1 / x 2))
      (-δ) (x 3))
      (fun t => by simp [aeField, jac4, Function.update] <;> ring) (by simp [aeField, jac4] <;> ring)

/-- Jacobian of the two-mode system. -/
noncomputable def jac3 (γ k : Fin 2 → ℝ) (x : Fin 3 → ℝ) : Matrix (Fin 3) (Fin 3) ℝ :=
  let s := sin (x 2)
  let c := cos (x 2)
  !![γ 0, 2 * k 0 * x 1 * s, k 0 * x 1 * x 1 * c;
     -(k 1 * x 1 * s), γ 1 - k 1 * x 0 * s, -(k 1 * x 0 * x 1 * c);
     c * (-(k 0 * x 1 * x 1 / x 0 ^ 2) - 2 * k 1), c * (2 * k 0 * x 1 / x 0),
     -(s * (k 0 * x 1 * x 1 / x 0 - 2 * k 1 * x 0))]

theorem hasDerivAt_quad (a b d t : ℝ) : HasDerivAt (fun t => a * (t * t) + d * t + b) (2 * a * t + d) t := by
  have h := (((hasDerivAt_id t).mul (hasDerivAt_id t)).const_mul a).add (hasDerivAt_lin d b t)
  refine hd_congr h (fun u => ?_) ?_
  · simp; ring
  · simp; ring

theorem isJac_jac3 (γ k : Fin 2 → ℝ) (δ : ℝ) (x : Fin 3 → ℝ) (h0 : x 0 ≠ 0) :
    IsJac (harmField γ k δ) x (jac3 γ k x) := by
  intro i j
  fin_cases i <;> fin_cases j
  · exact hd_congr (hasDerivAt_lin (γ 0) (k 0 * x 1 * x 1 * sin (x 2)) (x 0))
      (fun t => by simp [harmField, jac3, Function.update] <;> ring) (by simp [harmField, jac3] <;> ring)
  · exact hd_congr (hasDerivAt_quad (k 0 * sin (x 2)) (γ 0 * x 0) 0 (x 1))
      (fun t => by simp [harmField, jac3, Function.update] <;> ring) (by simp [harmField, jac3] <;> ring)
  · exact hd_congr (hasDerivAt_sin' (k 0 * x 1 * x 1) (γ 0 * x 0) (x 2))
      (fun t => by simp [harmField, jac3, Function.update] <;> ring) (by simp [harmField, jac3] <;> ring)
  · exact hd_congr (hasDerivAt_lin (-(k 1 * x 1 * sin (x 2))) (γ 1 * x 1) (x 0))
      (fun t => by simp [harmField, jac3, Function.update] <;> ring) (by simp [harmField, jac3] <;> ring)
  · exact hd_congr (hasDerivAt_lin (γ 1 - k 1 * x 0 * sin (x 2)) 0 (x 1))
      (fun t => by simp [harmField, jac3, Function.update] <;> ring) (by simp [harmField, jac3] <;> ring)
  · exact hd_congr (hasDerivAt_sin' (-(k 1 * x 0 * x 1)) (γ 1 * x 1) (x 2))
      (fun t => by simp [harmField, jac3, Function.update] <;> ring) (by simp [harmField, jac3] <;> ring)
  · exact hd_congr (hasDerivAt_linv (cos (x 2) * (- 2 * k 1)) (-δ) (cos (x 2) * (k 0 * x 1 * x 1)) (x 0) h0)
      (fun t => by simp [harmField, jac3, Function.update] <;> ring) (by simp [harmField, jac3] <;> ring)
  · exact hd_congr (hasDerivAt_quad (cos (x 2) * k 0 / x 0) (-δ + cos (x 2) * (- 2 * k 1 * x 0)) 0 (x 1))
      (fun t => by simp [harmField, jac3, Function.update] <;> ring) (by simp [harmField, jac3] <;> ring)
  · exact hd_congr (hasDerivAt_cos' (k 0 * x 1 * x 1 / x 0 - 2 * k 1 * x 0) (-δ) (x 2))
      (fun t => by simp [harmField, jac3, Function.update] <;> ring) (by simp [harmField, jac3] <;> ring)

theorem IsJac.unique {n : ℕ} {F : (Fin n → ℝ) → Fin n → ℝ} {x : Fin n → ℝ}
    {J K : Matrix (Fin n) (Fin n) ℝ} (hJ : IsJac F x J) (hK : IsJac F x K) : J = K := by
  ext i j
  exact (hJ i j).unique (hK i j)

end Verif.Stab
