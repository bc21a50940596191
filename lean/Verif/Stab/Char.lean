import Mathlib.LinearAlgebra.Matrix.Determinant.Basic
import Mathlib.Tactic.LinearCombination
import Verif.Stab.Lemmas
namespace Verif.Stab
open Real

theorem det4 {R : Type*} [CommRing R] (M : Matrix (Fin 4) (Fin 4) R) : M.det =
    M 0 0 * (M 1 1 * (M 2 2 * M 3 3 - M 2 3 * M 3 2) - M 1 2 * (M 2 1 * M 3 3 - M 2 3 * M 3 1)
      + M 1 3 * (M 2 1 * M 3 2 - M 2 2 * M 3 1))
    - M 0 1 * (M 1 0 * (M 2 2 * M 3 3 - M 2 3 * M 3 2) - M 1 2 * (M 2 0 * M 3 3 - M 2 3 * M 3 0)
      + M 1 3 * (M 2 0 * M 3 2 - M 2 2 * M 3 0))
    + M 0 2 * (M 1 0 * (M 2 1 * M 3 3 - M 2 3 * M 3 1) - M 1 1 * (M 2 0 * M 3 3 - M 2 3 * M 3 0)
      + M 1 3 * (M 2 0 * M 3 1 - M 2 1 * M 3 0))
    - M 0 3 * (M 1 0 * (M 2 1 * M 3 2 - M 2 2 * M 3 1) - M 1 1 * (M 2 0 * M 3 2 - M 2 2 * M 3 0)
      + M 1 2 * (M 2 0 * M 3 1 - M 2 1 * M 3 0)) := by
  rw [Matrix.det_succ_row_zero]
  simp only [Fin.sum_univ_four, Matrix.det_fin_three, Matrix.submatrix_apply]
  have e1 : (Fin.succAbove (1 : Fin 4) (0 : Fin 3)) = 0 := rfl
  have e2 : (Fin.succAbove (1 : Fin 4) (1 : Fin 3)) = 2 := rfl
  have e3 : (Fin.succAbove (1 : Fin 4) (2 : Fin 3)) = 3 := rfl
  have f1 : (Fin.succAbove (2 : Fin 4) (0 : Fin 3)) = 0 := rfl
  have f2 : (Fin.succAbove (2 : Fin 4) (1 : Fin 3)) = 1 := rfl
  have f3 : (Fin.succAbove (2 : Fin 4) (2 : Fin 3)) = 3 := rfl
  have g1 : (Fin.succAbove (3 : Fin 4) (0 : Fin 3)) = 0 := rfl
  have g2 : (Fin.succAbove (3 : Fin 4) (1 : Fin 3)) = 1 := rfl
  have g3 : (Fin.succAbove (3 : Fin 4) (2 : Fin 3)) = 2 := rfl
  have k1 : (Fin.succAbove (0 : Fin 4) (0 : Fin 3)) = 1 := rfl
  have k2 : (Fin.succAbove (0 : Fin 4) (1 : Fin 3)) = 2 := rfl
  have k3 : (Fin.succAbove (0 : Fin 4) (2 : Fin 3)) = 3 := rfl
  have s0 : (Fin.succ (0 : Fin 3)) = 1 := rfl
  have s1 : (Fin.succ (1 : Fin 3)) = 2 := rfl
  have s2 : (Fin.succ (2 : Fin 3)) = 3 := rfl
  rw [e1, e2, e3, f1, f2, f3, g1, g2, g3, k1, k2, k3, s0, s1, s2]
  have v0 : ((0 : Fin 4) : ℕ) = 0 := rfl
  have v1 : ((1 : Fin 4) : ℕ) = 1 := rfl
  have v2 : ((2 : Fin 4) : ℕ) = 2 := rfl
  have v3 : ((3 : Fin 4) : ℕ) = 3 := rfl
  rw [v0, v1, v2, v3]
  ring

/-- The Jacobian at a fixed point, in terms of the rates and `k = cot Υ`. -/
noncomputable def fpJac (γ : Fin 3 → ℝ) (k : ℝ) (x : Fin 4 → ℝ) : Matrix (Fin 4) (Fin 4) ℝ :=
  !![γ 0, -γ 0 * x 0 / x 1, -γ 0 * x 0 / x 2, -γ 0 * x 0 * k;
     -γ 1 * x 1 / x 0, γ 1, -γ 1 * x 1 / x 2, -γ 1 * x 1 * k;
     -γ 2 * x 2 / x 0, -γ 2 * x 2 / x 1, γ 2, -γ 2 * x 2 * k;
     k * (γ 0 - γ 1 - γ 2) / x 0, k * (γ 1 - γ 0 - γ 2) / x 1, k * (γ 2 - γ 0 - γ 1) / x 2,
     γ 0 + γ 1 + γ 2]

theorem fpJac_char (γ : Fin 3 → ℝ) (k : ℝ) (x : Fin 4 → ℝ) (h0 : x 0 ≠ 0) (h1 : x 1 ≠ 0)
    (h2 : x 2 ≠ 0) (z : ℂ) :
    IsEig (fpJac γ k x) z ↔
      z ^ 4 + ((-2 * (γ 0 + γ 1 + γ 2) : ℝ) : ℂ) * z ^ 3 +
      (((γ 0 + γ 1 + γ 2) ^ 2 + k ^ 2 * ((γ 0 + γ 1 + γ 2) ^ 2
        - 4 * (γ 0 * γ 1 + γ 0 * γ 2 + γ 1 * γ 2)) : ℝ) : ℂ) * z ^ 2 +
      ((4 * (γ 0 * γ 1 * γ 2) * (1 + 3 * k ^ 2) : ℝ) : ℂ) * z +
      ((-4 * (γ 0 + γ 1 + γ 2) * (γ 0 * γ 1 * γ 2) * (1 + k ^ 2) : ℝ) : ℂ) = 0 := by
  rw [isEig_iff_det, det4]
  have c0 : (x 0 : ℂ) ≠ 0 := by exact_mod_cast h0
  have c1 : (x 1 : ℂ) ≠ 0 := by exact_mod_cast h1
  have c2 : (x 2 : ℂ) ≠ 0 := by exact_mod_cast h2
  simp [fpJac, Matrix.diagonal]
  apply Eq.congr_left
  field_simp
  ring

end Verif.Stab
