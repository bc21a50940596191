import Mathlib.Analysis.Real.Sqrt
import Mathlib.Data.Matrix.Mul
import Mathlib.LinearAlgebra.Matrix.Notation
import Mathlib.LinearAlgebra.Matrix.Determinant.Basic
import Mathlib.Analysis.SpecialFunctions.Trigonometric.Arctan
import Verif.Stab.Spec
/-!
# Model of the stability checks and of the stationary-amplitude solver

Simplification throughout: `np.float64` values are modelled by real numbers (no rounding, infinities or
NaNs); `x ** 2.0` etc. on reals is `x ^ 2`.  `gammas`, `omegas` are length-3 arrays: `Fin 3 → ℝ`.
A Python `bool` returned by a comparison is modelled by the proposition compared.
-/
namespace Verif.Stab
open Real

/-- `gamma_sum_stability`, stab_checker_quadratic_three_sum.py:18-70. -/
def gammaSumStability (γ : Fin 3 → ℝ) : Prop := γ 0 + γ 1 + γ 2 < 0

/-- The polynomial tested by `check_original_dziembowski_conditions`,
stab_checker_quadratic_three_sum.py:92-106. -/
noncomputable def originalPoly (γ : Fin 3 → ℝ) (q : ℝ) : ℝ :=
  let rho2 := -γ 1 / γ 0
  let rho3 := -γ 2 / γ 0
  let rho23 := rho2 * rho3
  let rhos := rho2 + rho3 - 1
  let coeffq0 := -(rhos ^ 3) - 2 * rho23
  let coeffq2 := -12 * rho23 + rhos * ((rho2 - rho3) ^ 2 + (rho2 + rho3) ^ 2 + 2)
  let coeffq4 := 3 * (-6 * rho23 + rhos * ((rho2 - rho3) ^ 2 + 2 * (rho2 + rho3) ^ 2 + 1))
  coeffq0 + coeffq2 * q ^ 2 + coeffq4 * q ^ 4

/-- `check_original_dziembowski_conditions`, stab_checker_quadratic_three_sum.py:74-106. -/
def checkOriginal (γ : Fin 3 → ℝ) (q : ℝ) : Prop := originalPoly γ q > 0

/-- The polynomial tested by `check_corrected_dziembowski_conditions`,
stab_checker_quadratic_three_sum.py:127-140. -/
noncomputable def correctedPoly (γ : Fin 3 → ℝ) (q : ℝ) : ℝ :=
  let rho2 := -γ 1 / γ 0
  let rho3 := -γ 2 / γ 0
  let rho23 := rho2 * rho3
  let rhos := 1 - rho2 - rho3
  let coeffq0 := rhos ^ 3 - 2 * rho23
  let coeffq2 := -12 * rho23 - rhos * ((rho2 - rho3) ^ 2 + (rho2 + rho3) ^ 2 + 2)
  let coeffq4 := -18 * rho23 - (3 * rhos) * (rhos ^ 2 + 4 * (rho2 + rho3 - rho23))
  coeffq0 + coeffq2 * q ^ 2 + coeffq4 * q ^ 4

/-- `check_corrected_dziembowski_conditions` (exported as `check_van_beeck_conditions`),
stab_checker_quadratic_three_sum.py:109-140. -/
def checkCorrected (γ : Fin 3 → ℝ) (q : ℝ) : Prop := correctedPoly γ q > 0

/-- The polynomial tested by `check_additional_condition_equivalent`,
stab_checker_quadratic_three_sum.py:161-175. -/
noncomputable def equivalentPoly (γ : Fin 3 → ℝ) (q : ℝ) : ℝ :=
  let gammaSum := γ 0 + γ 1 + γ 2
  let gammaDot := γ 0 * γ 1 * γ 2
  let gammaBox := gammaDot / gammaSum ^ 3
  let twoFacSum := γ 0 * γ 1 + γ 0 * γ 2 + γ 1 * γ 2
  let gammaStar := twoFacSum / gammaSum ^ 2
  let coeffq0 := 2 * gammaBox - 1
  let coeffq2 := 2 + 12 * gammaBox - 4 * gammaStar
  let coeffq4 := 18 * gammaBox + 3 - 12 * gammaStar
  coeffq0 + coeffq2 * q ^ 2 + coeffq4 * q ^ 4

/-- `check_additional_condition_equivalent`, stab_checker_quadratic_three_sum.py:143-175. -/
def checkEquivalent (γ : Fin 3 → ℝ) (q : ℝ) : Prop := equivalentPoly γ q > 0

/-- `compute_theta`, stab_checker_quadratic_two_sum.py:14-27. -/
noncomputable def theta (γ : Fin 3 → ℝ) : ℝ := -γ 1 / γ 0

/-- `check_dziembowski_conditions_parametric`, stab_checker_quadratic_two_sum.py:30-59. -/
def checkHarmParametric (γ : Fin 3 → ℝ) (q : ℝ) : Prop :=
  let th := theta γ
  let denominator := 2 * th * (th - 1) + 1
  let numerator := 2 * th * (th - 1) - 1
  let qSquaredQuotient := numerator / denominator
  let minTheta := (1 + √3) / 2
  th > minTheta ∧ q ^ 2 > qSquaredQuotient

/-- `check_dziembowski_conditions_direct`, stab_checker_quadratic_two_sum.py:62-78. -/
def checkHarmDirect (γ : Fin 3 → ℝ) : Prop := theta γ < 0.5

/-- `_check_parametric`, three_mode_checks.py:160-172 (same test as `check_parametric`, 34-56). -/
def isParametric (γ : Fin 3 → ℝ) : Prop := γ 0 > 0 ∧ γ 1 < 0 ∧ γ 2 < 0

/-- `_check_direct`, three_mode_checks.py:174-186. -/
def isDirect (γ : Fin 3 → ℝ) : Prop := γ 0 < 0 ∧ γ 1 > 0 ∧ γ 2 > 0

open Classical in
/-- `_check_linearly_stable_fp`, three_mode_checks.py:199-238. -/
noncomputable def checkLinearlyStableFp (harmonic : Bool) (γ : Fin 3 → ℝ) (q : ℝ) : Bool :=
  if isParametric γ then
    if harmonic then decide (checkHarmParametric γ q)
    else decide (gammaSumStability γ) && decide (checkCorrected γ q)
  else if isDirect γ then
    if harmonic then decide (checkHarmDirect γ) else false
  else false

/-- `jacobian_in_fp_real_four_ae_system`, hyperbolicity_checker.py:53-131. -/
noncomputable def hyperJac (γ ω : Fin 3 → ℝ) (q η : ℝ) : Matrix (Fin 4) (Fin 4) ℝ :=
  let iq := fun i => γ i / ω i
  let sqrt12 := √(-iq 0 * iq 1)
  let sqrt13 := √(-iq 0 * iq 2)
  let sqrt23 := √(iq 1 * iq 2)
  let qsqrt := q * √(1 + q ^ 2)
  let deta := 2 * η
  let gplus := γ 0 + γ 1 + γ 2
  let qf := qsqrt / deta
  let qsqOverQf := q ^ 2 / qf
  !![γ 0, ω 0 * sqrt12, ω 0 * sqrt13, qf * γ 0 * sqrt23;
     -ω 1 * sqrt12, γ 1, -ω 1 * sqrt23, qf * γ 1 * sqrt13;
     -ω 2 * sqrt13, -ω 2 * sqrt23, γ 2, qf * γ 2 * sqrt12;
     qsqOverQf * (gplus - 2 * γ 0) / sqrt23, qsqOverQf * (gplus - 2 * γ 1) / sqrt13,
       qsqOverQf * (gplus - 2 * γ 2) / sqrt12, gplus]

/-- `jacobian_in_fp_real_three_ae_system`, hyperbolicity_checker.py:134-197 (`gammas`, `omegas` may have
more than two entries there; `gplus` is their sum). -/
noncomputable def hyperJacThree (γ ω : Fin 3 → ℝ) (q η : ℝ) : Matrix (Fin 3) (Fin 3) ℝ :=
  let iq := fun i => γ i / ω i
  let og := fun i => γ i * ω i
  let sqrt12 := √(-2 * iq 0 * iq 1)
  let qsqrt := q * √(1 + q ^ 2)
  let deta := 2 * η
  let gplus := γ 0 + γ 1 + γ 2
  let qf := qsqrt / deta
  let qsqOverQf := q ^ 2 / qf
  !![γ 0, √(-og 0 * iq 1), qf * γ 0 * iq 1;
     -√(-2 * iq 0 * og 1), γ 1, γ 1 * qf * sqrt12;
     qsqOverQf * (gplus - 2 * γ 0) / iq 1, qsqOverQf * √(-2 * og 0 / iq 1), gplus]

/-- `check_hyperbolicity_of_fp`, hyperbolicity_checker.py:21-50 (exact eigenvalues and determinant; the
`LinAlgError` branch, for infinite or NaN entries, has no counterpart over the reals). -/
def checkHyperbolicity {n : ℕ} (J : Matrix (Fin n) (Fin n) ℝ) : Prop :=
  (∀ z, IsEig J z → z.re ≠ 0) ∧ J.det ≠ 0

/-- The state of `ThreeModeStationary` used to compute amplitudes and phase. -/
structure StatIn where
  /-- `driving_rates` -/
  γ : Fin 3 → ℝ
  /-- co-rotating angular mode frequencies -/
  ω : Fin 3 → ℝ
  /-- `get_detunings()[0][0]` -/
  δ : ℝ
  /-- `eta_lee_coupling_coefficient` -/
  η : Option ℝ

/-- `_q`, three_mode_stationary.py:205 with `_gamma` = frequency_handler `gamma_sum`. -/
noncomputable def StatIn.q (s : StatIn) : ℝ := s.δ / (s.γ 0 + s.γ 1 + s.γ 2)

/-- `_q_crit`, three_mode_stationary.py:207. -/
noncomputable def StatIn.qCrit (s : StatIn) : ℝ := s.δ / (s.γ 1 + s.γ 2)

/-- `quality_factor_products`, in the order `(Q₂Q₁, Q₃Q₁, Q₃Q₂)`, with `Qᵢ = ωᵢ/γᵢ`;
frequency_handler.py (see `Verif.Freq`). -/
noncomputable def StatIn.qfProducts (s : StatIn) : Fin 3 → ℝ :=
  let Q := fun i => s.ω i / s.γ i
  ![Q 1 * Q 0, Q 2 * Q 0, Q 2 * Q 1]

/-- Result of `_compute_theoretical_amps`: `(_a1, _a2, _a3, _acrit)`; `none` models Python's `None`. -/
structure Amps where
  a1 : ℝ
  a2 : ℝ
  a3 : ℝ
  acrit : ℝ

/-- `_get_cc_product` and `_compute_theoretical_amps`, three_mode_stationary.py:189-197, 209-233. -/
noncomputable def StatIn.amps (s : StatIn) : Option Amps :=
  s.η.map fun el =>
    let ccProduct := |el| ^ 2
    let pre := fun i => 1 / (ccProduct * s.qfProducts i)
    let preQ := fun i => (1 + s.q ^ 2) * pre i
    let preCrit := (1 + s.qCrit ^ 2) * pre 2
    { a1 := √(preQ 2) / 2, a2 := √(-preQ 1) / 2, a3 := √(-preQ 0) / 2, acrit := √preCrit / 2 }

/-- `_compute_relative_stat_phase`, three_mode_stationary.py:254-256. -/
noncomputable def StatIn.relStatPhase (s : StatIn) : ℝ := arctan (-1 / s.q)

end Verif.Stab
