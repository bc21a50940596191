import Verif.Cheby.Lemmas
import Mathlib.Analysis.Calculus.Deriv.Inv
import Mathlib.Analysis.Calculus.Deriv.Mul
import Mathlib.Analysis.Calculus.Deriv.Pow
/-!
# C44: Chebyshev differentiation matrices
-/
namespace Verif.Cheby
noncomputable section
open Real Matrix Polynomial

variable {M : ℕ}

/-- The functions of the expansion: a polynomial in `mu`, times `sqrt(1 - mu²)` if `pf`. -/
def fn (pf : Bool) (p : ℝ[X]) (x : ℝ) : ℝ := p.eval x * (if pf then √(1 - x ^ 2) else 1)

theorem hasDeriv_sqrt (x : ℝ) (h : |x| < 1) : HasDerivAt (fun x : ℝ => √(1 - x ^ 2)) (-x / √(1 - x ^ 2)) x := by
  have hpos : 0 < 1 - x ^ 2 := by rw [abs_lt] at h; nlinarith
  have h1 : HasDerivAt (fun x : ℝ => 1 - x ^ 2) (-(2 * x)) x := by
    exact HasDerivAt.congr_deriv ((hasDerivAt_const x (1 : ℝ)).sub (hasDerivAt_pow 2 x)) (by norm_num)
  have := h1.sqrt hpos.ne'
  exact this.congr_deriv (by ring)

/-- Closed form of the first derivative. -/
def fn1 (pf : Bool) (p : ℝ[X]) (x : ℝ) : ℝ :=
  if pf then (derivative p).eval x * √(1 - x ^ 2) + p.eval x * (-x / √(1 - x ^ 2)) else (derivative p).eval x

theorem fn_hasDeriv (pf : Bool) (p : ℝ[X]) (x : ℝ) (h : |x| < 1) : HasDerivAt (fn pf p) (fn1 pf p x) x := by
  cases pf with
  | false =>
    have : fn false p = fun x => p.eval x := by funext y; simp [fn]
    rw [this]
    simpa [fn1] using p.hasDerivAt x
  | true =>
    have : fn true p = fun x => p.eval x * √(1 - x ^ 2) := by funext y; simp [fn]
    rw [this]
    simp only [fn1, if_true]
    exact (p.hasDerivAt x).mul (hasDeriv_sqrt x h)

theorem fn1_hasDeriv (pf : Bool) (p : ℝ[X]) (x : ℝ) (h : |x| < 1) :
    HasDerivAt (fn1 pf p) (if pf then (derivative (derivative p)).eval x * √(1 - x ^ 2)
      - 2 * (derivative p).eval x * x / √(1 - x ^ 2) - p.eval x / √(1 - x ^ 2) ^ 3 else (derivative (derivative p)).eval x) x := by
  cases pf with
  | false =>
    have : fn1 false p = fun x => (derivative p).eval x := by funext y; simp [fn1]
    rw [this]
    simpa using (derivative p).hasDerivAt x
  | true =>
    have : fn1 true p = fun x => (derivative p).eval x * √(1 - x ^ 2) + p.eval x * (-x / √(1 - x ^ 2)) := by funext y; simp [fn1]
    rw [this]
    have hpos : 0 < 1 - x ^ 2 := by rw [abs_lt] at h; nlinarith
    have hs : √(1 - x ^ 2) ≠ 0 := (sqrt_pos.2 hpos).ne'
    have h1 := ((derivative p).hasDerivAt x).mul (hasDeriv_sqrt x h)
    have h2 := (p.hasDerivAt x).mul (HasDerivAt.div (HasDerivAt.neg (hasDerivAt_id x)) (hasDeriv_sqrt x h) hs)
    have h3 := h1.add h2
    refine HasDerivAt.congr_deriv h3 ?_
    simp only [if_true, Pi.neg_apply, Pi.div_apply, id]
    have hsq : √(1 - x ^ 2) ^ 2 = 1 - x ^ 2 := sq_sqrt hpos.le
    field_simp
    rw [hsq]
    ring

theorem fn_deriv (pf : Bool) (p : ℝ[X]) (x : ℝ) (h : |x| < 1) : deriv (fn pf p) x = fn1 pf p x :=
  (fn_hasDeriv pf p x h).deriv

theorem fn_deriv2 (pf : Bool) (p : ℝ[X]) (x : ℝ) (h : |x| < 1) : deriv (deriv (fn pf p)) x =
    (if pf then (derivative (derivative p)).eval x * √(1 - x ^ 2)
      - 2 * (derivative p).eval x * x / √(1 - x ^ 2) - p.eval x / √(1 - x ^ 2) ^ 3 else (derivative (derivative p)).eval x) := by
  have he : deriv (fn pf p) =ᶠ[nhds x] fn1 pf p := by
    have : {y : ℝ | |y| < 1} ∈ nhds x := (isOpen_lt continuous_abs continuous_const).mem_nhds h
    filter_upwards [this] with y hy
    exact fn_deriv pf p y hy
  rw [he.deriv_eq, (fn1_hasDeriv pf p x h).deriv]

theorem abs_mu (i : Fin M) : |mu M i| < 1 := by
  rw [abs_lt]; constructor <;> linarith [mu_pos i, mu_lt_one i]

theorem samples (pf : Bool) (p : ℝ[X]) : (fun i => fn pf p (mu M i)) = F0 (M := M) pf p := by
  funext i; cases pf <;> simp [fn, F0, s]

theorem F1_eq (pf : Bool) (p : ℝ[X]) (i : Fin M) : F1 pf p i = deriv (fn pf p) (mu M i) := by
  rw [fn_deriv pf p _ (abs_mu i)]
  cases pf with
  | false => simp [F1, fn1]
  | true => simp only [F1, fn1, if_true, s]; ring

theorem F2_eq (pf : Bool) (p : ℝ[X]) (i : Fin M) : F2 pf p i = deriv (deriv (fn pf p)) (mu M i) := by
  rw [fn_deriv2 pf p _ (abs_mu i)]
  cases pf <;> simp [F2, s]

/-- **C44.** The matrix inverted at initialisation is invertible for every size, parity and sine
factor. -/
theorem C44_matrix_invertible (odd pf : Bool) : IsUnit (raw0 M odd pf) := raw0_isUnit odd pf

/-- **C44.** For every polynomial of the right parity and of degree below the number of points, with
or without the factor `sqrt(1-mu²)`, the first-derivative routine maps the samples at the collocation
points to the derivative at the collocation points. -/
theorem C44_first_derivative (odd pf : Bool) (p : ℝ[X]) (hp : HasParity odd p) (hd : p.degree < (2 * M : ℕ)) (i : Fin M) :
    diff1 M (fun i => fn pf p (mu M i)) odd pf i = deriv (fn pf p) (mu M i) := by
  rw [samples, diff1_F odd pf p hp hd, F1_eq]

/-- **C44.** Likewise for the second derivative. -/
theorem C44_second_derivative (odd pf : Bool) (p : ℝ[X]) (hp : HasParity odd p) (hd : p.degree < (2 * M : ℕ)) (i : Fin M) :
    diff2 M (fun i => fn pf p (mu M i)) odd pf i = deriv (deriv (fn pf p)) (mu M i) := by
  rw [samples, diff2_F odd pf p hp hd, F2_eq]

/-- **C44.** Applying a differential operator with given coefficients to the samples gives the
operator applied to the function, at every collocation point. -/
theorem C44_operator (odd pf : Bool) (p : ℝ[X]) (hp : HasParity odd p) (hd : p.degree < (2 * M : ℕ))
    (c0 c1 : Fin M → ℝ) (c2 : Option (Fin M → ℝ)) (i : Fin M) :
    apply M (fun i => fn pf p (mu M i)) c0 c1 c2 odd pf i =
      c0 i * fn pf p (mu M i) + c1 i * deriv (fn pf p) (mu M i) +
        (match c2 with | none => 0 | some c => c i * deriv (deriv (fn pf p)) (mu M i)) := by
  have h1 := C44_first_derivative odd pf p hp hd i
  have h2 := C44_second_derivative odd pf p hp hd i
  simp only [diff1, diff2] at h1 h2
  cases c2 with
  | none =>
    simp only [apply, add_mulVec, ← mulVec_mulVec, mulVec_diagonal, Pi.add_apply, h1]
    ring
  | some c =>
    simp only [apply, add_mulVec, ← mulVec_mulVec, mulVec_diagonal, Pi.add_apply, h1, h2]
    ring

/-- **C44.** The matrix whose eigenpairs are returned by the eigenvalue solver is the differential
operator: if the samples of such a function are an eigenvector, the function satisfies the eigenvalue
equation at every collocation point. -/
theorem C44_eigenproblem (odd pf : Bool) (p : ℝ[X]) (hp : HasParity odd p) (hd : p.degree < (2 * M : ℕ))
    (c0 c1 c2 : Fin M → ℝ) (lam : ℝ) :
    fullEig M c0 c1 c2 odd pf *ᵥ (fun i => fn pf p (mu M i)) = lam • (fun i => fn pf p (mu M i)) ↔
      ∀ i, c2 i * deriv (deriv (fn pf p)) (mu M i) + c1 i * deriv (fn pf p) (mu M i) + c0 i * fn pf p (mu M i)
        = lam * fn pf p (mu M i) := by
  rw [funext_iff]
  refine forall_congr' fun i => ?_
  have h1 := C44_first_derivative odd pf p hp hd i
  have h2 := C44_second_derivative odd pf p hp hd i
  simp only [diff1, diff2] at h1 h2
  simp only [fullEig, add_mulVec, ← mulVec_mulVec, mulVec_diagonal, Pi.add_apply, h1, h2, Pi.smul_apply, smul_eq_mul]

/-- **C44.** Every vector of values at the collocation points is the sample vector of exactly one
function of the class (so the statements above cover every input vector). -/
theorem C44_every_vector (odd pf : Bool) (f : Fin M → ℝ) :
    ∃! p : ℝ[X], HasParity odd p ∧ p.degree < (2 * M : ℕ) ∧ f = fun i => fn pf p (mu M i) := by
  have hu := raw0_isUnit (M := M) odd pf
  refine ⟨poly odd (d0 M odd pf *ᵥ f), ⟨poly_parity _ _, poly_degree _ _, ?_⟩, ?_⟩
  · rw [samples, ← raw0_mulVec, mulVec_mulVec, d0, mul_nonsing_inv _ ((isUnit_iff_isUnit_det _).1 hu), one_mulVec]
  · rintro q ⟨hq, hdq, rfl⟩
    rw [samples, exists_coeffs odd pf q hq hdq]

/-- Non-vacuity: `3x² - 1` with the sine factor, four points. -/
example : HasParity false (3 * X ^ 2 - 1 : ℝ[X]) := by intro x; simp
example : (X ^ 3 : ℝ[X]).degree < ((2 * 2 : ℕ) : WithBot ℕ) := by
  rw [degree_X_pow]; exact_mod_cast (by norm_num : 3 < 2 * 2)
example : HasParity true (X ^ 3 : ℝ[X]) := by intro x; simp [Odd.neg_pow (by decide : Odd 3)]

end
end Verif.Cheby
