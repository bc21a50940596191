import Verif.Coupling.Value3
import Mathlib.Analysis.SpecialFunctions.ExpDeriv
import Mathlib.Analysis.Calculus.Deriv.Mul
import Mathlib.Analysis.SpecialFunctions.Trigonometric.Deriv
/-! # C84, continued: the gradient, the conjugation error, and non-vacuity -/
namespace Verif.Coupling
open Finset Equiv NumInt NumInt.Spec
noncomputable section

/-- The field of a mode with radial functions `fr`, `fh` and Hough functions `Hr, Ht, Hp` of `θ`. -/
def modeField (fr fh Hr Ht Hp : ℝ → ℝ) (m : ℤ) (r θ φ : ℝ) : Fin 3 → ℂ :=
  ![fr r * Hr θ * Complex.exp (Complex.I * m * φ), fh r * Ht θ * Complex.exp (Complex.I * m * φ),
    Complex.I * (fh r * Hp θ) * Complex.exp (Complex.I * m * φ)]

/-- **C84.** The tensor in the specification is the gradient of the displacement field of the mode. -/
theorem C84_gradient (fr fh Hr Ht Hp : ℝ → ℝ) (M : Spec.Mode) (μ : ℕ → ℝ) (i j : ℕ) (r θ φ : ℝ) (hr : r ≠ 0)
    (hθ : 0 < θ ∧ θ < Real.pi) (hμ : μ j = Real.cos θ)
    (hz : M.z i = fr r / r) (hy : M.y i = fh r / r) (hdz : HasDerivAt fr (M.dz i) r) (hdy : HasDerivAt fh (M.dy i) r)
    (h1 : M.Hr j = Hr θ) (h2 : M.Ht j = Ht θ) (h3 : M.Hp j = Hp θ) (h4 : HasDerivAt Hr (M.dHr j) θ)
    (h5 : HasDerivAt Ht (M.dHt j) θ) (h6 : HasDerivAt Hp (M.dHp j) θ) :
    Spec.sphGrad (modeField fr fh Hr Ht Hp M.m) r θ φ = Complex.exp (Complex.I * M.m * φ) • (M.at μ i j).grad := by
  have hs : √(1 - Real.cos θ ^ 2) = Real.sin θ := by
    rw [← Real.sin_sq, Real.sqrt_sq (Real.sin_pos_of_pos_of_lt_pi hθ.1 hθ.2).le]
  have hs0 : (Real.sin θ : ℂ) ≠ 0 := by exact_mod_cast (Real.sin_pos_of_pos_of_lt_pi hθ.1 hθ.2).ne'
  have hr0 : (r : ℂ) ≠ 0 := by exact_mod_cast hr
  have he : HasDerivAt (fun φ : ℝ => Complex.exp (Complex.I * M.m * φ)) (Complex.exp (Complex.I * M.m * φ) * (Complex.I * M.m)) φ := by
    have : HasDerivAt (fun φ : ℝ => Complex.I * M.m * (φ : ℂ)) (Complex.I * M.m * 1) φ :=
      (Complex.ofRealCLM.hasDerivAt (x := φ)).const_mul _
    simpa using this.cexp
  have cz := hdz.ofReal_comp
  have cy := hdy.ofReal_comp
  have c4 := h4.ofReal_comp
  have c5 := h5.ofReal_comp
  have c6 := h6.ofReal_comp
  generalize hE : Complex.exp (Complex.I * M.m * φ) = E at he
  ext a b
  have dz' := cz.deriv
  have dy' := cy.deriv
  have d4' := c4.deriv
  have d5' := c5.deriv
  have d6' := c6.deriv
  have de' := he.deriv
  fin_cases a <;> fin_cases b <;> simp [Spec.sphGrad, modeField, Spec.Mode.at, hμ, hs, hz, hy, h1, h2, h3, hE, dz', dy', d4',
    d5', d6', de', -Complex.ofReal_sin, -Complex.ofReal_cos]
  all_goals (try field_simp)
  all_goals (try ring_nf)
  all_goals (try simp only [Complex.I_sq])
  all_goals (try ring)

/-- Non-vacuity of `C84_gradient`: `ξ_r = r² cos θ`, `ξ_h = r sin θ`, azimuthal order 1, at the equator. -/
example : ∃ (M : Spec.Mode) (μ : ℕ → ℝ), M.m = 1 ∧ μ 0 = Real.cos (Real.pi / 2) ∧ M.z 0 = (2 : ℝ) ^ 2 / 2 ∧
    HasDerivAt (fun r : ℝ => r ^ 2) (M.dz 0) 2 ∧ HasDerivAt Real.cos (M.dHr 0) (Real.pi / 2) ∧ M.dHr 0 ≠ 0 := by
  refine ⟨⟨1, fun _ => 2, fun _ => 4, fun _ => 1, fun _ => 1, 0, 0, 1, 1, fun _ => -1, 0, 0⟩, fun _ => 0, rfl, ?_, ?_, ?_, ?_, ?_⟩
  · simp
  · norm_num
  · have := hasDerivAt_pow 2 (2 : ℝ); norm_num at this; exact this
  · have := Real.hasDerivAt_cos (Real.pi / 2); simpa using this
  · simp

/-- An array by attribute name. -/
def arrOf (n N : ℕ) (μ : ℕ → ℝ) (M : Spec.Mode) (b : String) : List ℝ :=
  if b = "_hr" then tab N (av μ M "hr") else if b = "_ht" then tab N (av μ M "ht") else if b = "_hp" then tab N (av μ M "hp")
  else if b = "_mhr" then tab N (av μ M "mhr") else if b = "_theta_der_hr_theta" then tab N (av μ M "theta_der_hr_theta")
  else if b = "_theta_der_ht_theta" then tab N (av μ M "theta_der_ht_theta")
  else if b = "_theta_der_hp_theta" then tab N (av μ M "theta_der_hp_theta")
  else if b = "_phi_phi" then tab N (av μ M "phi_phi") else if b = "_theta_phi" then tab N (av μ M "theta_phi")
  else tab n (rv M b)

/-- The object with the samples of any star and any modes. -/
def sampleObj (S : Spec.Star) (n N : ℕ) (μ : ℕ → ℝ) (M : Fin 3 → Spec.Mode) (conj : AngInt.Conj) : Obj where
  attr := attrs fun b k => arrOf n N μ (M k) b
  mu := tab N μ
  x := tab n S.x
  mList := [(M 0).m, (M 1).m, (M 2).m]
  conj := conj
  polytropic := true
  PNormed := tab n S.P
  rhoNormed := tab n S.ρ
  Gamma1 := tab n S.Γ
  rhoGammaDer := none
  dgrav := tab n S.g
  dgrav2 := tab n S.g'
  dgrav3 := tab n S.g''
  normP := 1
  normRho := 1
  R := S.R

/-- Non-vacuity of `C84_value_partial`: every star with constant adiabatic exponent and every triad can be
sampled. -/
theorem sampleObj_samples (S : Spec.Star) (n N : ℕ) (μ : ℕ → ℝ) (M : Fin 3 → Spec.Mode) (conj : AngInt.Conj)
    (h2 : 2 ≤ N) (he : N % 2 = 0) (hG : ∀ i, S.Γ' i = 0) : Samples (sampleObj S n N μ M conj) S n N μ M where
  x := rfl
  R := rfl
  mu := rfl
  two := h2
  even := he
  P := ⟨S.P, rfl, fun i => (one_mul _).symm⟩
  rho := ⟨S.ρ, rfl, fun i => (one_mul _).symm⟩
  gamma := rfl
  gammaDer := Or.inl ⟨rfl, hG⟩
  g1 := rfl
  g2 := rfl
  g3 := rfl
  orders := rfl
  z k := attrs_name (fun b k => arrOf n N μ (M k) b) "_z_1" k
  dz k := attrs_name (fun b k => arrOf n N μ (M k) b) "_rad_der_x_z_1" k
  y k := attrs_name (fun b k => arrOf n N μ (M k) b) "_z_2_over_c_1_omega" k
  dy k := attrs_name (fun b k => arrOf n N μ (M k) b) "_rad_der_x_z_2_c_1_omega" k
  div k := attrs_name (fun b k => arrOf n N μ (M k) b) "_rad_diverg" k
  hr k := attrs_name (fun b k => arrOf n N μ (M k) b) "_hr" k
  ht k := attrs_name (fun b k => arrOf n N μ (M k) b) "_ht" k
  hp k := attrs_name (fun b k => arrOf n N μ (M k) b) "_hp" k
  dhr k := attrs_name (fun b k => arrOf n N μ (M k) b) "_theta_der_hr_theta" k
  dht k := attrs_name (fun b k => arrOf n N μ (M k) b) "_theta_der_ht_theta" k
  dhp k := attrs_name (fun b k => arrOf n N μ (M k) b) "_theta_der_hp_theta" k
  mhr k := attrs_name (fun b k => arrOf n N μ (M k) b) "_mhr" k
  tp k := attrs_name (fun b k => arrOf n N μ (M k) b) "_theta_phi" k
  pp k := attrs_name (fun b k => arrOf n N μ (M k) b) "_phi_phi" k

/-- **C84 (refutation).** With the default conjugation (first mode) the coefficient is not the volume integral
with the first displacement conjugated: only the azimuthal order is conjugated, not the factor `i` of the
azimuthal displacement.  Here it has the opposite sign, for azimuthal orders `2 = 1 + 1`. -/
theorem C84_conjugation_wrong : ∃ (o : Obj) (S : Spec.Star) (n N : ℕ) (μ : ℕ → ℝ) (M : Fin 3 → Spec.Mode),
    Samples o S n N μ M ∧ o.useCheby = false ∧ o.protect = false ∧ o.selfCoupling = false ∧
    o.conj = conjCC .none ∧ (M 0).m = 2 ∧ (M 1).m = 1 ∧ (M 2).m = 1 ∧ ∀ g, GoodGarbage g →
      ∃ (k : ℝ) (l : List ℝ), coupling o g none = some (k, l) ∧ k ≠ 0 ∧
        ∑ t, Spec.kappa S n N μ M ![true, false, false] t = -(k : ℂ) := by
  let S : Spec.Star := ⟨fun i => i + 1, 1, 0, 1, 1, 0, 0, 1, 0⟩
  let A : Spec.Mode := ⟨2, 0, 0, 1, 0, 0, 0, 0, 1, 0, 0, 0⟩
  let B : Spec.Mode := ⟨1, 0, 0, 1, 0, 0, 0, 0, 1, 0, 0, 0⟩
  let C : Spec.Mode := ⟨1, 1, 0, 0, 0, 0, 1, 0, 0, 0, 0, 0⟩
  let μ : ℕ → ℝ := fun i => i / 4
  let M : Fin 3 → Spec.Mode := ![A, B, C]
  refine ⟨sampleObj S 2 2 μ M (conjCC .none), S, 2, 2, μ, M, sampleObj_samples S 2 2 μ M _ le_rfl rfl (fun _ => rfl), rfl, rfl,
    rfl, rfl, rfl, rfl, rfl, fun g hg => ?_⟩
  have hc := coupling_computed (sampleObj_samples S 2 2 μ M (conjCC .none) le_rfl rfl (fun _ => rfl)) rfl rfl rfl
    ![true, false, false] rfl g hg none
  have hd : ∀ c : Fin 3 → Bool, ∀ M : Fin 3 → Spec.Mode, (∀ k, (M k).div = 0) →
      ∑ t, computed S 2 2 μ M c t = azim M (c 0) (c 1) (c 2) * Q S 2 2 μ (d3 S M) := by
    intro c M hM
    rw [Fin.sum_univ_four]
    have e0 : d0 S μ M = 0 := by funext i j; simp [d0, hM]
    have e1 : d1 S M = 0 := by funext i j; simp [d1, hM]
    have e2 : d2 S μ M = 0 := by funext i j; simp [d2, S]
    have hq : Q S 2 2 μ 0 = 0 := by simp [Q, trapSum, angR]
    simp [computed, e0, e1, e2, hq, S]
  have h1 := hd ![true, false, false] M (by intro k; fin_cases k <;> rfl)
  have h2 := hd (fun _ => false) (barIf M ![true, false, false]) (by intro k; fin_cases k <;> rfl)
  have hb : d3 S (barIf M ![true, false, false]) = fun i j => -d3 S M i j := by
    funext i j
    simp [d3, hor, barIf, bar, M, A, B, C]
    ring
  have hQ : Q S 2 2 μ (d3 S (barIf M ![true, false, false])) = -Q S 2 2 μ (d3 S M) := by
    rw [hb]
    have := Q_mul S 2 2 μ (d3 S M) (-1)
    rw [show (fun i j => -d3 S M i j) = fun i j => -1 * d3 S M i j by funext i j; ring, ← this]; ring
  refine ⟨_, _, hc, ?_, ?_⟩
  · rw [show upTo 2 none = 2 from rfl, h1]
    have ha : azim M true false false = 2 * Real.pi := by
      unfold azim; rw [if_pos (by simp [M, A, B, C, AngInt.sgn])]
    have : Q S 2 2 μ (d3 S M) ≠ 0 := by
      simp [Q, trapSum, angR, d3, hor, M, A, B, C, S, μ]; norm_num
    simp only [Matrix.cons_val_zero, Matrix.cons_val_one, Matrix.cons_val]
    rw [ha]
    exact mul_ne_zero (by positivity) this
  · have : ∀ t, Spec.kappa S 2 2 μ M ![true, false, false] t =
        (computed S 2 2 μ (barIf M ![true, false, false]) (fun _ => false) t : ℂ) := fun t => kappa_eq ..
    rw [sum_congr rfl fun t _ => this t, ← Complex.ofReal_sum, h2, azim_barIf, hQ, show upTo 2 none = 2 from rfl, h1]
    push_cast; ring

end
end Verif.Coupling
