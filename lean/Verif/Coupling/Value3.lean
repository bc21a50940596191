import Verif.Coupling.Value2
/-! # C84: the coupling coefficient is the published volume integral -/
namespace Verif.Coupling
open Finset Equiv NumInt NumInt.Spec
noncomputable section

/-- The azimuthal phases and their inverses. -/
def D : Matrix (Fin 3) (Fin 3) ℂ := Matrix.diagonal ![1, 1, Complex.I]
def D' : Matrix (Fin 3) (Fin 3) ℂ := Matrix.diagonal ![1, 1, -Complex.I]
theorem D'_D : D' * D = 1 := by
  rw [D, D', Matrix.diagonal_mul_diagonal, ← Matrix.diagonal_one]
  congr 1; funext k; fin_cases k <;> simp

/-- A real matrix with phases. -/
def cx (A : Matrix (Fin 3) (Fin 3) ℝ) : Matrix (Fin 3) (Fin 3) ℂ := D * A.map (algebraMap ℝ ℂ) * D'

theorem cx_mul (A B : Matrix (Fin 3) (Fin 3) ℝ) : cx A * cx B = cx (A * B) := by
  unfold cx
  rw [Matrix.map_mul]
  calc D * A.map (algebraMap ℝ ℂ) * D' * (D * B.map (algebraMap ℝ ℂ) * D')
      = D * A.map (algebraMap ℝ ℂ) * (D' * D) * B.map (algebraMap ℝ ℂ) * D' := by simp only [Matrix.mul_assoc]
    _ = _ := by rw [D'_D, Matrix.mul_one, Matrix.mul_assoc D]
theorem cx_trace (A : Matrix (Fin 3) (Fin 3) ℝ) : (cx A).trace = (A.trace : ℂ) := by
  unfold cx
  rw [Matrix.trace_mul_comm, ← Matrix.mul_assoc, D'_D, Matrix.one_mul]
  simp [Matrix.trace, Fin.sum_univ_three]

theorem at_grad (M : Spec.Mode) (μ : ℕ → ℝ) (i j : ℕ) : (M.at μ i j).grad = cx (U μ M i j) := by
  ext a b
  rw [cx, D, D', Matrix.mul_diagonal, Matrix.diagonal_mul]
  fin_cases a <;> fin_cases b <;> simp [Spec.Mode.at, U] <;> ring_nf <;> simp <;> ring

/-- The energy density of the fields at `φ = 0` is real and has the value `d0 … d3`. -/
theorem density_real (S : Spec.Star) (μ : ℕ → ℝ) (M : Fin 3 → Spec.Mode) (i j : ℕ) (t : Fin 4) :
    Spec.density S i ((M 0).at μ i j) ((M 1).at μ i j) ((M 2).at μ i j) t =
      ((![d0 S μ M i j, d1 S M i j, d2 S μ M i j, d3 S M i j] t : ℝ) : ℂ) := by
  unfold Spec.density
  simp only [at_grad, cx_mul, cx_trace]
  fin_cases t
  · simp [d0, Spec.Mode.at]
  · simp [d1, Spec.Mode.at]
  · simp [d2]
  · simp [-mul_eq_mul_left_iff, -mul_eq_mul_right_iff, d3, Spec.Mode.at, Fin.sum_univ_three, Spec.grad3, hor]
    ring_nf
    simp only [Complex.I_sq]
    ring

theorem density_smul (S : Spec.Star) (i : ℕ) (A B C : Spec.Local) (a b c : ℂ) (t : Fin 4) :
    Spec.density S i (A.smul a) (B.smul b) (C.smul c) t = a * b * c * Spec.density S i A B C t := by
  unfold Spec.density Spec.Local.smul
  fin_cases t
  · simp [Matrix.trace_smul]; ring
  · simp; ring
  · simp [Matrix.trace_smul]; ring
  · simp [Fin.sum_univ_three]; ring

theorem angSum_real (N : ℕ) (μ : ℕ → ℝ) (f : ℕ → ℝ) (e : ℂ) :
    (Spec.angSum N μ fun j => e * (f j : ℂ)) = e * ((angR N μ f : ℝ) : ℂ) := by
  unfold Spec.angSum angR; push_cast; rw [mul_sum]; exact sum_congr rfl fun j _ => by ring

theorem volume_real (S : Spec.Star) (n N : ℕ) (μ : ℕ → ℝ) (f : ℕ → ℕ → ℝ) (m : ℤ) :
    (Spec.volume S n N μ fun i j φ => Complex.exp (Complex.I * m * φ) * (f i j : ℂ)) =
      (((if m = 0 then 2 * Real.pi else 0) * (S.R ^ 3 * Q S n N μ f) : ℝ) : ℂ) := by
  unfold Spec.volume
  have e : ∀ φ : ℝ, (S.R : ℂ) ^ 3 * trapSum n (fun i => (S.x i : ℂ)) (fun i => (S.x i : ℂ) ^ 2 *
      Spec.angSum N μ fun j => Complex.exp (Complex.I * m * φ) * (f i j : ℂ)) =
      Complex.exp (Complex.I * m * φ) * ((S.R ^ 3 * Q S n N μ f : ℝ) : ℂ) := by
    intro φ
    simp only [angSum_real]
    unfold Q trapSum
    push_cast
    rw [mul_sum, mul_sum, mul_sum]
    exact sum_congr rfl fun i _ => by ring
  simp only [e]
  rw [intervalIntegral.integral_mul_const, AngInt.azimuthal_integral]
  split <;> simp

/-- The quantity the program computes, whatever the conjugation: conjugation enters only through the
azimuthal orders. -/
def computed (S : Spec.Star) (n N : ℕ) (μ : ℕ → ℝ) (M : Fin 3 → Spec.Mode) (c : Fin 3 → Bool) (t : Fin 4) : ℝ :=
  azim M (c 0) (c 1) (c 2) * (S.R ^ 3 * Q S n N μ (![d0 S μ M, d1 S M, d2 S μ M, d3 S M] t))

theorem coupling_computed {o : Obj} {S : Spec.Star} {n N : ℕ} {μ : ℕ → ℝ} {M : Fin 3 → Spec.Mode} (h : Samples o S n N μ M)
    (hu : o.useCheby = false) (hp : o.protect = false)
    (hs : o.selfCoupling = false) (c : Fin 3 → Bool) (hc : AngInt.conjugated o.conj = some (c 0, c 1, c 2)) (g : Garbage)
    (hg : GoodGarbage g) (idx : Option ℕ) :
    coupling o g idx = some (∑ t, computed S (upTo n idx) N μ M c t,
      [computed S (upTo n idx) N μ M c 0, computed S (upTo n idx) N μ M c 1, computed S (upTo n idx) N μ M c 2,
        computed S (upTo n idx) N μ M c 3]) := by
  unfold coupling
  rw [h.kappa1 hu hp hs hc g hg idx, h.kappa2 hu hp hc idx, h.kappa3 hu hp hs hc g hg idx, h.kappa4 hu hp hs hc g hg idx,
    Fin.sum_univ_four]
  rfl

theorem conj_exp (m : ℤ) (φ : ℝ) : (starRingEnd ℂ) (Complex.exp (Complex.I * m * φ)) =
    Complex.exp (Complex.I * ((-m : ℤ) : ℂ) * φ) := by
  rw [← Complex.exp_conj]; congr 1; simp

/-- The mode whose field is the complex conjugate. -/
def bar (M : Spec.Mode) : Spec.Mode := { M with m := -M.m, Hp := fun j => -M.Hp j, dHp := fun j => -M.dHp j }

/-- Some modes replaced by their conjugates. -/
def barIf (M : Fin 3 → Spec.Mode) (c : Fin 3 → Bool) (k : Fin 3) : Spec.Mode := if c k then bar (M k) else M k

theorem at_bar (M : Spec.Mode) (μ : ℕ → ℝ) (i j : ℕ) : (bar M).at μ i j = (M.at μ i j).conj := by
  unfold Spec.Local.conj Spec.Mode.at bar
  simp only [Spec.Local.mk.injEq]
  refine ⟨?_, ?_, by simp⟩
  · ext a b; fin_cases a <;> fin_cases b <;> simp <;> ring
  · funext a; fin_cases a <;> simp

theorem field_eq (M : Fin 3 → Spec.Mode) (c : Fin 3 → Bool) (k : Fin 3) (μ : ℕ → ℝ) (i j : ℕ) (φ : ℝ) :
    (M k).field (c k) μ i j φ = ((barIf M c k).at μ i j).smul
      (Complex.exp (Complex.I * ((AngInt.sgn (c k) * (M k).m : ℤ) : ℂ) * φ)) := by
  unfold barIf
  cases c k with
  | false => simp [Spec.Mode.field, AngInt.sgn]
  | true =>
    have e : ∀ (A : Spec.Local) (z : ℂ), (A.smul z).conj = A.conj.smul (starRingEnd ℂ z) := by
      intro A z
      unfold Spec.Local.conj Spec.Local.smul
      simp only [Spec.Local.mk.injEq]
      refine ⟨?_, ?_, by simp⟩
      · ext a b; simp
      · funext a; simp
    simp only [Spec.Mode.field, if_true, e, conj_exp, at_bar]
    simp [AngInt.sgn]

/-- The specified coefficient is what the program computes for the conjugated modes. -/
theorem kappa_eq (S : Spec.Star) (n N : ℕ) (μ : ℕ → ℝ) (M : Fin 3 → Spec.Mode) (c : Fin 3 → Bool) (t : Fin 4) :
    Spec.kappa S n N μ M c t = (computed S n N μ (barIf M c) (fun _ => false) t : ℂ) := by
  unfold Spec.kappa computed
  have e : ∀ i j (φ : ℝ), Spec.density S i ((M 0).field (c 0) μ i j φ) ((M 1).field (c 1) μ i j φ)
      ((M 2).field (c 2) μ i j φ) t = Complex.exp (Complex.I * ((AngInt.sgn (c 0) * (M 0).m + AngInt.sgn (c 1) * (M 1).m +
        AngInt.sgn (c 2) * (M 2).m : ℤ) : ℂ) * φ) *
        (((![d0 S μ (barIf M c), d1 S (barIf M c), d2 S μ (barIf M c), d3 S (barIf M c)] t) i j : ℝ) : ℂ) := by
    intro i j φ
    rw [field_eq, field_eq, field_eq, density_smul, density_real, ← Complex.exp_add, ← Complex.exp_add]
    congr 2
    · push_cast; ring
    · fin_cases t <;> rfl
  simp only [e]
  rw [volume_real S n N μ (![d0 S μ (barIf M c), d1 S (barIf M c), d2 S μ (barIf M c), d3 S (barIf M c)] t)]
  have hm : ∀ k, AngInt.sgn false * (barIf M c k).m = AngInt.sgn (c k) * (M k).m := by
    intro k; unfold barIf; cases c k <;> simp [AngInt.sgn, bar]
  unfold azim
  rw [hm, hm, hm]

theorem azim_barIf (M : Fin 3 → Spec.Mode) (c : Fin 3 → Bool) :
    azim (barIf M c) false false false = azim M (c 0) (c 1) (c 2) := by
  have hm : ∀ k, AngInt.sgn false * (barIf M c k).m = AngInt.sgn (c k) * (M k).m := by
    intro k; unfold barIf; cases c k <;> simp [AngInt.sgn, bar]
  unfold azim; rw [hm, hm, hm]

/-- **C84 (proved part).** The coupling coefficient, and each of its four parts, is the volume integral of
the third-order energy density of the three displacement fields, for every star, every three modes, every
slice of the radial grid and every content of the uninitialised arrays — provided that none or all of the
modes are flagged as conjugated, or the flagged ones are axisymmetric without azimuthal displacement. -/
theorem C84_value_partial {o : Obj} {S : Spec.Star} {n N : ℕ} {μ : ℕ → ℝ} {M : Fin 3 → Spec.Mode}
    (h : Samples o S n N μ M) (hu : o.useCheby = false) (hp : o.protect = false) (hs : o.selfCoupling = false)
    (c : Fin 3 → Bool) (hc : AngInt.conjugated o.conj = some (c 0, c 1, c 2))
    (hr : (∀ k, c k = true) ∨ ∀ k, c k = true → (M k).m = 0 ∧ (∀ j, (M k).Hp j = 0) ∧ ∀ j, (M k).dHp j = 0)
    (g : Garbage) (hg : GoodGarbage g) (idx : Option ℕ) :
    ∃ k0 k1 k2 k3 : ℝ, coupling o g idx = some (k0 + k1 + k2 + k3, [k0, k1, k2, k3]) ∧
      (k0 : ℂ) = Spec.kappa S (upTo n idx) N μ M c 0 ∧ (k1 : ℂ) = Spec.kappa S (upTo n idx) N μ M c 1 ∧
      (k2 : ℂ) = Spec.kappa S (upTo n idx) N μ M c 2 ∧ (k3 : ℂ) = Spec.kappa S (upTo n idx) N μ M c 3 := by
  have key : ∀ t, Spec.kappa S (upTo n idx) N μ M c t = (computed S (upTo n idx) N μ M c t : ℂ) := by
    intro t
    rw [kappa_eq]
    congr 1
    unfold computed
    rw [azim_barIf]
    rcases hr with hr | hr
    · have hb : barIf M c = fun k => bar (M k) := by funext k; simp [barIf, hr k]
      have e0 : d0 S μ (fun k => bar (M k)) = d0 S μ M := by
        funext i j
        simp only [d0, trace3, Matrix.mul_apply, Fin.sum_univ_three, U, Matrix.of_apply, Matrix.cons_val, bar]
        push_cast; ring
      have e2 : d2 S μ (fun k => bar (M k)) = d2 S μ M := by
        funext i j
        simp only [d2, trace3, Matrix.mul_apply, Fin.sum_univ_three, U, Matrix.of_apply, Matrix.cons_val, bar]
        push_cast
        generalize (√(1 - μ j ^ 2)) = s
        simp only [div_eq_mul_inv]
        generalize s⁻¹ = t
        ring
      have e3 : d3 S (fun k => bar (M k)) = d3 S M := by
        funext i j
        simp only [d3, hor, bar]; ring
      have e1 : d1 S (fun k => bar (M k)) = d1 S M := rfl
      rw [hb, e0, e1, e2, e3]
    · have hb : barIf M c = M := by
        funext k
        unfold barIf
        split
        · next hk =>
          obtain ⟨h1, h2, h3⟩ := hr k hk
          unfold bar
          cases hM : M k
          simp only [hM] at h1 h2 h3
          simp only [h1, h2, h3, neg_zero, Spec.Mode.mk.injEq, true_and, and_true]
          exact ⟨(funext h2).symm, (funext h3).symm⟩
        · rfl
      rw [hb]
  refine ⟨_, _, _, _, ?_, (key 0).symm, (key 1).symm, (key 2).symm, (key 3).symm⟩
  rw [coupling_computed h hu hp hs c hc g hg idx, Fin.sum_univ_four]

/-- What the program returns in general: the coefficient of the *un*conjugated fields, times the azimuthal
integral of the conjugated ones. -/
theorem C84_conjugation_ignored {o : Obj} {S : Spec.Star} {n N : ℕ} {μ : ℕ → ℝ} {M : Fin 3 → Spec.Mode}
    (h : Samples o S n N μ M) (hu : o.useCheby = false) (hp : o.protect = false) (hs : o.selfCoupling = false)
    (c : Fin 3 → Bool) (hc : AngInt.conjugated o.conj = some (c 0, c 1, c 2)) 
    (hm : AngInt.sgn (c 0) * (M 0).m + AngInt.sgn (c 1) * (M 1).m + AngInt.sgn (c 2) * (M 2).m = 0)
    (g : Garbage) (hg : GoodGarbage g) (idx : Option ℕ) :
    ∃ k0 k1 k2 k3 : ℝ, coupling o g idx = some (k0 + k1 + k2 + k3, [k0, k1, k2, k3]) ∧
      ∀ t, ((![k0, k1, k2, k3] t : ℝ) : ℂ) = Spec.volume S (upTo n idx) N μ fun i j _ =>
        Spec.density S i ((M 0).at μ i j) ((M 1).at μ i j) ((M 2).at μ i j) t := by
  refine ⟨computed S (upTo n idx) N μ M c 0, computed S (upTo n idx) N μ M c 1, computed S (upTo n idx) N μ M c 2,
    computed S (upTo n idx) N μ M c 3, ?_, ?_⟩
  · rw [coupling_computed h hu hp hs c hc g hg idx, Fin.sum_univ_four]
  · intro t
    have := volume_real S (upTo n idx) N μ (![d0 S μ M, d1 S M, d2 S μ M, d3 S M] t) 0
    simp only [Int.cast_zero, mul_zero, zero_mul, Complex.exp_zero, one_mul, if_true] at this
    simp only [density_real]
    rw [show (fun i j (_ : ℝ) => ((![d0 S μ M i j, d1 S M i j, d2 S μ M i j, d3 S M i j] t : ℝ) : ℂ)) =
      fun i j _ => (((![d0 S μ M, d1 S M, d2 S μ M, d3 S M] t) i j : ℝ) : ℂ) by
        funext i j _; fin_cases t <;> rfl, this]
    unfold computed azim
    rw [if_pos hm]
    fin_cases t <;> rfl

end
end Verif.Coupling
