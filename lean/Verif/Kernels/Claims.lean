import Verif.Kernels.Combine
/-! # Property C105: the kernels put together give the energy density of the coupling -/
namespace Verif.Kernels
open Finset Equiv NumInt Coupling
noncomputable section

instance (t : Term) (sym : Bool) (lt : Term) (lsym : Bool) : Decidable (Fits t sym lt lsym) := by
  unfold Fits; infer_instance

/-- All names fit. -/
def fitsAll (nr : ℤ) (ps : List Spec.Product) : Bool :=
  ps.all fun p => ((radLoads nr).find? fun l => l.label == p.rad).any (fun l => decide (Fits p.r p.sym l.t l.sym)) &&
    p.ang.all fun a => ((angLoads nr).find? fun l => l.label == a.1).any fun l => decide (Fits a.2.1 p.sym l.t l.sym)

theorem fits_of (nr : ℤ) (ps : List Spec.Product) (h : fitsAll nr ps = true) : ∀ p ∈ ps,
    (∃ l, ((radLoads nr).find? fun l => l.label == p.rad) = some l ∧ Fits p.r p.sym l.t l.sym) ∧
      ∀ a ∈ p.ang, ∃ l, ((angLoads nr).find? fun l => l.label == a.1) = some l ∧ Fits a.2.1 p.sym l.t l.sym := by
  intro p hp
  have := List.all_eq_true.1 h p hp
  rw [Bool.and_eq_true, Option.any_eq_true, List.all_eq_true] at this
  obtain ⟨⟨l, hl, hf⟩, h2⟩ := this
  refine ⟨⟨l, hl, by simpa using hf⟩, fun a ha => ?_⟩
  have := h2 a ha
  rw [Option.any_eq_true] at this
  obtain ⟨l, hl, hf⟩ := this
  exact ⟨l, hl, by simpa using hf⟩

theorem fits1 : fitsAll 1 Spec.products1 = true := by rfl
theorem fits2 : fitsAll 2 Spec.products2 = true := by rfl
theorem fits3 (c) : fitsAll 3 (Spec.products3 c) = true := by rfl
theorem fits4 : fitsAll 4 Spec.products4 = true := by rfl

theorem find1 (p : RadLoad → Bool) (a : RadLoad) (l : List RadLoad) : (a :: l).find? p = if p a then some a else l.find? p := by
  rw [List.find?_cons]; cases p a <;> rfl
theorem find2 (p : AngLoad → Bool) (a : AngLoad) (l : List AngLoad) : (a :: l).find? p = if p a then some a else l.find? p := by
  rw [List.find?_cons]; cases p a <;> rfl

/-- The scene: a star and three modes sampled on `n` shells and `N` latitudes. -/
structure Spec.Scene (o : RadObj) (S : Coupling.Spec.Star) (n N : ℕ) (μ : ℕ → ℝ) (M : Fin 3 → Coupling.Spec.Mode) : Prop where
  rad : Spec.RadSamples o n S (Spec.radFn M)
  ang : Spec.AngSamples o.base N μ (Spec.angFn μ M)
  energy : o.energy ≠ 0

/-- The energy density of the coupling at shell `i`, latitude `j`. -/
def Spec.density (S : Coupling.Spec.Star) (μ : ℕ → ℝ) (M : Fin 3 → Coupling.Spec.Mode) (i j : ℕ) (t : Fin 4) : ℂ :=
  Coupling.Spec.density S i ((M 0).at μ i j) ((M 1).at μ i j) ((M 2).at μ i j) t

/-- **C105.** First contribution. -/
theorem C105_first {o : RadObj} {S : Coupling.Spec.Star} {n N : ℕ} {μ : ℕ → ℝ} {M : Fin 3 → Coupling.Spec.Mode}
    (h : Spec.Scene o S n N μ M) (i j : ℕ) (hi : i < n) (hj : j < N) :
    ∃ v : ℝ, Spec.Combined o μ 1 Spec.products1 i j v ∧
      ((1 / 2 * v : ℝ) : ℂ) = ((S.x i * S.R) ^ 3 / o.energy : ℝ) * Spec.density S μ M i j 0 := by
  refine ⟨_, shown_of h.rad h.ang 1 (by simp) i j hi hj _ (fits_of _ _ fits1) _ rfl, ?_⟩
  rw [Spec.density, density_real, ← Complex.ofReal_mul, Complex.ofReal_inj]
  simp only [Spec.combine, Spec.products1, List.map_cons, List.map_nil, List.sum_cons, List.sum_nil]
  simp only [dist_act, rval, aval, radLoads, angLoads, rad1, ang1, find1, find2, String.reduceBEq, Int.reduceEq, if_true, if_false]
  simp only [Spec.Product.perms, if_true, if_false, Bool.false_eq_true, sum_singleton, ← sum_six, six, List.map_cons, List.map_nil, List.sum_cons, List.sum_nil,
    List.prod_cons, List.prod_nil, act0, act1, act2, act3, act4, act5, Spec.product, radFn_rv, angFn_av, Spec.structural,
    rv1, rv2, rv3, rv4, rv5, av1, av2, av3, av4, av5, av6, av7, av8, av9, div_one, Pi.one_apply, one_mul, mul_one, add_zero,
    neg_mul]
  unfold d0
  simp only [trace3, Matrix.mul_apply, Fin.sum_univ_three, U, Matrix.of_apply, Matrix.cons_val]
  generalize (√(1 - μ j ^ 2)) = s
  simp only [div_eq_mul_inv]
  generalize s⁻¹ = t
  ring

/-- **C105.** Second contribution. -/
theorem C105_second {o : RadObj} {S : Coupling.Spec.Star} {n N : ℕ} {μ : ℕ → ℝ} {M : Fin 3 → Coupling.Spec.Mode}
    (h : Spec.Scene o S n N μ M) (i j : ℕ) (hi : i < n) (hj : j < N) :
    ∃ v : ℝ, Spec.Combined o μ 2 Spec.products2 i j v ∧
      ((1 / 2 * v : ℝ) : ℂ) = ((S.x i * S.R) ^ 3 / o.energy : ℝ) * Spec.density S μ M i j 1 := by
  refine ⟨_, shown_of h.rad h.ang 2 (by simp) i j hi hj _ (fits_of _ _ fits2) _ rfl, ?_⟩
  rw [Spec.density, density_real, ← Complex.ofReal_mul, Complex.ofReal_inj]
  simp only [Spec.combine, Spec.products2, List.map_cons, List.map_nil, List.sum_cons, List.sum_nil]
  simp only [dist_act, rval, aval, radLoads, angLoads, rad2, ang2, find1, find2, String.reduceBEq, Int.reduceEq, if_true, if_false]
  simp only [Spec.Product.perms, if_true, if_false, Bool.false_eq_true, sum_singleton, ← sum_six, six, List.map_cons, List.map_nil, List.sum_cons, List.sum_nil,
    List.prod_cons, List.prod_nil, act0, act1, act2, act3, act4, act5, Spec.product, radFn_rv, angFn_av, Spec.structural,
    rv1, rv2, rv3, rv4, rv5, av1, av2, av3, av4, av5, av6, av7, av8, av9, div_one, Pi.one_apply, one_mul, mul_one, add_zero,
    neg_mul]
  unfold d1
  simp only [Matrix.cons_val]
  ring

/-- **C105.** Fourth contribution, off the centre. -/
theorem C105_fourth {o : RadObj} {S : Coupling.Spec.Star} {n N : ℕ} {μ : ℕ → ℝ} {M : Fin 3 → Coupling.Spec.Mode}
    (h : Spec.Scene o S n N μ M) (i j : ℕ) (hi : i < n) (hj : j < N) (hx : S.x i * S.R ≠ 0) :
    ∃ v : ℝ, Spec.Combined o μ 4 Spec.products4 i j v ∧
      ((-(1 / 2) * v : ℝ) : ℂ) = ((S.x i * S.R) ^ 3 / o.energy : ℝ) * Spec.density S μ M i j 3 := by
  refine ⟨_, shown_of h.rad h.ang 4 (by simp) i j hi hj _ (fits_of _ _ fits4) _ rfl, ?_⟩
  rw [Spec.density, density_real, ← Complex.ofReal_mul, Complex.ofReal_inj]
  simp only [Spec.combine, Spec.products4, List.map_cons, List.map_nil, List.sum_cons, List.sum_nil]
  simp only [dist_act, rval, aval, radLoads, angLoads, rad4, ang4, find1, find2, String.reduceBEq, Int.reduceEq, if_true, if_false]
  simp only [Spec.Product.perms, if_true, if_false, Bool.false_eq_true, sum_singleton, ← sum_six, six, List.map_cons, List.map_nil, List.sum_cons, List.sum_nil,
    List.prod_cons, List.prod_nil, act0, act1, act2, act3, act4, act5, Spec.product, radFn_rv, angFn_av, Spec.structural,
    rv1, rv2, rv3, rv4, rv5, av1, av2, av3, av4, av5, av6, av7, av8, av9, div_one, Pi.one_apply, one_mul, mul_one, add_zero,
    neg_mul]
  unfold d3 hor
  simp only [Matrix.cons_val]
  have hE := h.energy
  obtain ⟨hx1, hx2⟩ := mul_ne_zero_iff.1 hx
  field_simp
  ring

/-- The corrections that the declared angular terms of the third contribution need. -/
def Spec.corrections (μ : ℕ → ℝ) (k : ℕ) (label : String) (j : ℕ) : ℝ :=
  if label = "term_6" ∨ label = "term_7" ∨ label = "term_8" ∨ label = "term_9" ∨ label = "term_17" then -1
  else if label = "term_18" ∨ label = "term_19" then √(1 - μ j ^ 2)
  else if k = 3 ∧ (label = "term_1" ∨ label = "term_2") then -1 else 1

theorem cancel_sin (s a : ℝ) (h : s ≠ 0) : s * (a / s) = a := by field_simp

set_option maxHeartbeats 2000000 in
/-- **C105 (partial).** Third contribution: only with corrections of eight angular terms: the opposite sign for
terms 6, 7, 8, 9 and 17, no division by the sine for terms 18 and 19, and the opposite sign of terms 1 and 2 where
they go with the third radial term. -/
theorem C105_third_partial {o : RadObj} {S : Coupling.Spec.Star} {n N : ℕ} {μ : ℕ → ℝ} {M : Fin 3 → Coupling.Spec.Mode}
    (h : Spec.Scene o S n N μ M) (i j : ℕ) (hi : i < n) (hj : j < N) (hs : |μ j| < 1) :
    ∃ v : ℝ, Spec.Combined o μ 3 (Spec.products3 (Spec.corrections μ)) i j v ∧
      ((1 / 2 * v : ℝ) : ℂ) = ((S.x i * S.R) ^ 3 / o.energy : ℝ) * Spec.density S μ M i j 2 := by
  refine ⟨_, shown_of h.rad h.ang 3 (by simp) i j hi hj _ (fits_of _ _ (fits3 _)) _ rfl, ?_⟩
  rw [Spec.density, density_real, ← Complex.ofReal_mul, Complex.ofReal_inj]
  simp only [Spec.combine, Spec.products3, List.map_cons, List.map_nil, List.sum_cons, List.sum_nil]
  simp only [dist_act, rval, aval, radLoads, angLoads, rad3, ang3, find1, find2, String.reduceBEq, Int.reduceEq, if_true, if_false]
  simp only [Spec.Product.perms, if_true, if_false, Bool.false_eq_true, sum_singleton, ← sum_six, six, List.map_cons, List.map_nil, List.sum_cons, List.sum_nil,
    List.prod_cons, List.prod_nil, act0, act1, act2, act3, act4, act5, Spec.product, radFn_rv, angFn_av, Spec.structural,
    rv1, rv2, rv3, rv4, rv5, av1, av2, av3, av4, av5, av6, av7, av8, av9, div_one, Pi.one_apply, one_mul, mul_one, add_zero,
    neg_mul]
  simp only [Spec.corrections, String.reduceEq, false_or, or_false, true_or, or_true, if_true, if_false, Nat.reduceEqDiff, false_and,
    true_and, and_true, and_false, neg_mul, one_mul]
  have hs0 : √(1 - μ j ^ 2) ≠ 0 := (Real.sqrt_pos.2 (by rw [← sq_abs]; nlinarith [abs_nonneg (μ j)])).ne'
  unfold d2
  simp only [trace3, Matrix.mul_apply, Fin.sum_univ_three, U, Matrix.of_apply, Matrix.cons_val]
  simp only [cancel_sin _ _ hs0]
  generalize (√(1 - μ j ^ 2)) = s
  simp only [div_eq_mul_inv]
  generalize s⁻¹ = t
  ring

end
end Verif.Kernels
