import Verif.Round.NumInt
import Mathlib.MeasureTheory.Integral.IntervalIntegral.FundThmCalculus
import Mathlib.Analysis.Calculus.MeanValue
import Mathlib.Analysis.Calculus.Deriv.Pow
/-!
# Errors of the rules of integration
-/
namespace Verif.Round
open Set MeasureTheory intervalIntegral

/-- Integrating a bound. -/
theorem int_bound {a b : ℝ} {φ φ' : ℝ → ℝ} (h : ∀ x ∈ Icc a b, HasDerivWithinAt φ (φ' x) (Icc a b) x) (h0 : φ a = 0)
    {c : ℝ} {n : ℕ} (hb : ∀ t ∈ Icc a b, |φ' t| ≤ c * (t - a) ^ n) :
    ∀ t ∈ Icc a b, |φ t| ≤ c / (n + 1) * (t - a) ^ (n + 1) := by
  intro t ht
  have hB : ∀ x, HasDerivAt (fun y => c / (n + 1) * (y - a) ^ (n + 1)) (c * (x - a) ^ n) x := by
    intro x
    have h1 : HasDerivAt (fun y => y - a) 1 x := (hasDerivAt_id x).sub_const a
    have h2 := (h1.pow (n + 1)).const_mul (c / (n + 1))
    convert! h2 using 1
    have hn : (n : ℝ) + 1 ≠ 0 := by positivity
    push_cast
    simp only [Nat.add_sub_cancel, mul_one]
    field_simp
  have key := image_norm_le_of_norm_deriv_right_le_deriv_boundary (f := φ) (f' := φ') (a := a) (b := b)
    (B := fun y => c / (n + 1) * (y - a) ^ (n + 1)) (B' := fun x => c * (x - a) ^ n)
    (fun x hx => (h x hx).continuousWithinAt)
    (fun x hx => (h x (Ico_subset_Icc_self hx)).mono_of_mem_nhdsWithin (Icc_mem_nhdsGE_of_mem hx))
    (by simp [h0]) hB (fun x hx => hb x (Ico_subset_Icc_self hx)) ht
  simpa [Real.norm_eq_abs] using key

/-- The derivative of the integral. -/
theorem integral_deriv {A B : ℝ} {f : ℝ → ℝ} (hf : ContinuousOn f (Icc A B)) {x : ℝ} (hx : x ∈ Icc A B) :
    HasDerivWithinAt (fun t => ∫ s in A..t, f s) (f x) (Icc A B) x := by
  have := Fact.mk hx
  apply integral_hasDerivWithinAt_right
  · exact (hf.mono (Icc_subset_Icc le_rfl hx.2)).intervalIntegrable_of_Icc hx.1
  · exact hf.stronglyMeasurableAtFilter_nhdsWithin measurableSet_Icc x
  · exact hf x hx

/-- One trapezoid. -/
theorem trap_panel {a b M : ℝ} (hab : a ≤ b) {f f' f'' : ℝ → ℝ} (h1 : ∀ x ∈ Icc a b, HasDerivWithinAt f (f' x) (Icc a b) x)
    (h2 : ∀ x ∈ Icc a b, HasDerivWithinAt f' (f'' x) (Icc a b) x) (hM : ∀ x ∈ Icc a b, |f'' x| ≤ M) :
    |(b - a) * (f a + f b) / 2 - ∫ s in a..b, f s| ≤ M / 12 * (b - a) ^ 3 := by
  have hc : ContinuousOn f (Icc a b) := fun x hx => (h1 x hx).continuousWithinAt
  have hid : ∀ x, HasDerivWithinAt (fun t : ℝ => t - a) 1 (Icc a b) x := fun x => (hasDerivWithinAt_id x _).sub_const a
  have d1 : ∀ x ∈ Icc a b, HasDerivWithinAt (fun t => (t - a) * (f a + f t) / 2 - ∫ s in a..t, f s)
      ((f a + f x) / 2 + (x - a) * f' x / 2 - f x) (Icc a b) x := by
    intro x hx
    have := ((((hid x).mul ((h1 x hx).const_add (f a))).div_const 2).sub (integral_deriv hc hx))
    refine this.congr_deriv ?_
    ring
  have d2 : ∀ x ∈ Icc a b, HasDerivWithinAt (fun x => (f a + f x) / 2 + (x - a) * f' x / 2 - f x)
      ((x - a) / 2 * f'' x) (Icc a b) x := by
    intro x hx
    have := ((((h1 x hx).const_add (f a)).div_const 2).add (((hid x).mul (h2 x hx)).div_const 2)).sub (h1 x hx)
    refine this.congr_deriv ?_
    ring
  have b2 : ∀ t ∈ Icc a b, |(t - a) / 2 * f'' t| ≤ M / 2 * (t - a) ^ 1 := by
    intro t ht
    have h0 : 0 ≤ t - a := sub_nonneg.2 ht.1
    rw [abs_mul, abs_of_nonneg (by positivity : 0 ≤ (t - a) / 2), pow_one]
    have := mul_le_mul_of_nonneg_left (hM t ht) (by positivity : 0 ≤ (t - a) / 2)
    linarith
  have b1 := int_bound d2 (by simp) b2
  have b0 := int_bound d1 (by simp) b1 b ⟨hab, le_rfl⟩
  refine b0.trans (le_of_eq ?_)
  push_cast
  ring

/-- One panel of Simpson's rule, around `c`. -/
theorem simpson_panel {c h M : ℝ} (hh : 0 ≤ h) {f f1 f2 f3 f4 : ℝ → ℝ}
    (h1 : ∀ x ∈ Icc (c - h) (c + h), HasDerivWithinAt f (f1 x) (Icc (c - h) (c + h)) x)
    (h2 : ∀ x ∈ Icc (c - h) (c + h), HasDerivWithinAt f1 (f2 x) (Icc (c - h) (c + h)) x)
    (h3 : ∀ x ∈ Icc (c - h) (c + h), HasDerivWithinAt f2 (f3 x) (Icc (c - h) (c + h)) x)
    (h4 : ∀ x ∈ Icc (c - h) (c + h), HasDerivWithinAt f3 (f4 x) (Icc (c - h) (c + h)) x)
    (hM : ∀ x ∈ Icc (c - h) (c + h), |f4 x| ≤ M) :
    |h / 3 * (f (c - h) + 4 * f c + f (c + h)) - ∫ s in (c - h)..(c + h), f s| ≤ M / 90 * h ^ 5 := by
  set I := Icc (c - h) (c + h) with hI
  have hc : ContinuousOn f I := fun x hx => (h1 x hx).continuousWithinAt
  have mp : ∀ t ∈ Icc 0 h, c + t ∈ I := fun t ht => ⟨by linarith [ht.1], by linarith [ht.2]⟩
  have mm : ∀ t ∈ Icc 0 h, c - t ∈ I := fun t ht => ⟨by linarith [ht.2], by linarith [ht.1]⟩
  have up : ∀ {g g' : ℝ → ℝ}, (∀ x ∈ I, HasDerivWithinAt g (g' x) I x) → ∀ t ∈ Icc 0 h,
      HasDerivWithinAt (fun t => g (c + t)) (g' (c + t)) (Icc 0 h) t := by
    intro g g' hg t ht
    have := (hg _ (mp t ht)).comp t ((hasDerivWithinAt_id t (Icc 0 h)).const_add c) (fun s hs => mp s hs)
    exact this.congr_deriv (by simp)
  have dn : ∀ {g g' : ℝ → ℝ}, (∀ x ∈ I, HasDerivWithinAt g (g' x) I x) → ∀ t ∈ Icc 0 h,
      HasDerivWithinAt (fun t => g (c - t)) (-g' (c - t)) (Icc 0 h) t := by
    intro g g' hg t ht
    have := (hg _ (mm t ht)).comp t ((hasDerivWithinAt_id t (Icc 0 h)).const_sub c) (fun s hs => mm s hs)
    exact this.congr_deriv (by simp)
  set F : ℝ → ℝ := fun t => ∫ s in (c - h)..t, f s with hF
  have hFd : ∀ x ∈ I, HasDerivWithinAt F (f x) I x := fun x hx => integral_deriv hc hx
  have hid : ∀ x, HasDerivWithinAt (fun t : ℝ => t) 1 (Icc 0 h) x := fun x => hasDerivWithinAt_id x _
  have d1 : ∀ t ∈ Icc 0 h, HasDerivWithinAt
      (fun t => t / 3 * (f (c - t) + 4 * f c + f (c + t)) - (F (c + t) - F (c - t)))
      (-(2 / 3) * (f (c + t) + f (c - t)) + 4 / 3 * f c + t / 3 * (f1 (c + t) - f1 (c - t))) (Icc 0 h) t := by
    intro t ht
    have := (((hid t).div_const 3).mul (((dn h1 t ht).add_const (4 * f c)).add (up h1 t ht))).sub
      ((up hFd t ht).sub (dn hFd t ht))
    refine this.congr_deriv ?_
    simp only [Pi.add_apply, Pi.sub_apply]
    ring
  have d2 : ∀ t ∈ Icc 0 h, HasDerivWithinAt
      (fun t => -(2 / 3) * (f (c + t) + f (c - t)) + 4 / 3 * f c + t / 3 * (f1 (c + t) - f1 (c - t)))
      (-(1 / 3) * (f1 (c + t) - f1 (c - t)) + t / 3 * (f2 (c + t) + f2 (c - t))) (Icc 0 h) t := by
    intro t ht
    have := ((((up h1 t ht).add (dn h1 t ht)).const_mul (-(2 / 3))).add_const (4 / 3 * f c)).add
      (((hid t).div_const 3).mul ((up h2 t ht).sub (dn h2 t ht)))
    refine this.congr_deriv ?_
    simp only [Pi.add_apply, Pi.sub_apply]
    ring
  have d3 : ∀ t ∈ Icc 0 h, HasDerivWithinAt
      (fun t => -(1 / 3) * (f1 (c + t) - f1 (c - t)) + t / 3 * (f2 (c + t) + f2 (c - t)))
      (t / 3 * (f3 (c + t) - f3 (c - t))) (Icc 0 h) t := by
    intro t ht
    have := ((((up h2 t ht).sub (dn h2 t ht)).const_mul (-(1 / 3)))).add
      (((hid t).div_const 3).mul ((up h3 t ht).add (dn h3 t ht)))
    refine this.congr_deriv ?_
    simp only [Pi.add_apply, Pi.sub_apply]
    ring
  have b3 : ∀ t ∈ Icc 0 h, |t / 3 * (f3 (c + t) - f3 (c - t))| ≤ 2 * M / 3 * (t - 0) ^ 2 := by
    intro t ht
    have hm : ‖f3 (c + t) - f3 (c - t)‖ ≤ M * ‖(c + t) - (c - t)‖ :=
      (convex_Icc (c - h) (c + h)).norm_image_sub_le_of_norm_hasDerivWithin_le h4 hM (mm t ht) (mp t ht)
    rw [Real.norm_eq_abs, Real.norm_eq_abs, show (c + t) - (c - t) = 2 * t by ring, abs_of_nonneg (by linarith [ht.1] : 0 ≤ 2 * t)] at hm
    rw [abs_mul, abs_of_nonneg (by linarith [ht.1] : 0 ≤ t / 3)]
    have := mul_le_mul_of_nonneg_left hm (by linarith [ht.1] : 0 ≤ t / 3)
    refine this.trans (le_of_eq ?_)
    ring
  have b2 := int_bound d3 (by simp) b3
  have b1 := int_bound d2 (by simp; ring) b2
  have b0 := int_bound d1 (by simp) b1 h ⟨hh, le_rfl⟩
  have e : F (c + h) - F (c - h) = ∫ s in (c - h)..(c + h), f s := by
    rw [hF]
    simp
  rw [e] at b0
  refine b0.trans (le_of_eq ?_)
  push_cast
  ring

end Verif.Round
