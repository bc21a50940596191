import Verif.Hough.Spec
namespace Verif.Hough
noncomputable section
open Real Polynomial Verif.Cheby

theorem odd_iff_mod (m : ℤ) : Odd m ↔ (m % 2 == 1) = true := by
  rw [Int.odd_iff]; simp

theorem pf_iff (c : Cfg) : c.pf = decide (Odd c.m) := by
  unfold Cfg.pf
  by_cases h : Odd c.m
  · simp [h, (odd_iff_mod _).1 h]
  · have := mt (odd_iff_mod c.m).2 h
    simp [h, this]

theorem parity_iff (c : Cfg) : c.parity = decide (Odd (c.l - c.m)) := by
  unfold Cfg.parity
  by_cases h : Odd (c.l - c.m)
  · simp [h, (odd_iff_mod _).1 h]
  · have := mt (odd_iff_mod (c.l - c.m)).2 h
    simp [h, this]

theorem fn_eq (c : Cfg) (p : ℝ[X]) : fn c.pf p = fun x => p.eval x * (if Odd c.m then √(1 - x ^ 2) else 1) := by
  funext x
  simp [fn, pf_iff]

theorem hasParity_iff (c : Cfg) (p : ℝ[X]) :
    HasParity c.parity p ↔ ∀ x, p.eval (-x) = (-1) ^ (c.l - c.m).natAbs * p.eval x := by
  unfold HasParity
  rw [parity_iff]
  refine forall_congr' fun x => ?_
  by_cases h : Odd (c.l - c.m)
  · have h1 : Odd (c.l - c.m).natAbs := Int.natAbs_odd.2 h
    simp [h, h1.neg_one_pow]
  · have h1 : Even (c.l - c.m).natAbs := Int.natAbs_even.2 (Int.not_odd_iff_even.1 h)
    simp [h, h1.neg_one_pow]

theorem radial_iff (c : Cfg) (f : ℝ → ℝ) (hr : Fin c.M → ℝ) : Radial c f hr ↔
    ∃ p : ℝ[X], HasParity c.parity p ∧ p.degree < (2 * c.M : ℕ) ∧ f = fn c.pf p ∧ hr = fun i => fn c.pf p (c.mu i) := by
  unfold Radial
  refine exists_congr fun p => ?_
  rw [hasParity_iff, fn_eq]
  constructor
  · rintro ⟨a, b, rfl, rfl⟩; exact ⟨a, b, rfl, rfl⟩
  · rintro ⟨a, b, rfl, rfl⟩; exact ⟨a, b, rfl, rfl⟩

/-- What the proofs use of a radial function. -/
structure Smooth (f : ℝ → ℝ) : Prop where
  d1 : ∀ x, |x| < 1 → HasDerivAt f (deriv f x) x
  d2 : ∀ x, |x| < 1 → HasDerivAt (deriv f) (deriv (deriv f) x) x

theorem fn_smooth (pf : Bool) (p : ℝ[X]) : Smooth (fn pf p) := by
  refine ⟨fun x hx => (fn_hasDeriv pf p x hx).differentiableAt.hasDerivAt, fun x hx => ?_⟩
  have he : deriv (fn pf p) =ᶠ[nhds x] fn1 pf p := by
    have : {y : ℝ | |y| < 1} ∈ nhds x := (isOpen_lt continuous_abs continuous_const).mem_nhds hx
    filter_upwards [this] with y hy
    exact fn_deriv pf p y hy
  have := (fn1_hasDeriv pf p x hx).congr_of_eventuallyEq he
  exact this.differentiableAt.hasDerivAt

theorem Radial.smooth {c : Cfg} {f : ℝ → ℝ} {hr : Fin c.M → ℝ} (h : Radial c f hr) : Smooth f := by
  obtain ⟨p, _, _, rfl, _⟩ := (radial_iff c f hr).1 h
  exact fn_smooth _ _

theorem quotient_alg (s S D N N' D' x R : ℝ) (hs0 : s ≠ 0) (hD : D ≠ 0) (hs : s ^ 2 = S)
    (hR : N' * D * S - N * (D' * S - D * x) = R * D ^ 2) :
    (N' * (D * s) - N * (D' * s + D * (-x / s))) / (D * s) ^ 2 = R / s ^ 3 := by
  subst hs
  rw [div_eq_div_iff (by positivity) (by positivity)]
  have e : (N' * (D * s) - N * (D' * s + D * (-x / s))) * s = N' * D * s ^ 2 - N * (D' * s ^ 2 - D * x) := by
    field_simp
    ring
  calc (N' * (D * s) - N * (D' * s + D * (-x / s))) * s ^ 3
      = ((N' * (D * s) - N * (D' * s + D * (-x / s))) * s) * s ^ 2 := by ring
    _ = _ := by rw [e, hR]; ring

theorem hasDeriv_over (nu : ℝ) (N : ℝ → ℝ) (N' R : ℝ) (x : ℝ) (hx : |x| < 1) (hD : 1 - nu ^ 2 * x ^ 2 ≠ 0)
    (hN : HasDerivAt N N' x)
    (hR : N' * (1 - nu ^ 2 * x ^ 2) * (1 - x ^ 2) -
      N x * (-(nu ^ 2 * (2 * x)) * (1 - x ^ 2) - (1 - nu ^ 2 * x ^ 2) * x) = R * (1 - nu ^ 2 * x ^ 2) ^ 2) :
    HasDerivAt (fun x => N x / ((1 - nu ^ 2 * x ^ 2) * √(1 - x ^ 2))) (R / √(1 - x ^ 2) ^ 3) x := by
  have hpos : 0 < 1 - x ^ 2 := by rw [abs_lt] at hx; nlinarith
  have hs : √(1 - x ^ 2) ≠ 0 := (sqrt_pos.2 hpos).ne'
  have hsq : √(1 - x ^ 2) ^ 2 = 1 - x ^ 2 := sq_sqrt hpos.le
  have hD1 : HasDerivAt (fun y : ℝ => 1 - nu ^ 2 * y ^ 2) (-(nu ^ 2 * (2 * x))) x :=
    HasDerivAt.congr_deriv ((hasDerivAt_const x (1 : ℝ)).sub ((hasDerivAt_pow 2 x).const_mul (nu ^ 2))) (by norm_num)
  have hDen := hD1.mul (hasDeriv_sqrt x hx)
  have hDne : (1 - nu ^ 2 * x ^ 2) * √(1 - x ^ 2) ≠ 0 := mul_ne_zero hD hs
  exact HasDerivAt.congr_deriv (HasDerivAt.div hN hDen hDne) (quotient_alg _ _ _ _ _ _ _ _ hs hD hsq hR)

theorem hasDeriv_thetaPrat (nu : ℝ) (m : ℤ) (f : ℝ → ℝ) (hf : Smooth f) (x : ℝ) (hx : |x| < 1)
    (hD : 1 - nu ^ 2 * x ^ 2 ≠ 0) :
    HasDerivAt (thetaPrat nu m f)
      (((m : ℝ) * nu * (2 * x ^ 4 * nu ^ 2 - x ^ 2 * nu ^ 2 - 1) / (1 - nu ^ 2 * x ^ 2) ^ 2 * f x
        + (1 - x ^ 2) * (-(m : ℝ) * nu * x * (1 - nu ^ 2 * x ^ 2) + x + x ^ 3 * nu ^ 2 - 2 * x * nu ^ 2) /
          (1 - nu ^ 2 * x ^ 2) ^ 2 * deriv f x
        + -((1 - x ^ 2) ^ 2) / (1 - nu ^ 2 * x ^ 2) * deriv (deriv f) x) / √(1 - x ^ 2) ^ 3) x := by
  have hN1 : HasDerivAt (fun y : ℝ => -(m : ℝ) * nu * y) (-(m : ℝ) * nu) x :=
    HasDerivAt.congr_deriv ((hasDerivAt_id x).const_mul (-(m : ℝ) * nu)) (by ring)
  have hN2 : HasDerivAt (fun y : ℝ => 1 - y ^ 2) (-(2 * x)) x :=
    HasDerivAt.congr_deriv ((hasDerivAt_const x (1 : ℝ)).sub (hasDerivAt_pow 2 x)) (by norm_num)
  have hN := (hN1.mul (hf.d1 x hx)).sub (hN2.mul (hf.d2 x hx))
  refine hasDeriv_over nu (fun y => -(m : ℝ) * nu * y * f y - (1 - y ^ 2) * deriv f y) _ _ x hx hD hN ?_
  field_simp
  ring

theorem hasDeriv_phiPrat (nu : ℝ) (m : ℤ) (f : ℝ → ℝ) (hf : Smooth f) (x : ℝ) (hx : |x| < 1)
    (hD : 1 - nu ^ 2 * x ^ 2 ≠ 0) :
    HasDerivAt (phiPrat nu m f)
      (((m : ℝ) * x * (1 - nu ^ 2 * x ^ 2 + 2 * nu ^ 2 - 2 * nu ^ 2 * x ^ 2) / (1 - nu ^ 2 * x ^ 2) ^ 2 * f x
        + (1 - x ^ 2) * ((m : ℝ) * (1 - nu ^ 2 * x ^ 2) + nu + nu ^ 3 * x ^ 2 - 2 * x ^ 2 * nu) /
          (1 - nu ^ 2 * x ^ 2) ^ 2 * deriv f x
        + nu * x * (1 - x ^ 2) ^ 2 / (1 - nu ^ 2 * x ^ 2) * deriv (deriv f) x) / √(1 - x ^ 2) ^ 3) x := by
  have hN1 : HasDerivAt (fun y : ℝ => (m : ℝ) * f y) (m * deriv f x) x := (hf.d1 x hx).const_mul _
  have hN2 : HasDerivAt (fun y : ℝ => 1 - y ^ 2) (-(2 * x)) x :=
    HasDerivAt.congr_deriv ((hasDerivAt_const x (1 : ℝ)).sub (hasDerivAt_pow 2 x)) (by norm_num)
  have hN3 : HasDerivAt (fun y : ℝ => nu * y) nu x :=
    HasDerivAt.congr_deriv ((hasDerivAt_id x).const_mul nu) (by ring)
  have hN := hN1.add ((hN3.mul hN2).mul (hf.d2 x hx))
  refine hasDeriv_over nu (fun y => m * f y + nu * y * (1 - y ^ 2) * deriv f y) _ _ x hx hD hN ?_
  simp only [Pi.mul_apply]
  field_simp
  ring

end
end Verif.Hough
