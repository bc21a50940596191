import Verif.Stab.FP
namespace Verif.Stab
open Real

/-- The pieces of the stationary amplitudes. -/
theorem amps_eq (s : StatIn) (el : ℝ) (hel : s.η = some el) (h0 : 0 < s.γ 0) (h1 : s.γ 1 < 0)
    (h2 : s.γ 2 < 0) (w0 : 0 < s.ω 0) (w1 : 0 < s.ω 1) (w2 : 0 < s.ω 2) :
    let R := √(1 + s.q ^ 2)
    let a := √(s.γ 0 / s.ω 0)
    let b := √(-s.γ 1 / s.ω 1)
    let c := √(-s.γ 2 / s.ω 2)
    s.amps = some { a1 := R * (b * c) / (2 * |el|), a2 := R * (a * c) / (2 * |el|),
                    a3 := R * (a * b) / (2 * |el|),
                    acrit := √(1 + s.qCrit ^ 2) * (b * c) / (2 * |el|) } := by
  have hb : 0 ≤ -s.γ 1 / s.ω 1 := div_nonneg (by linarith) w1.le
  have ha : 0 ≤ s.γ 0 / s.ω 0 := div_nonneg h0.le w0.le
  have key : ∀ (t u v : ℝ), 0 ≤ 1 + t ^ 2 → 0 ≤ u →
      √((1 + t ^ 2) * (u * v * (1 / |el| ^ 2))) / 2 = √(1 + t ^ 2) * (√u * √v) / (2 * |el|) := by
    intro t u v ht hu
    rw [Real.sqrt_mul ht, ← Real.sqrt_mul hu v]
    rcases le_or_gt 0 (u * v) with hv | hv
    · rw [Real.sqrt_mul hv, Real.sqrt_div zero_le_one, Real.sqrt_one, Real.sqrt_sq (abs_nonneg el)]
      ring
    · rw [Real.sqrt_eq_zero_of_nonpos hv.le, Real.sqrt_eq_zero_of_nonpos
        (mul_nonpos_of_nonpos_of_nonneg hv.le (by positivity))]
      simp
  have hq : 0 ≤ 1 + s.q ^ 2 := by positivity
  have hqc : 0 ≤ 1 + s.qCrit ^ 2 := by positivity
  have r1 : √((1 + s.q ^ 2) * (1 / (|el| ^ 2 * s.qfProducts 2))) =
      √((1 + s.q ^ 2) * ((-s.γ 1 / s.ω 1) * (-s.γ 2 / s.ω 2) * (1 / |el| ^ 2))) := by
    congr 1; simp only [StatIn.qfProducts, Matrix.cons_val, Matrix.cons_val_zero, Matrix.cons_val_one, mul_inv, div_eq_mul_inv, inv_inv, one_mul]; ring
  have r4 : √((1 + s.qCrit ^ 2) * (1 / (|el| ^ 2 * s.qfProducts 2))) =
      √((1 + s.qCrit ^ 2) * ((-s.γ 1 / s.ω 1) * (-s.γ 2 / s.ω 2) * (1 / |el| ^ 2))) := by
    congr 1; simp only [StatIn.qfProducts, Matrix.cons_val, Matrix.cons_val_zero, Matrix.cons_val_one, mul_inv, div_eq_mul_inv, inv_inv, one_mul]; ring
  have r2 : √(-((1 + s.q ^ 2) * (1 / (|el| ^ 2 * s.qfProducts 1)))) =
      √((1 + s.q ^ 2) * ((s.γ 0 / s.ω 0) * (-s.γ 2 / s.ω 2) * (1 / |el| ^ 2))) := by
    congr 1; simp only [StatIn.qfProducts, Matrix.cons_val, Matrix.cons_val_zero, Matrix.cons_val_one, mul_inv, div_eq_mul_inv, inv_inv, one_mul]; ring
  have r3 : √(-((1 + s.q ^ 2) * (1 / (|el| ^ 2 * s.qfProducts 0)))) =
      √((1 + s.q ^ 2) * ((s.γ 0 / s.ω 0) * (-s.γ 1 / s.ω 1) * (1 / |el| ^ 2))) := by
    congr 1; simp only [StatIn.qfProducts, Matrix.cons_val, Matrix.cons_val_zero, Matrix.cons_val_one, mul_inv, div_eq_mul_inv, inv_inv, one_mul]; ring
  simp only [StatIn.amps, hel, Option.map_some, r1, r2, r3, r4]
  rw [key _ _ _ hq hb, key _ _ _ hq ha, key _ _ _ hq ha, key _ _ _ hqc hb]

/-- Amplitudes plus a phase on the right branch give a fixed point. -/
theorem isFP_of_phase (s : StatIn) (el : ℝ) (hel : s.η = some el) (hne : el ≠ 0) (h0 : 0 < s.γ 0)
    (h1 : s.γ 1 < 0) (h2 : s.γ 2 < 0) (w0 : 0 < s.ω 0) (w1 : 0 < s.ω 1) (w2 : 0 < s.ω 2)
    (hS : s.γ 0 + s.γ 1 + s.γ 2 ≠ 0) (am : Amps) (ham : s.amps = some am) (Υ : ℝ)
    (hsin : el * sin Υ = -|el| / √(1 + s.q ^ 2)) (hcos : el * cos Υ = s.q * |el| / √(1 + s.q ^ 2)) :
    IsFP s.γ s.ω s.δ el ![am.a1, am.a2, am.a3, Υ] := by
  have he := amps_eq s el hel h0 h1 h2 w0 w1 w2
  simp only at he
  rw [ham] at he
  have hR2 : √(1 + s.q ^ 2) ^ 2 = 1 + s.q ^ 2 := Real.sq_sqrt (by positivity)
  have hR : 0 < √(1 + s.q ^ 2) := Real.sqrt_pos.2 (by positivity)
  have ha2 : √(s.γ 0 / s.ω 0) ^ 2 = s.γ 0 / s.ω 0 := Real.sq_sqrt (div_pos h0 w0).le
  have hb2 : √(-s.γ 1 / s.ω 1) ^ 2 = -s.γ 1 / s.ω 1 := Real.sq_sqrt (div_pos (by linarith) w1).le
  have hc2 : √(-s.γ 2 / s.ω 2) ^ 2 = -s.γ 2 / s.ω 2 := Real.sq_sqrt (div_pos (by linarith) w2).le
  have ha : 0 < √(s.γ 0 / s.ω 0) := Real.sqrt_pos.2 (div_pos h0 w0)
  have hb : 0 < √(-s.γ 1 / s.ω 1) := Real.sqrt_pos.2 (div_pos (by linarith) w1)
  have hc : 0 < √(-s.γ 2 / s.ω 2) := Real.sqrt_pos.2 (div_pos (by linarith) w2)
  have hq : s.q * (s.γ 0 + s.γ 1 + s.γ 2) = s.δ := by
    simp only [StatIn.q]; field_simp
  set R := √(1 + s.q ^ 2)
  set a := √(s.γ 0 / s.ω 0)
  set b := √(-s.γ 1 / s.ω 1)
  set c := √(-s.γ 2 / s.ω 2)
  have e : 0 < |el| := abs_pos.2 hne
  have g0 : s.γ 0 = a ^ 2 * s.ω 0 := by rw [ha2]; field_simp
  have g1 : s.γ 1 = -(b ^ 2 * s.ω 1) := by rw [hb2]; field_simp
  have g2 : s.γ 2 = -(c ^ 2 * s.ω 2) := by rw [hc2]; field_simp
  obtain rfl : am = _ := Option.some.inj he
  rw [isFP_iff]
  simp only [Matrix.cons_val_zero, Matrix.cons_val_one, Matrix.cons_val]
  refine ⟨by positivity, by positivity, by positivity, ?_, ?_, ?_, ?_⟩
  · have : s.γ 0 * (R * (b * c) / (2 * |el|)) + 2 * el * s.ω 0 * (R * (a * c) / (2 * |el|)) *
        (R * (a * b) / (2 * |el|)) * sin Υ = s.γ 0 * (R * (b * c) / (2 * |el|)) + 2 * s.ω 0 * (R * (a * c) / (2 * |el|)) *
        (R * (a * b) / (2 * |el|)) * (el * sin Υ) := by ring
    rw [this, hsin, g0]; field_simp; ring
  · have : s.γ 1 * (R * (a * c) / (2 * |el|)) - 2 * el * s.ω 1 * (R * (b * c) / (2 * |el|)) *
        (R * (a * b) / (2 * |el|)) * sin Υ = s.γ 1 * (R * (a * c) / (2 * |el|)) - 2 * s.ω 1 * (R * (b * c) / (2 * |el|)) *
        (R * (a * b) / (2 * |el|)) * (el * sin Υ) := by ring
    rw [this, hsin, g1]; field_simp; ring
  · have : s.γ 2 * (R * (a * b) / (2 * |el|)) - 2 * el * s.ω 2 * (R * (b * c) / (2 * |el|)) *
        (R * (a * c) / (2 * |el|)) * sin Υ = s.γ 2 * (R * (a * b) / (2 * |el|)) - 2 * s.ω 2 * (R * (b * c) / (2 * |el|)) *
        (R * (a * c) / (2 * |el|)) * (el * sin Υ) := by ring
    rw [this, hsin, g2]; field_simp; ring
  · rw [show ∀ t : ℝ, 2 * el * cos Υ * t = 2 * (el * cos Υ) * t from fun t => by ring, hcos, ← hq, g0, g1, g2]
    field_simp
    ring

/-- A fixed point with all modes excited has the amplitudes computed by the solver. -/
theorem IsFP.amps_unique (s : StatIn) (el : ℝ) (hel : s.η = some el) (hne : el ≠ 0) (h0 : 0 < s.γ 0)
    (h1 : s.γ 1 < 0) (h2 : s.γ 2 < 0) (w0 : 0 < s.ω 0) (w1 : 0 < s.ω 1) (w2 : 0 < s.ω 2)
    (hS : s.γ 0 + s.γ 1 + s.γ 2 ≠ 0) (am : Amps) (ham : s.amps = some am) (x : Fin 4 → ℝ)
    (hx : IsFP s.γ s.ω s.δ el x) : x 0 = am.a1 ∧ x 1 = am.a2 ∧ x 2 = am.a3 := by
  have he := amps_eq s el hel h0 h1 h2 w0 w1 w2
  simp only at he
  rw [ham] at he
  have hcot := hx.cot
  obtain ⟨e0, e1, e2, e3⟩ := hx.eqs
  obtain ⟨p0, p1, p2, -⟩ := hx
  have hR2 : √(1 + s.q ^ 2) ^ 2 = 1 + s.q ^ 2 := Real.sq_sqrt (by positivity)
  have hR : 0 < √(1 + s.q ^ 2) := Real.sqrt_pos.2 (by positivity)
  have ha2 : √(s.γ 0 / s.ω 0) ^ 2 = s.γ 0 / s.ω 0 := Real.sq_sqrt (div_pos h0 w0).le
  have hb2 : √(-s.γ 1 / s.ω 1) ^ 2 = -s.γ 1 / s.ω 1 := Real.sq_sqrt (div_pos (by linarith) w1).le
  have hc2 : √(-s.γ 2 / s.ω 2) ^ 2 = -s.γ 2 / s.ω 2 := Real.sq_sqrt (div_pos (by linarith) w2).le
  have ha : 0 < √(s.γ 0 / s.ω 0) := Real.sqrt_pos.2 (div_pos h0 w0)
  have hb : 0 < √(-s.γ 1 / s.ω 1) := Real.sqrt_pos.2 (div_pos (by linarith) w1)
  have hc : 0 < √(-s.γ 2 / s.ω 2) := Real.sqrt_pos.2 (div_pos (by linarith) w2)
  have hq : s.q * (s.γ 0 + s.γ 1 + s.γ 2) = s.δ := by
    simp only [StatIn.q]; field_simp
  set R := √(1 + s.q ^ 2)
  set a := √(s.γ 0 / s.ω 0)
  set b := √(-s.γ 1 / s.ω 1)
  set c := √(-s.γ 2 / s.ω 2)
  have e : 0 < |el| := abs_pos.2 hne
  have g0 : s.γ 0 = a ^ 2 * s.ω 0 := by rw [ha2]; field_simp
  have g1 : s.γ 1 = -(b ^ 2 * s.ω 1) := by rw [hb2]; field_simp
  have g2 : s.γ 2 = -(c ^ 2 * s.ω 2) := by rw [hc2]; field_simp
  have hcs : cos (x 3) = -s.q * sin (x 3) := by
    have : (s.γ 0 + s.γ 1 + s.γ 2) * (cos (x 3) - -s.q * sin (x 3)) = 0 := by
      rw [← hq] at hcot; linear_combination hcot
    have := (mul_eq_zero.1 this).resolve_left hS
    linarith
  have hR1 : R ^ 2 * sin (x 3) ^ 2 = 1 := by
    rw [hR2]
    have := sin_sq_add_cos_sq (x 3)
    rw [hcs] at this
    linear_combination this
  have hel2 : |el| ^ 2 = el ^ 2 := sq_abs el
  -- each fixed-point equation, divided
  have k0 : 2 * el * sin (x 3) * x 1 * x 2 = -(a ^ 2 * x 0) := by
    have : s.ω 0 * (2 * el * sin (x 3) * x 1 * x 2 + a ^ 2 * x 0) = 0 := by
      rw [g0] at e0; linear_combination e0
    have := (mul_eq_zero.1 this).resolve_left w0.ne'
    linarith
  have k1 : 2 * el * sin (x 3) * x 0 * x 2 = -(b ^ 2 * x 1) := by
    have : s.ω 1 * (2 * el * sin (x 3) * x 0 * x 2 + b ^ 2 * x 1) = 0 := by
      rw [g1] at e1; linear_combination -e1
    have := (mul_eq_zero.1 this).resolve_left w1.ne'
    linarith
  have k2 : 2 * el * sin (x 3) * x 0 * x 1 = -(c ^ 2 * x 2) := by
    have : s.ω 2 * (2 * el * sin (x 3) * x 0 * x 1 + c ^ 2 * x 2) = 0 := by
      rw [g2] at e2; linear_combination -e2
    have := (mul_eq_zero.1 this).resolve_left w2.ne'
    linarith
  obtain rfl : am = _ := Option.some.inj he
  have sq_inj : ∀ u v : ℝ, 0 < u → 0 < v → u ^ 2 = v ^ 2 → u = v := fun u v hu hv h => by
    have := (sq_eq_sq₀ hu.le hv.le).1 h
    exact this
  refine ⟨?_, ?_, ?_⟩
  · have : (2 * |el| * x 0) = R * (b * c) := by
      apply sq_inj _ _ (by positivity) (by positivity)
      have h12 : (4 * el ^ 2 * sin (x 3) ^ 2 * x 0 ^ 2 - b ^ 2 * c ^ 2) * (x 1 * x 2) = 0 := by
        linear_combination (2 * el * sin (x 3) * x 0 * x 1) * k1 - b ^ 2 * x 1 * k2
      have := (mul_eq_zero.1 h12).resolve_right (by positivity)
      rw [mul_pow, mul_pow, hel2]
      linear_combination R ^ 2 * this - 4 * el ^ 2 * x 0 ^ 2 * hR1
    field_simp; linarith
  · have : (2 * |el| * x 1) = R * (a * c) := by
      apply sq_inj _ _ (by positivity) (by positivity)
      have h12 : (4 * el ^ 2 * sin (x 3) ^ 2 * x 1 ^ 2 - a ^ 2 * c ^ 2) * (x 0 * x 2) = 0 := by
        linear_combination (2 * el * sin (x 3) * x 0 * x 1) * k0 - a ^ 2 * x 0 * k2
      have := (mul_eq_zero.1 h12).resolve_right (by positivity)
      rw [mul_pow, mul_pow, hel2]
      linear_combination R ^ 2 * this - 4 * el ^ 2 * x 1 ^ 2 * hR1
    field_simp; linarith
  · have : (2 * |el| * x 2) = R * (a * b) := by
      apply sq_inj _ _ (by positivity) (by positivity)
      have h12 : (4 * el ^ 2 * sin (x 3) ^ 2 * x 2 ^ 2 - a ^ 2 * b ^ 2) * (x 0 * x 1) = 0 := by
        linear_combination (2 * el * sin (x 3) * x 0 * x 2) * k0 - a ^ 2 * x 0 * k1
      have := (mul_eq_zero.1 h12).resolve_right (by positivity)
      rw [mul_pow, mul_pow, hel2]
      linear_combination R ^ 2 * this - 4 * el ^ 2 * x 2 ^ 2 * hR1
    field_simp; linarith

/-- A phase on the right branch always exists. -/
theorem exists_phase (q el : ℝ) (hne : el ≠ 0) : ∃ Υ, el * sin Υ = -|el| / √(1 + q ^ 2) ∧
    el * cos Υ = q * |el| / √(1 + q ^ 2) := by
  rcases lt_or_gt_of_ne hne with h | h
  · refine ⟨arctan q + π / 2, ?_, ?_⟩
    · rw [sin_add_pi_div_two, cos_arctan, abs_of_neg h]; ring
    · rw [cos_add_pi_div_two, sin_arctan, abs_of_neg h]; ring
  · refine ⟨arctan q - π / 2, ?_, ?_⟩
    · rw [sin_sub_pi_div_two, cos_arctan, abs_of_pos h]; ring
    · rw [cos_sub_pi_div_two, sin_arctan, abs_of_pos h]; ring

theorem sin_cos_arctan_neg_inv (q : ℝ) (hq : q ≠ 0) :
    sin (arctan (-1 / q)) = -(|q| / q) / √(1 + q ^ 2) ∧ cos (arctan (-1 / q)) = |q| / √(1 + q ^ 2) := by
  have hR : √(1 + (-1 / q) ^ 2) = √(1 + q ^ 2) / |q| := by
    rw [← Real.sqrt_sq_eq_abs, ← Real.sqrt_div (by positivity)]
    congr 1; field_simp; ring
  have ha : |q| ≠ 0 := abs_ne_zero.2 hq
  have hp : √(1 + q ^ 2) ≠ 0 := (Real.sqrt_pos.2 (by positivity)).ne'
  rw [sin_arctan, cos_arctan, hR]
  constructor <;> field_simp

end Verif.Stab
