import Verif.Hough.Range
/-! # C46: the second derivatives of the radial function on the full range -/
namespace Verif.Hough
noncomputable section
open Real Cheby

theorem deriv_reflect (G : ℝ → ℝ) (k : ℝ) (h : ∀ t, G (π - t) = k * G t) (t : ℝ) : deriv G (π - t) = -k * deriv G t := by
  have h1 : deriv (fun t => G (π - t)) t = -deriv G (π - t) := deriv_comp_const_sub G π t
  have h2 : (fun t => G (π - t)) = fun t => k * G t := funext h
  rw [h2, deriv_const_mul_field] at h1
  linarith

/-- **C46 refuted**, completely: the arrays of the second derivatives of the radial function with respect to `mu` and to `theta`
have the right values in the northern half and the opposite ones in the southern half. -/
theorem C46_second_derivatives_wrong (c : Cfg) (f : ℝ → ℝ) (hr : Fin c.M → ℝ) (h : Radial c f hr) (j : Fin (c.M + c.M)) :
    (0 < muRange c j ∧ hrppRange c hr j = deriv (deriv f) (muRange c j) ∧
      hrppRangeTheta c hr j = deriv (deriv fun t => f (cos t)) (arccos (muRange c j))) ∨
    (muRange c j < 0 ∧ hrppRange c hr j = -deriv (deriv f) (muRange c j) ∧
      hrppRangeTheta c hr j = -deriv (deriv fun t => f (cos t)) (arccos (muRange c j))) := by
  have hp := radial_parity h
  have hd := fun i => (C45_radial_derivatives c f hr h i).2
  have hac : ∀ i : Fin c.M, arccos (c.mu i) = theta c.M i := fun i => by
    have h1 := theta_pos i
    have h2 := theta_lt i
    have h3 := pi_pos
    exact arccos_cos h1.le (by linarith)
  have hG : ∀ t, (fun t => f (cos t)) (π - t) = mulK c * (fun t => f (cos t)) t := fun t => by
    simp only [cos_pi_sub, hp]
  have hG2 : ∀ t, deriv (deriv fun t => f (cos t)) (π - t) = mulK c * deriv (deriv fun t => f (cos t)) t := fun t => by
    rw [deriv_reflect _ _ (deriv_reflect _ _ hG) t]; ring
  unfold muRange hrppRange hrppRangeTheta catRev
  refine Fin.addCases (fun i => ?_) (fun i => ?_) j
  · right
    have hmu := mu_pos i
    simp only [Fin.append_left]
    rw [show -1 * c.mu i = -c.mu i by ring, arccos_neg, hac, hG2, deriv_parity (deriv_parity hp), (hd i).1, (hd i).2.2, mulK1_eq]
    refine ⟨by have : 0 < c.mu i := hmu; linarith, by ring, by ring⟩
  · left
    simp only [Fin.append_right, Function.comp]
    rw [hac, (hd i.rev).1, (hd i.rev).2.2]
    exact ⟨mu_pos _, rfl, rfl⟩

end
end Verif.Hough
