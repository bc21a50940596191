import Mathlib.Analysis.Real.Pi.Bounds
import Verif.Coupling.Scaling
/-! # Property C69: mode norms and energies -/
namespace Verif.Coupling
open Finset Equiv NumInt NumInt.Spec
noncomputable section

theorem product_two (o : AngInt.Obj) (a b : String) :
    AngInt.product o [a, b] = (match o.attr a, o.attr b with
      | some p, some q => if q.length = p.length then some (mul p q) else none
      | _, _ => none) := by
  unfold AngInt.product
  rw [List.mapM_cons, List.mapM_cons, List.mapM_nil]
  cases o.attr a <;> cases o.attr b <;> simp [mul, AngInt.arrMul]

variable {c d : Fin 3 → ℝ} {o o' : Obj}

theorem Scaled.angNorm (h : Scaled c d o o') (hl : Linear o d) (d1 d2 : String) (h1 : d1 ∈ angularNames)
    (h2 : d2 ∈ angularNames) (k : Fin 3) (mm : Bool) (conj : AngInt.Conj) :
    Coupling.angNorm o' d1 d2 (k + 1) mm conj = (Coupling.angNorm o d1 d2 (k + 1) mm conj).map (d k ^ 2 * ·) := by
  have e : Coupling.angNorm o' d1 d2 (k + 1) mm conj = val (AngInt.angularIntegral (angObj o')
      [name ("_" ++ d1) (k + 1), name ("_" ++ d2) (k + 1)] none false conj { angOpts o false with mulWithMu := mm }) := by
    unfold Coupling.angNorm; rw [h.rest]; rfl
  have hprod : AngInt.product (angObj o') [name ("_" ++ d1) (k + 1), name ("_" ++ d2) (k + 1)] =
      (AngInt.product (angObj o) [name ("_" ++ d1) (k + 1), name ("_" ++ d2) (k + 1)]).map (List.map (d k ^ 2 * ·)) := by
    rw [product_two, product_two]
    simp only [angObj]
    rw [h.ang d1 h1 k, h.ang d2 h2 k]
    cases o.attr (name ("_" ++ d1) (k + 1)) <;> cases o.attr (name ("_" ++ d2) (k + 1)) <;> simp
    split
    · simp only [mul_scale_left, mul_scale_right, map_scale_scale, ← sq, Option.map_some]
    · rfl
  rw [e]
  rcases hl with hl | hl
  · exact angular_scale (angObj o) (angObj o') _ _ hl.1 hl.2 _ (by rw [h.rest]; rfl) _ _ _ hprod
  · simp only [hl, one_pow, one_mul, List.map_id_fun', Option.map_id, id_eq] at hprod ⊢
    unfold Coupling.angNorm AngInt.angularIntegral
    rw [thetaIntegral_congr (angObj o') (angObj o) _ _ _ hprod (by rw [h.rest]; rfl)]
    simp

theorem Scaled.radNorm (h : Scaled c d o o') (b : String) (hb : b ∈ ["_x_z_1", "_x_z_2_over_c_1_omega"]) (k : Fin 3) :
    Coupling.radNorm o' b (k + 1) = (Coupling.radNorm o b (k + 1)).map (c k ^ 2 * ·) := by
  have e1 : o'.x = o.x := by rw [h.rest]
  have e2 : o'.rhoNormed = o.rhoNormed := by rw [h.rest]
  have e3 : ∀ f x idx, radint o' f x idx = radint o f x idx := by intro f x idx; rw [h.rest]; rfl
  unfold Coupling.radNorm
  rw [h.rad b (List.mem_append_right _ hb) k, e1, e2]
  simp only [e3]
  cases o.attr (name b (k + 1)) with
  | none => rfl
  | some p =>
    have hp : (p.map (c k * ·)).map (fun v => v ^ 2) = (p.map fun v => v ^ 2).map (c k ^ 2 * ·) := by
      rw [List.map_map, List.map_map]; refine List.map_congr_left fun x _ => ?_; simp; ring
    simp only [Option.map_some, Option.bind_eq_bind, Option.bind_some, List.length_map]
    split
    · rw [hp, mul_scale_right, radint_scale]
    · rfl

/-- **C69.** The norm and the energy of a mode are quadratic in its amplitude: multiplying its radial
profiles by `c k` and its Hough functions by `d k` multiplies `b_a` and the energy by `(c k)² (d k)²`, and
they do not depend on the other two modes. -/
theorem C69_quadratic (h : Scaled c d o o') (hl : Linear o d) (omegaRot omega : ℝ) (k : Fin 3) :
    modeEnergy o' omegaRot omega (k + 1) = (modeEnergy o omegaRot omega (k + 1)).map fun r =>
      (c k ^ 2 * d k ^ 2 * r.1, c k ^ 2 * d k ^ 2 * r.2) := by
  have ha := h.angNorm hl
  have hr := h.radNorm
  have e1 : o'.normRho = o.normRho := by rw [h.rest]
  have e2 : o'.R = o.R := by rw [h.rest]
  have hc : classicNorm o' (k + 1) = (classicNorm o (k + 1)).map (c k ^ 2 * d k ^ 2 * ·) := by
    unfold classicNorm
    refine bind_scale (ha _ _ (by decide) (by decide) k _ _) fun v => ?_
    refine bind_scale (hr _ (by decide) k) fun v => ?_
    refine bind_scale (ha _ _ (by decide) (by decide) k _ _) fun v => ?_
    refine bind_scale (hr _ (by decide) k) fun v => ?_
    refine bind_scale (ha _ _ (by decide) (by decide) k _ _) fun v => ?_
    refine bind_scale (hr _ (by decide) k) fun v => ?_
    show some _ = some _
    congr 1; ring
  unfold modeEnergy
  rw [hc, ha _ _ (by decide) (by decide), hr _ (by decide), e1, e2]
  cases classicNorm o (k + 1) with
  | none => rfl
  | some n =>
    cases Coupling.angNorm o "ht" "hp" (k + 1) true .none with
    | none => rfl
    | some a =>
      cases Coupling.radNorm o "_x_z_2_over_c_1_omega" (k + 1) with
      | none => rfl
      | some r =>
        show some _ = some _
        congr 2 <;> ring

/-- The latitudinal integral of the product of two Hough functions of a mode. -/
def thetaNorm (o : Obj) (d1 d2 : String) (k : ℕ) (mm : Bool) : AngInt.Res ℝ :=
  AngInt.thetaIntegral (angObj o) [name ("_" ++ d1) k, name ("_" ++ d2) k] { angOpts o false with mulWithMu := mm }

theorem angNorm_eq (o : Obj) (d1 d2 : String) (k : ℕ) (mm : Bool) (conj : AngInt.Conj) (t : ℝ)
    (h : thetaNorm o d1 d2 k mm = .ok t) : angNorm o d1 d2 k mm conj = some (2 * Real.pi * t) := by
  unfold angNorm
  rw [AngInt.C48_otherwise _ _ _ _ _ _ t h (Or.inr (Or.inl rfl))]; rfl

/-- **C69.** The radial part of the norms is the trapezoidal integral of density times squared radius
times squared displacement. -/
theorem C69_radial_partial (o : Obj) (b : String) (k n : ℕ) (p ρ ξ : ℕ → ℝ) (hx : o.x = tab n ξ) (hρ : o.rhoNormed = tab n ρ)
    (hp : o.attr (name b k) = some (tab n p)) :
    radNorm o b k = some (trapSum n ξ fun j => ρ j * ξ j ^ 2 * p j ^ 2) := by
  have e : ∀ f : ℕ → ℝ, (tab n f).map (fun v => v ^ 2) = tab n fun j => f j ^ 2 := by intro f; simp [tab]
  unfold radNorm
  simp only [hp, hx, hρ, Option.bind_eq_bind, Option.bind_some, length_tab, e, mul_tab, and_self, if_true]
  exact radint_tab o n _ ξ

/-- **C69, refuted.** The classic norm is not the integral over the sphere and the radius of density
times squared displacement: the integral over the azimuth is counted twice, so it is `2π` times that
integral. -/
theorem C69_norm_doubled_wrong (o : Obj) (k : ℕ) (tr tt tp Rr Rh : ℝ)
    (h1 : thetaNorm o "hr" "hr" k false = .ok tr) (h2 : thetaNorm o "ht" "ht" k false = .ok tt)
    (h3 : thetaNorm o "hp" "hp" k false = .ok tp) (hr : radNorm o "_x_z_1" k = some Rr)
    (hh : radNorm o "_x_z_2_over_c_1_omega" k = some Rh) :
    let volume := 2 * Real.pi * (tr * Rr + tt * Rh + tp * Rh)
    classicNorm o k = some (2 * Real.pi * volume) ∧ (volume ≠ 0 → classicNorm o k ≠ some volume) := by
  intro volume
  have e : classicNorm o k = some (2 * Real.pi * volume) := by
    unfold classicNorm
    rw [angNorm_eq o _ _ k _ _ tr h1, angNorm_eq o _ _ k _ _ tt h2, angNorm_eq o _ _ k _ _ tp h3, hr, hh]
    show some _ = some _
    congr 1; simp only [volume]; ring
  refine ⟨e, fun hv h => ?_⟩
  rw [e] at h
  have h := Option.some.inj h
  have : (2 * Real.pi - 1) * volume = 0 := by linear_combination h
  rcases mul_eq_zero.1 this with h | h
  · linarith [Real.pi_gt_three]
  · exact hv h

/-- **C69.** The same factor is in the Coriolis part, so `b_a` and the energy are `2π` times
`2 ω ∫ρ|ξ|² + 4 Ω ∫ρ ξ_θ ξ_φ cos θ`. -/
theorem C69_energy_doubled_wrong (o : Obj) (k : ℕ) (tr tt tp tc Rr Rh omegaRot omega : ℝ)
    (h1 : thetaNorm o "hr" "hr" k false = .ok tr) (h2 : thetaNorm o "ht" "ht" k false = .ok tt)
    (h3 : thetaNorm o "hp" "hp" k false = .ok tp) (h4 : thetaNorm o "ht" "hp" k true = .ok tc)
    (hr : radNorm o "_x_z_1" k = some Rr) (hh : radNorm o "_x_z_2_over_c_1_omega" k = some Rh) :
    let volume := 2 * Real.pi * (tr * Rr + tt * Rh + tp * Rh)
    let coriolis := 2 * Real.pi * (tc * Rh)
    let b := (2 * omega * volume + 4 * omegaRot * coriolis) * (o.normRho * o.R ^ 5)
    modeEnergy o omegaRot omega k = some (2 * Real.pi * b, omega * (2 * Real.pi * b)) := by
  intro volume coriolis b
  unfold modeEnergy
  rw [(C69_norm_doubled_wrong o k tr tt tp Rr Rh h1 h2 h3 hr hh).1, angNorm_eq o _ _ k _ _ tc h4, hh]
  show some _ = some _
  congr 2 <;> (simp only [b, volume, coriolis]; ring)

/-- Rescaled objects exist for all factors. -/
theorem exObj_scaled (c d : Fin 3 → ℝ) (m : Fin 3 → ℤ) (cj : Fin 3 → Bool) : ∃ o', Scaled c d
    (exObj (fun _ k => [(k : ℕ) + 1, 2]) m cj) o' := by
  refine ⟨exObj (fun b k => if b ∈ angularNames.map ("_" ++ ·) then [d k * ((k : ℕ) + 1), d k * 2]
    else [c k * ((k : ℕ) + 1), c k * 2]) m cj, ⟨?_, ?_, rfl⟩⟩
  · intro b hb k
    have hn : b ∉ angularNames.map ("_" ++ ·) := by revert b; decide
    rw [exObj_attr, exObj_attr, if_neg hn]; simp
  · intro b hb k
    rw [exObj_attr, exObj_attr, if_pos (List.mem_map_of_mem hb)]; simp

/-- An object with all integrals of the norms of mode 1, with real profiles. -/
theorem exNorm : ∃ o tr tt tp tc Rr Rh, thetaNorm o "hr" "hr" 1 false = .ok tr ∧ thetaNorm o "ht" "ht" 1 false = .ok tt ∧
      thetaNorm o "hp" "hp" 1 false = .ok tp ∧ thetaNorm o "ht" "hp" 1 true = .ok tc ∧
      radNorm o "_x_z_1" 1 = some Rr ∧ radNorm o "_x_z_2_over_c_1_omega" 1 = some Rh ∧
      2 * Real.pi * (tr * Rr + tt * Rh + tp * Rh) ≠ 0 := by
  let o := exObj (fun _ _ => [1, 1]) 0 ![true, false, false]
  have ha : ∀ b, o.attr (name b 1) = some [1, 1] := fun b => exObj_attr _ _ _ b 0
  have e1 : ([-1 / 2, 1 / 2] : List ℝ) = tab 2 (fun i : ℕ => -1 / 2 + (i : ℝ)) := by
    simp [tab, List.range_succ]; norm_num
  have hreg : ∀ f : List ℝ, f.length = 2 → AngInt.regular "trapz" f [-1 / 2, 1 / 2] =
      some ((f.getD 0 0 + f.getD 1 0) / 2) := by
    intro f hf
    rw [tab_surj f 0, hf, e1, AngInt.regular_tab "trapz" 2 le_rfl rfl]
    congr 1; simp [tab, List.range_succ]
  have hth : ∀ a b mm, thetaNorm o a b 1 mm = .ok (if mm then 0 else 1) := by
    intro a b mm
    have hprod : AngInt.product (angObj o) [name ("_" ++ a) 1, name ("_" ++ b) 1] = some [1, 1] := by
      rw [product_two]; simp only [angObj]; rw [ha, ha]; simp [mul]
    unfold thetaNorm
    rw [AngInt.thetaIntegral, hprod]
    cases mm
    · have := hreg [1, 1] rfl
      norm_num at this
      simp [angOpts, o, exObj, angObj]
      norm_num
      rw [this]
    · have := hreg [-1 / 2, 1 / 2] rfl
      norm_num at this
      simp [angOpts, o, exObj, angObj, AngInt.arrMul]
      norm_num
      rw [this]
  have hrad : ∀ b, radNorm o b 1 = some (5 / 2) := by
    intro b
    have e : ([1, 1] : List ℝ) = tab 2 (fun _ => 1) := by simp [tab, List.range_succ]
    rw [C69_radial_partial o b 1 2 (fun _ => 1) (fun _ => 1) (fun i => i + 1) (by simp [o, exObj, tab, List.range_succ]; norm_num)
      (by simp only [o, exObj]; exact e) (by rw [ha, e])]
    congr 1; simp [trapSum]; norm_num
  refine ⟨o, 1, 1, 1, 0, 5 / 2, 5 / 2, hth _ _ _, hth _ _ _, hth _ _ _, hth _ _ _, hrad _, hrad _, ?_⟩
  have := Real.pi_pos
  positivity

/-- Non-vacuity of C68 and C69: rescaled objects exist, and an object with all integrals. -/
example : (∃ o o' : Obj, Scaled ![2, 3, 5] ![7, 1, -1] o o' ∧ Linear o ![7, 1, -1] ∧ o.selfCoupling = false) ∧
    ∃ o tr tt tp tc Rr Rh, thetaNorm o "hr" "hr" 1 false = .ok tr ∧ thetaNorm o "ht" "ht" 1 false = .ok tt ∧
      thetaNorm o "hp" "hp" 1 false = .ok tp ∧ thetaNorm o "ht" "hp" 1 true = .ok tc ∧
      radNorm o "_x_z_1" 1 = some Rr ∧ radNorm o "_x_z_2_over_c_1_omega" 1 = some Rh ∧
      2 * Real.pi * (tr * Rr + tt * Rh + tp * Rh) ≠ 0 := by
  constructor
  · obtain ⟨o', h⟩ := exObj_scaled ![2, 3, 5] ![7, 1, -1] ![2, 1, 1] ![true, false, false]
    exact ⟨_, o', h, Or.inl ⟨rfl, rfl⟩, rfl⟩
  · exact exNorm

end
end Verif.Coupling
