import Verif.Coupling.Value
import Mathlib.Tactic.LinearCombination
/-! # Helper lemmas for C84, continued: the real integrands -/
namespace Verif.Coupling
open Finset Equiv NumInt NumInt.Spec
noncomputable section

/-- The gradient with the factors `i` removed. -/
def U (μ : ℕ → ℝ) (M : Spec.Mode) (i j : ℕ) : Matrix (Fin 3) (Fin 3) ℝ :=
  !![M.dz i * M.Hr j, M.dy i * M.Ht j, -(M.dy i * M.Hp j);
     M.z i * M.dHr j - M.y i * M.Ht j, M.y i * M.dHt j + M.z i * M.Hr j, -(M.y i * M.dHp j);
     M.z i * M.m * M.Hr j / √(1 - μ j ^ 2) - M.y i * M.Hp j, M.y i * (M.m * M.Ht j - μ j * M.Hp j) / √(1 - μ j ^ 2),
     M.z i * M.Hr j + M.y i * (μ j * M.Ht j - M.m * M.Hp j) / √(1 - μ j ^ 2)]

/-- Real integrands. -/
def d0 (S : Spec.Star) (μ : ℕ → ℝ) (M : Fin 3 → Spec.Mode) (i j : ℕ) : ℝ :=
  1 / 2 * (S.P i * (S.Γ i - 1)) * ((M 0).div i * (M 0).Hr j * (U μ (M 1) i j * U μ (M 2) i j).trace +
    (M 1).div i * (M 1).Hr j * (U μ (M 2) i j * U μ (M 0) i j).trace +
    (M 2).div i * (M 2).Hr j * (U μ (M 0) i j * U μ (M 1) i j).trace)
def d1 (S : Spec.Star) (M : Fin 3 → Spec.Mode) (i j : ℕ) : ℝ :=
  1 / 2 * (S.P i * ((S.Γ i - 1) ^ 2 + S.Γ' i)) * ((M 0).div i * (M 0).Hr j * ((M 1).div i * (M 1).Hr j) *
    ((M 2).div i * (M 2).Hr j))
def d2 (S : Spec.Star) (μ : ℕ → ℝ) (M : Fin 3 → Spec.Mode) (i j : ℕ) : ℝ :=
  1 / 2 * S.P i * ((U μ (M 0) i j * U μ (M 1) i j * U μ (M 2) i j).trace +
    (U μ (M 0) i j * U μ (M 2) i j * U μ (M 1) i j).trace)
/-- Scalar product of the horizontal parts. -/
def hor (A B : Spec.Mode) (i j : ℕ) : ℝ := A.y i * B.y i * (A.Ht j * B.Ht j - A.Hp j * B.Hp j)
def d3 (S : Spec.Star) (M : Fin 3 → Spec.Mode) (i j : ℕ) : ℝ :=
  -(1 / 2) * S.ρ i * (S.x i * S.R) ^ 3 * (S.g'' i * ((M 0).z i * (M 0).Hr j * ((M 1).z i * (M 1).Hr j) *
      ((M 2).z i * (M 2).Hr j)) +
    (S.g' i / (S.x i * S.R) - S.g i / (S.x i * S.R) ^ 2) * ((M 0).z i * (M 0).Hr j * hor (M 1) (M 2) i j +
      (M 1).z i * (M 1).Hr j * hor (M 0) (M 2) i j + (M 2).z i * (M 2).Hr j * hor (M 0) (M 1) i j))

theorem trace3 (A : Matrix (Fin 3) (Fin 3) ℝ) : A.trace = A 0 0 + A 1 1 + A 2 2 := by
  simp [Matrix.trace, Fin.sum_univ_three]

theorem act0 (a b c : String) : act (a, b, c) 1 = (a, b, c) := rfl
theorem act1 (a b c : String) : act (a, b, c) (swap 1 2) = (a, c, b) := rfl
theorem act2 (a b c : String) : act (a, b, c) (swap 0 1) = (b, a, c) := rfl
theorem act3 (a b c : String) : act (a, b, c) (swap 0 1 * swap 1 2) = (b, c, a) := rfl
theorem act4 (a b c : String) : act (a, b, c) (swap 1 2 * swap 0 1) = (c, a, b) := rfl
theorem act5 (a b c : String) : act (a, b, c) (swap 0 2) = (c, b, a) := rfl

theorem rv1 (M) : rv M "_z_1" = M.z := rfl
theorem rv2 (M) : rv M "_rad_der_x_z_1" = M.dz := rfl
theorem rv3 (M) : rv M "_z_2_over_c_1_omega" = M.y := rfl
theorem rv4 (M) : rv M "_rad_der_x_z_2_c_1_omega" = M.dy := rfl
theorem rv5 (M) : rv M "_rad_diverg" = M.div := rfl
theorem av1 (μ M) : av μ M "hr" = M.Hr := rfl
theorem av2 (μ M) : av μ M "ht" = M.Ht := rfl
theorem av3 (μ M) : av μ M "hp" = M.Hp := rfl
theorem av4 (μ M) : av μ M "mhr" = fun j => M.m * M.Hr j := rfl
theorem av5 (μ M) : av μ M "theta_der_hr_theta" = M.dHr := rfl
theorem av6 (μ M) : av μ M "theta_der_ht_theta" = M.dHt := rfl
theorem av7 (μ M) : av μ M "theta_der_hp_theta" = M.dHp := rfl
theorem av8 (μ M) : av μ M "theta_phi" = fun j => M.m * M.Ht j - μ j * M.Hp j := rfl
theorem av9 (μ M) : av μ M "phi_phi" = fun j => (μ j * M.Ht j - M.m * M.Hp j) / √(1 - μ j ^ 2) := rfl
theorem sin0 (μ : ℕ → ℝ) (j : ℕ) : sinIf μ false j = 1 := rfl
theorem sin1 (μ : ℕ → ℝ) (j : ℕ) : sinIf μ true j = √(1 - μ j ^ 2) := rfl

theorem symF_six (μ : ℕ → ℝ) (M : Fin 3 → Spec.Mode) (r : Term) (m : ℕ → ℝ) (angs : List (Term × Bool × ℝ)) (i j : ℕ) :
    symF μ M r m angs i j = m i * (six.map fun π => (rv (M 0) (act r π).1 i * rv (M 1) (act r π).2.1 i *
      rv (M 2) (act r π).2.2 i) * (angs.map fun p => p.2.2 * (av μ (M 0) (act p.1 π).1 j * av μ (M 1) (act p.1 π).2.1 j *
      av μ (M 2) (act p.1 π).2.2 j / sinIf μ p.2.1 j)).sum).sum := by
  rw [sum_six]; rfl

section
variable {o : Obj} {S : Spec.Star} {n N : ℕ} {μ : ℕ → ℝ} {M : Fin 3 → Spec.Mode}

theorem map_tab (n : ℕ) (f : ℕ → ℝ) (g : ℝ → ℝ) : (tab n f).map g = tab n fun i => g (f i) := by simp [tab]
theorem add_tab (n : ℕ) (f g : ℕ → ℝ) : List.zipWith (· + ·) (tab n f) (tab n g) = tab n fun i => f i + g i := by
  simp [tab, List.zipWith_map, List.zipWith_self]

theorem bindS {x : Option ℝ} {v : ℝ} {f : ℝ → Option ℝ} (hx : x = some v) : (x >>= f) = f v := by rw [hx]; rfl

theorem Samples.kappa1 (h : Samples o S n N μ M) (hu : o.useCheby = false) (hp : o.protect = false)
    (hs : o.selfCoupling = false) {a b c : Bool} (hc : AngInt.conjugated o.conj = some (a, b, c)) (g : Garbage)
    (hg : GoodGarbage g) (idx : Option ℕ) :
    Coupling.kappa1 o g idx = some (azim M a b c * (S.R ^ 3 * Q S (upTo n idx) N μ (d0 S μ M))) := by
  obtain ⟨p, hP, hp'⟩ := h.P
  have hm : mult1 o = tab n fun i => p i * (S.Γ i - 1) := by
    unfold mult1; rw [hP, h.gamma, map_tab, mul_tab]
  have h1 := fun k r hr m angs ha => h.sym hu hp hs hc g hg k r hr m angs ha idx
  have h2 := fun k r hr m t ha => h.sym1 hu hp hs hc g hg k r hr m t ha idx
  unfold Coupling.kappa1
  rw [hm]
  simp only [Option.bind_eq_bind, Option.bind_some, Option.pure_def]
  rw [h2 _ _ (by decide) _ _ (by decide), h1 _ _ (by decide) _ _ (by decide), h2 _ _ (by decide) _ _ (by decide),
    h1 _ _ (by decide) _ _ (by decide), h1 _ _ (by decide) _ _ (by decide), h1 _ _ (by decide) _ _ (by decide)]
  simp only [Option.bind_some]
  have key : Q S (upTo n idx) N μ (d0 S μ M) = Q S (upTo n idx) N μ fun i j => o.normP * (1 / 2 * (1 / 2 * symF μ M
      ("_rad_der_x_z_1", "_rad_der_x_z_1", "_rad_diverg") (fun i => p i * (S.Γ i - 1)) [(("hr", "hr", "hr"), false, 1)] i j +
    1 / 2 * symF μ M ("_z_2_over_c_1_omega", "_z_2_over_c_1_omega", "_rad_diverg") (fun i => p i * (S.Γ i - 1))
      [(("theta_der_ht_theta", "theta_der_ht_theta", "hr"), false, 1), (("phi_phi", "phi_phi", "hr"), false, 1),
        (("theta_phi", "theta_der_hp_theta", "hr"), true, -2)] i j +
    symF μ M ("_z_1", "_z_1", "_rad_diverg") (fun i => p i * (S.Γ i - 1)) [(("hr", "hr", "hr"), false, 1)] i j +
    symF μ M ("_z_2_over_c_1_omega", "_z_1", "_rad_diverg") (fun i => p i * (S.Γ i - 1))
      [(("theta_der_ht_theta", "hr", "hr"), false, 1), (("phi_phi", "hr", "hr"), false, 1)] i j +
    symF μ M ("_z_1", "_rad_der_x_z_2_c_1_omega", "_rad_diverg") (fun i => p i * (S.Γ i - 1))
      [(("theta_der_hr_theta", "ht", "hr"), false, 1), (("mhr", "hp", "hr"), true, -1)] i j +
    symF μ M ("_rad_diverg", "_z_2_over_c_1_omega", "_rad_der_x_z_2_c_1_omega") (fun i => p i * (S.Γ i - 1))
      [(("hr", "ht", "ht"), false, -1), (("hr", "hp", "hp"), false, 1)] i j)) := by
    congr 1; funext i j
    simp only [symF_six, six, List.map_cons, List.map_nil, List.sum_cons, List.sum_nil, act0, act1, act2, act3, act4, act5,
      rv1, rv2, rv3, rv4, rv5, av1, av2, av3, av4, av5, av6, av7, av8, av9, sin0, sin1, div_one]
    unfold d0
    simp only [trace3, Matrix.mul_apply, Fin.sum_univ_three, U, Matrix.of_apply, Matrix.cons_val, hp' i]
    ring
  simp only [← Q_add, ← Q_mul] at key
  rw [key, h.R]
  congr 1
  ring

theorem Samples.kappa2 (h : Samples o S n N μ M) (hu : o.useCheby = false) (hp : o.protect = false)
    {a b c : Bool} (hc : AngInt.conjugated o.conj = some (a, b, c)) (idx : Option ℕ) :
    Coupling.kappa2 o idx = some (azim M a b c * (S.R ^ 3 * Q S (upTo n idx) N μ (d1 S M))) := by
  obtain ⟨p, hP, hp'⟩ := h.P
  have hm : mult2 o = tab n fun i => p i * ((S.Γ i - 1) ^ 2 + S.Γ' i) := by
    unfold mult2
    rw [hP, h.gamma, map_tab]
    rcases h.gammaDer with ⟨h1, h2⟩ | ⟨h1, d, h2, h3⟩
    · simp only [h1, if_true, mul_tab, h2, add_zero]
    · simp only [h1, Bool.false_eq_true, if_false, h2, mul_tab, add_tab, h3]
  unfold Coupling.kappa2
  rw [hm, h.radInt _ (by decide), h.angInt hu hp hc _ (by decide)]
  simp only [Option.bind_eq_bind, Option.bind_some, Option.pure_def]
  have key : Q S (upTo n idx) N μ (d1 S M) = Q S (upTo n idx) N μ fun i j => 1 / 2 * o.normP *
    ((rv (M 0) "_rad_diverg" i * rv (M 1) "_rad_diverg" i * rv (M 2) "_rad_diverg" i * (p i * ((S.Γ i - 1) ^ 2 + S.Γ' i))) *
      (av μ (M 0) "hr" j * av μ (M 1) "hr" j * av μ (M 2) "hr" j / sinIf μ false j)) := by
    congr 1; funext i j
    simp only [d1, rv5, av1, sin0, hp' i]; ring
  simp only [← Q_mul, ← Q_prod] at key
  rw [key, h.R]
  congr 1
  ring

theorem Samples.kappa3 (h : Samples o S n N μ M) (hu : o.useCheby = false) (hp : o.protect = false)
    (hs : o.selfCoupling = false) {a b c : Bool} (hc : AngInt.conjugated o.conj = some (a, b, c)) (g : Garbage)
    (hg : GoodGarbage g) (idx : Option ℕ) :
    Coupling.kappa3 o g idx = some (azim M a b c * (S.R ^ 3 * Q S (upTo n idx) N μ (d2 S μ M))) := by
  obtain ⟨p, hP, hp'⟩ := h.P
  have h1 := fun k r hr m angs ha => h.sym hu hp hs hc g hg k r hr m angs ha idx
  unfold Coupling.kappa3
  rw [hP]
  dsimp only
  rw [bindS (h1 _ _ (by decide) _ _ (by decide))]
  rw [bindS (h1 _ _ (by decide) _ _ (by decide))]
  rw [bindS (h1 _ _ (by decide) _ _ (by decide))]
  rw [bindS (h1 _ _ (by decide) _ _ (by decide))]
  rw [bindS (h1 _ _ (by decide) _ _ (by decide))]
  rw [bindS (h1 _ _ (by decide) _ _ (by decide))]
  rw [bindS (h1 _ _ (by decide) _ _ (by decide))]
  rw [bindS (h1 _ _ (by decide) _ _ (by decide))]
  rw [bindS (h.radInt _ (by decide) _ _)]
  rw [bindS (h.radInt _ (by decide) _ _)]
  rw [bindS (h.angInt hu hp hc _ (by decide) _)]
  rw [bindS (h.radInt _ (by decide) _ _)]
  rw [bindS (h.angInt hu hp hc _ (by decide) _)]
  rw [bindS (h.angInt hu hp hc _ (by decide) _)]
  rw [Option.pure_def]
  have key : Q S (upTo n idx) N μ (d2 S μ M) = Q S (upTo n idx) N μ fun i j => 1 / 2 * o.normP * (
      (2 * ((rv (M 0) "_rad_der_x_z_1" i * rv (M 1) "_rad_der_x_z_1" i * rv (M 2) "_rad_der_x_z_1" i * p i) *
        (av μ (M 0) "hr" j * av μ (M 1) "hr" j * av μ (M 2) "hr" j / sinIf μ false j)) +
      4 * ((rv (M 0) "_z_1" i * rv (M 1) "_z_1" i * rv (M 2) "_z_1" i * p i) *
        (av μ (M 0) "hr" j * av μ (M 1) "hr" j * av μ (M 2) "hr" j / sinIf μ false j))) +
      (2 * ((rv (M 0) "_z_2_over_c_1_omega" i * rv (M 1) "_z_2_over_c_1_omega" i * rv (M 2) "_z_2_over_c_1_omega" i * p i) *
        (av μ (M 0) "phi_phi" j * av μ (M 1) "phi_phi" j * av μ (M 2) "phi_phi" j / sinIf μ false j)) +
      2 * ((rv (M 0) "_z_2_over_c_1_omega" i * rv (M 1) "_z_2_over_c_1_omega" i * rv (M 2) "_z_2_over_c_1_omega" i * p i) *
        (av μ (M 0) "theta_der_ht_theta" j * av μ (M 1) "theta_der_ht_theta" j * av μ (M 2) "theta_der_ht_theta" j /
          sinIf μ false j))) +
      (symF μ M ("_rad_der_x_z_1", "_z_1", "_rad_der_x_z_2_c_1_omega") p
    [(("hr", "theta_der_hr_theta", "ht"), false, 1), (("hr", "mhr", "hp"), true, -1)] i j +
    symF μ M ("_rad_der_x_z_1", "_z_2_over_c_1_omega", "_rad_der_x_z_2_c_1_omega") p
    [(("hr", "ht", "ht"), false, -1), (("hr", "hp", "hp"), false, 1)] i j +
    symF μ M ("_z_1", "_z_1", "_rad_der_x_z_2_c_1_omega") p
    [(("theta_der_hr_theta", "hr", "ht"), false, 1), (("mhr", "hr", "hp"), true, -1)] i j +
    symF μ M ("_z_1", "_z_2_over_c_1_omega", "_rad_der_x_z_2_c_1_omega") p
    [(("hr", "ht", "ht"), false, -1), (("theta_der_hr_theta", "theta_der_ht_theta", "ht"), false, 1),
     (("hr", "hp", "hp"), false, 1), (("mhr", "phi_phi", "hp"), true, -1),
     (("mhr", "theta_der_hp_theta", "ht"), true, -1), (("theta_der_hr_theta", "theta_phi", "hp"), true, -1)] i j +
    symF μ M ("_z_2_over_c_1_omega", "_z_2_over_c_1_omega", "_rad_der_x_z_2_c_1_omega") p
    [(("ht", "theta_der_ht_theta", "ht"), false, -1), (("hp", "phi_phi", "hp"), false, 1),
     (("hp", "theta_der_hp_theta", "ht"), false, 1), (("theta_phi", "ht", "hp"), true, 1)] i j +
    symF μ M ("_z_1", "_z_2_over_c_1_omega", "_z_2_over_c_1_omega") p
    [(("hr", "theta_phi", "theta_der_hp_theta"), true, -2), (("hr", "phi_phi", "phi_phi"), false, 1),
     (("hr", "theta_der_ht_theta", "theta_der_ht_theta"), false, 1)] i j +
    symF μ M ("_z_2_over_c_1_omega", "_z_2_over_c_1_omega", "_z_2_over_c_1_omega") p
    [(("theta_der_ht_theta", "theta_phi", "theta_der_hp_theta"), true, -1),
     (("theta_der_hp_theta", "theta_phi", "phi_phi"), true, -1)] i j +
    symF μ M ("_z_1", "_z_1", "_z_2_over_c_1_omega") p
    [(("hr", "hr", "theta_der_ht_theta"), false, 1), (("hr", "hr", "phi_phi"), false, 1)] i j)) := by
    congr 1; funext i j
    simp only [symF_six, six, List.map_cons, List.map_nil, List.sum_cons, List.sum_nil, act0, act1, act2, act3, act4, act5,
      rv1, rv2, rv3, rv4, rv5, av1, av2, av3, av4, av5, av6, av7, av8, av9, sin0, sin1, div_one]
    unfold d2
    simp only [trace3, Matrix.mul_apply, Fin.sum_univ_three, U, Matrix.of_apply, Matrix.cons_val, hp' i]
    generalize (√(1 - μ j ^ 2)) = s
    simp only [div_eq_mul_inv]
    generalize s⁻¹ = t
    ring
  simp only [← Q_add, ← Q_mul, ← Q_prod] at key
  rw [key, h.R]
  congr 1
  ring

theorem Samples.kappa4 (h : Samples o S n N μ M) (hu : o.useCheby = false) (hp : o.protect = false)
    (hs : o.selfCoupling = false) {a b c : Bool} (hc : AngInt.conjugated o.conj = some (a, b, c)) (g : Garbage)
    (hg : GoodGarbage g) (idx : Option ℕ) :
    Coupling.kappa4 o g idx = some (azim M a b c * (S.R ^ 3 * Q S (upTo n idx) N μ (d3 S M))) := by
  obtain ⟨p, hP, hp'⟩ := h.rho
  have hm : mult4 o = tab n fun i => p i * S.x i ^ 3 := by
    unfold mult4; rw [hP, h.x, map_tab, mul_tab]
  have ha : mult4a o = tab n fun i => p i * S.x i ^ 3 * (-1 / (S.x i * S.R) ^ 2 * S.g i + 1 / (S.x i * S.R) * S.g' i) := by
    unfold mult4a
    simp only [hm, h.x, map_tab, h.g1, h.g2, mul_tab, add_tab, h.R]
  have hb : mult4b o = tab n fun i => p i * S.x i ^ 3 * S.g'' i := by
    unfold mult4b; rw [hm, h.g3, mul_tab]
  unfold Coupling.kappa4
  rw [ha, hb, h.sym hu hp hs hc g hg _ _ (by decide) _ _ (by decide), h.radInt _ (by decide),
    h.angInt hu hp hc _ (by decide)]
  simp only [Option.bind_eq_bind, Option.bind_some, Option.pure_def]
  have key : Q S (upTo n idx) N μ (d3 S M) = Q S (upTo n idx) N μ fun i j => -(1 / 2) * o.normRho * S.R ^ 3 * (
      1 / 2 * symF μ M ("_z_1", "_z_2_over_c_1_omega", "_z_2_over_c_1_omega")
        (fun i => p i * S.x i ^ 3 * (-1 / (S.x i * S.R) ^ 2 * S.g i + 1 / (S.x i * S.R) * S.g' i))
        [(("hr", "ht", "ht"), false, 1), (("hr", "hp", "hp"), false, -1)] i j +
      (rv (M 0) "_z_1" i * rv (M 1) "_z_1" i * rv (M 2) "_z_1" i * (p i * S.x i ^ 3 * S.g'' i)) *
        (av μ (M 0) "hr" j * av μ (M 1) "hr" j * av μ (M 2) "hr" j / sinIf μ false j)) := by
    congr 1; funext i j
    simp only [symF_six, six, List.map_cons, List.map_nil, List.sum_cons, List.sum_nil, act0, act1, act2, act3, act4, act5,
      rv1, rv2, rv3, rv4, rv5, av1, av2, av3, av4, av5, av6, av7, av8, av9, sin0, sin1, div_one]
    unfold d3 hor
    simp only [hp' i]
    ring
  simp only [← Q_add, ← Q_mul, ← Q_prod] at key
  rw [key, h.R]
  congr 1
  ring

end
end
end Verif.Coupling
