import Verif.Coupling.Props2
import Verif.Coupling.Spec
/-! # Helper lemmas for C84: the value of the coupling coefficient as a volume integral -/
namespace Verif.Coupling
open Finset Equiv NumInt NumInt.Spec
noncomputable section

/-- The object holds the samples of a star and three modes: `n` radial and `N` latitudinal points. -/
structure Samples (o : Obj) (S : Spec.Star) (n N : ℕ) (μ : ℕ → ℝ) (M : Fin 3 → Spec.Mode) : Prop where
  x : o.x = tab n S.x
  R : o.R = S.R
  mu : o.mu = tab N μ
  two : 2 ≤ N
  even : N % 2 = 0
  P : ∃ p, o.PNormed = tab n p ∧ ∀ i, S.P i = o.normP * p i
  rho : ∃ p, o.rhoNormed = tab n p ∧ ∀ i, S.ρ i = o.normRho * p i
  gamma : o.Gamma1 = tab n S.Γ
  gammaDer : (o.polytropic = true ∧ ∀ i, S.Γ' i = 0) ∨
    (o.polytropic = false ∧ ∃ d, o.rhoGammaDer = some (tab n S.ρ, tab n d) ∧ ∀ i, S.Γ' i = S.ρ i * d i)
  g1 : o.dgrav = tab n S.g
  g2 : o.dgrav2 = tab n S.g'
  g3 : o.dgrav3 = tab n S.g''
  orders : o.mList = [(M 0).m, (M 1).m, (M 2).m]
  z : ∀ k : Fin 3, o.attr (name "_z_1" (k + 1)) = some (tab n (M k).z)
  dz : ∀ k : Fin 3, o.attr (name "_rad_der_x_z_1" (k + 1)) = some (tab n (M k).dz)
  y : ∀ k : Fin 3, o.attr (name "_z_2_over_c_1_omega" (k + 1)) = some (tab n (M k).y)
  dy : ∀ k : Fin 3, o.attr (name "_rad_der_x_z_2_c_1_omega" (k + 1)) = some (tab n (M k).dy)
  div : ∀ k : Fin 3, o.attr (name "_rad_diverg" (k + 1)) = some (tab n (M k).div)
  hr : ∀ k : Fin 3, o.attr (name "_hr" (k + 1)) = some (tab N (M k).Hr)
  ht : ∀ k : Fin 3, o.attr (name "_ht" (k + 1)) = some (tab N (M k).Ht)
  hp : ∀ k : Fin 3, o.attr (name "_hp" (k + 1)) = some (tab N (M k).Hp)
  dhr : ∀ k : Fin 3, o.attr (name "_theta_der_hr_theta" (k + 1)) = some (tab N (M k).dHr)
  dht : ∀ k : Fin 3, o.attr (name "_theta_der_ht_theta" (k + 1)) = some (tab N (M k).dHt)
  dhp : ∀ k : Fin 3, o.attr (name "_theta_der_hp_theta" (k + 1)) = some (tab N (M k).dHp)
  mhr : ∀ k : Fin 3, o.attr (name "_mhr" (k + 1)) = some (tab N fun j => (M k).m * (M k).Hr j)
  tp : ∀ k : Fin 3, o.attr (name "_theta_phi" (k + 1)) = some (tab N fun j => (M k).m * (M k).Ht j - μ j * (M k).Hp j)
  pp : ∀ k : Fin 3, o.attr (name "_phi_phi" (k + 1)) =
    some (tab N fun j => (μ j * (M k).Ht j - (M k).m * (M k).Hp j) / √(1 - μ j ^ 2))

/-- Radial profile by name. -/
def rv (M : Spec.Mode) (b : String) : ℕ → ℝ :=
  if b = "_z_1" then M.z else if b = "_rad_der_x_z_1" then M.dz else if b = "_z_2_over_c_1_omega" then M.y
  else if b = "_rad_der_x_z_2_c_1_omega" then M.dy else M.div
/-- Angular profile by name. -/
def av (μ : ℕ → ℝ) (M : Spec.Mode) (b : String) : ℕ → ℝ :=
  if b = "hr" then M.Hr else if b = "ht" then M.Ht else if b = "hp" then M.Hp
  else if b = "mhr" then fun j => M.m * M.Hr j
  else if b = "theta_der_hr_theta" then M.dHr else if b = "theta_der_ht_theta" then M.dHt
  else if b = "theta_der_hp_theta" then M.dHp
  else if b = "theta_phi" then fun j => M.m * M.Ht j - μ j * M.Hp j
  else fun j => (μ j * M.Ht j - M.m * M.Hp j) / √(1 - μ j ^ 2)

theorem Samples.rad {o S n N μ M} (h : Samples o S n N μ M) (b : String) (hb : b ∈ radialNames) (k : Fin 3) :
    o.attr (name b (k + 1)) = some (tab n (rv (M k) b)) := by
  simp only [radialNames, List.mem_cons, List.not_mem_nil, or_false] at hb
  rcases hb with rfl | rfl | rfl | rfl | rfl
  · exact h.dz k
  · exact h.div k
  · exact h.y k
  · exact h.z k
  · exact h.dy k

theorem Samples.ang {o S n N μ M} (h : Samples o S n N μ M) (b : String) (hb : b ∈ angularNames) (k : Fin 3) :
    o.attr (name ("_" ++ b) (k + 1)) = some (tab N (av μ (M k) b)) := by
  simp only [angularNames, List.mem_cons, List.not_mem_nil, or_false] at hb
  rcases hb with rfl | rfl | rfl | rfl | rfl | rfl | rfl | rfl | rfl
  · exact h.hr k
  · exact h.ht k
  · exact h.hp k
  · exact h.mhr k
  · exact h.dhr k
  · exact h.dht k
  · exact h.dhp k
  · exact h.pp k
  · exact h.tp k

/-- Number of points of a slice. -/
def upTo (n : ℕ) : Option ℕ → ℕ
  | none => n
  | some i => min i n

/-- The angular quadrature, real. -/
def angR (N : ℕ) (μ : ℕ → ℝ) (f : ℕ → ℝ) : ℝ := ∑ j ∈ range (N - 1), (μ 1 - μ 0) * (f j + f (j + 1)) / 2
/-- The double quadrature. -/
def Q (S : Spec.Star) (n N : ℕ) (μ : ℕ → ℝ) (F : ℕ → ℕ → ℝ) : ℝ :=
  trapSum n S.x fun i => S.x i ^ 2 * angR N μ fun j => F i j

theorem angR_add (N : ℕ) (μ f g : ℕ → ℝ) : angR N μ f + angR N μ g = angR N μ fun j => f j + g j := by
  unfold angR; rw [← sum_add_distrib]; exact sum_congr rfl fun j _ => by ring
theorem angR_mul (N : ℕ) (μ f : ℕ → ℝ) (c : ℝ) : c * angR N μ f = angR N μ fun j => c * f j := by
  unfold angR; rw [mul_sum]; exact sum_congr rfl fun j _ => by ring
theorem Q_add (S : Spec.Star) (n N : ℕ) (μ : ℕ → ℝ) (F G : ℕ → ℕ → ℝ) :
    Q S n N μ F + Q S n N μ G = Q S n N μ fun i j => F i j + G i j := by
  unfold Q trapSum; rw [← sum_add_distrib]; refine sum_congr rfl fun i _ => ?_
  simp only [← angR_add]; ring
theorem Q_mul (S : Spec.Star) (n N : ℕ) (μ : ℕ → ℝ) (F : ℕ → ℕ → ℝ) (c : ℝ) :
    c * Q S n N μ F = Q S n N μ fun i j => c * F i j := by
  unfold Q trapSum; rw [mul_sum]; refine sum_congr rfl fun i _ => ?_
  simp only [← angR_mul]; ring
theorem Q_prod (S : Spec.Star) (n N : ℕ) (μ f a : ℕ → ℝ) :
    trapSum n S.x (fun i => f i * S.x i ^ 2) * angR N μ a = Q S n N μ fun i j => f i * a j := by
  unfold Q trapSum; rw [sum_mul]; refine sum_congr rfl fun i _ => ?_
  simp only [← angR_mul]; ring
theorem Q_sum {ι : Type} (S : Spec.Star) (n N : ℕ) (μ : ℕ → ℝ) (s : Finset ι) (F : ι → ℕ → ℕ → ℝ) :
    ∑ p ∈ s, Q S n N μ (F p) = Q S n N μ fun i j => ∑ p ∈ s, F p i j := by
  classical
  induction s using Finset.induction_on with
  | empty => simp [Q, trapSum, angR]
  | insert a s ha ih => rw [sum_insert ha, ih, Q_add]; congr 1; funext i j; rw [sum_insert ha]

/-- The azimuthal factor. -/
def azim (M : Fin 3 → Spec.Mode) (a b c : Bool) : ℝ :=
  if AngInt.sgn a * (M 0).m + AngInt.sgn b * (M 1).m + AngInt.sgn c * (M 2).m = 0 then 2 * Real.pi else 0

/-- The sine or one. -/
def sinIf (μ : ℕ → ℝ) (d : Bool) (j : ℕ) : ℝ := if d then √(1 - μ j ^ 2) else 1

section
variable {o : Obj} {S : Spec.Star} {n N : ℕ} {μ : ℕ → ℝ} {M : Fin 3 → Spec.Mode} (h : Samples o S n N μ M)
include h

theorem Samples.radInt (t : Term) (ht : IsRadial t) (m : ℕ → ℝ) (idx : Option ℕ) :
    Coupling.radInt o t (tab n m) idx = some (trapSum (upTo n idx) S.x fun i =>
      (rv (M 0) t.1 i * rv (M 1) t.2.1 i * rv (M 2) t.2.2 i * m i) * S.x i ^ 2) := by
  have := C50_radial o t n _ _ _ m S.x h.x (h.rad _ ht.1 0) (h.rad _ ht.2.1 1) (h.rad _ ht.2.2 2)
  cases idx with
  | none => exact this.1
  | some i => exact this.2 i

theorem Samples.angInt (hu : o.useCheby = false) (hp : o.protect = false) {a b c : Bool}
    (hc : AngInt.conjugated o.conj = some (a, b, c)) (t : Term) (ht : t.1 ∈ angularNames ∧ t.2.1 ∈ angularNames ∧
      t.2.2 ∈ angularNames) (d : Bool) :
    Coupling.angInt o t d = some (azim M a b c * angR N μ fun j =>
      av μ (M 0) t.1 j * av μ (M 1) t.2.1 j * av μ (M 2) t.2.2 j / sinIf μ d j) := by
  have h1 := h.ang _ ht.1 0
  have h2 := h.ang _ ht.2.1 1
  have h3 := h.ang _ ht.2.2 2
  have hprod : AngInt.product (angObj o) [name ("_" ++ t.1) 1, name ("_" ++ t.2.1) 2, name ("_" ++ t.2.2) 3] =
      some (tab N fun j => av μ (M 0) t.1 j * av μ (M 1) t.2.1 j * av μ (M 2) t.2.2 j) := by
    rw [product_combine]; simp only [angObj]
    erw [h1, h2, h3]; simp [combine, mul_tab]
  have hth : AngInt.thetaIntegral (angObj o) [name ("_" ++ t.1) 1, name ("_" ++ t.2.1) 2, name ("_" ++ t.2.2) 3]
      (angOpts o d) = .ok (angR N μ fun j =>
        av μ (M 0) t.1 j * av μ (M 1) t.2.1 j * av μ (M 2) t.2.2 j / sinIf μ d j) := by
    have hr := fun f => AngInt.regular_tab o.method N h.two h.even μ f
    rw [AngInt.thetaIntegral, hprod]
    cases d with
    | false => simp [angOpts, hu, hp, angObj, h.mu, hr, angR, sinIf]
    | true =>
      have hs : AngInt.sinArr (tab N μ) = tab N fun j => √(1 - μ j ^ 2) := by simp [AngInt.sinArr, tab]
      have hd : ∀ f g : ℕ → ℝ, AngInt.arrDiv (tab N f) (tab N g) = tab N fun j => f j / g j := by
        intro f g; simp [AngInt.arrDiv, tab, List.zipWith_map, List.zipWith_self]
      simp [angOpts, hu, hp, angObj, h.mu, hs, hd, hr, angR, sinIf]
  unfold Coupling.angInt azim
  rw [h.orders]
  split
  · next hs => rw [AngInt.C48_otherwise _ _ _ _ _ _ _ hth (Or.inr (Or.inr ⟨_, _, _, _, _, _, rfl, hc, hs⟩))]; rfl
  · next hs => rw [AngInt.C48_vanishes _ _ _ _ _ _ _ _ _ _ hc hs]; simp [val]

/-- The integrand of a symmetrised term. -/
def symF (μ : ℕ → ℝ) (M : Fin 3 → Spec.Mode) (r : Term) (m : ℕ → ℝ) (angs : List (Term × Bool × ℝ)) (i j : ℕ) : ℝ :=
  m i * ∑ π : Perm (Fin 3), (rv (M 0) (act r π).1 i * rv (M 1) (act r π).2.1 i * rv (M 2) (act r π).2.2 i) *
    (angs.map fun p => p.2.2 * (av μ (M 0) (act p.1 π).1 j * av μ (M 1) (act p.1 π).2.1 j *
      av μ (M 2) (act p.1 π).2.2 j / sinIf μ p.2.1 j)).sum

omit h in
theorem angR_list (N : ℕ) (μ : ℕ → ℝ) (l : List (Term × Bool × ℝ)) (f : Term × Bool × ℝ → ℕ → ℝ) (E : ℝ) :
    (l.map fun p => p.2.2 * (E * angR N μ (f p))).sum = E * angR N μ fun j => (l.map fun p => p.2.2 * f p j).sum := by
  induction l with
  | nil => simp [angR]
  | cons p l ih =>
    simp only [List.map_cons, List.sum_cons]
    rw [ih, ← angR_add, ← angR_mul]; ring

theorem Samples.sym (hu : o.useCheby = false) (hp : o.protect = false) (hs : o.selfCoupling = false) {a b c : Bool}
    (hc : AngInt.conjugated o.conj = some (a, b, c)) (g : Garbage) (hg : GoodGarbage g) (k : ℕ) (r : Term) (hr : IsRadial r)
    (m : ℕ → ℝ) (angs : List (Term × Bool × ℝ))
    (ha : ∀ p ∈ angs, p.1.1 ∈ angularNames ∧ p.1.2.1 ∈ angularNames ∧ p.1.2.2 ∈ angularNames) (idx : Option ℕ) :
    Coupling.sym o g k r (tab n m) angs idx = some (azim M a b c * Q S (upTo n idx) N μ (symF μ M r m angs)) := by
  have hact : ∀ t π, Spec.distribute t π = act t π := fun t π => rfl
  have := C50_S_operator_single o hs (g k).1 (g k).2 (hg k).1 (hg k).2 r 1 angs (tab n m) idx
    (fun t => trapSum (upTo n idx) S.x fun i => (rv (M 0) t.1 i * rv (M 1) t.2.1 i * rv (M 2) t.2.2 i * m i) * S.x i ^ 2)
    (fun t d => azim M a b c * angR N μ fun j => av μ (M 0) t.1 j * av μ (M 1) t.2.1 j * av μ (M 2) t.2.2 j / sinIf μ d j)
    (fun π => h.radInt _ (by rw [hact]; exact act_mem (· ∈ radialNames) r hr π) m idx)
    (fun p hpm π => h.angInt hu hp hc _ (by rw [hact]; exact act_mem (· ∈ angularNames) p.1 (ha p hpm) π) p.2.1)
  unfold Coupling.sym
  rw [this]
  congr 1
  unfold Spec.S
  rw [show Q S (upTo n idx) N μ (symF μ M r m angs) = ∑ π : Perm (Fin 3), Q S (upTo n idx) N μ fun i j =>
      (rv (M 0) (act r π).1 i * rv (M 1) (act r π).2.1 i * rv (M 2) (act r π).2.2 i * m i) *
    (angs.map fun p => p.2.2 * (av μ (M 0) (act p.1 π).1 j * av μ (M 1) (act p.1 π).2.1 j *
      av μ (M 2) (act p.1 π).2.2 j / sinIf μ p.2.1 j)).sum by
    rw [Q_sum]; congr 1; funext i j; unfold symF; rw [mul_sum]; exact sum_congr rfl fun π _ => by ring]
  rw [mul_sum]
  refine sum_congr rfl fun π _ => ?_
  rw [← Q_prod]
  simp only [List.map_cons, List.map_nil, List.sum_cons, List.sum_nil, add_zero, one_mul, hact]
  rw [angR_list N μ angs (fun p j => av μ (M 0) (act p.1 π).1 j * av μ (M 1) (act p.1 π).2.1 j *
      av μ (M 2) (act p.1 π).2.2 j / sinIf μ p.2.1 j)]
  ring

theorem Samples.sym1 (hu : o.useCheby = false) (hp : o.protect = false) (hs : o.selfCoupling = false) {a b c : Bool}
    (hc : AngInt.conjugated o.conj = some (a, b, c)) (g : Garbage) (hg : GoodGarbage g) (k : ℕ) (r : Term) (hr : IsRadial r)
    (m : ℕ → ℝ) (t : Term)
    (ha : t.1 ∈ angularNames ∧ t.2.1 ∈ angularNames ∧ t.2.2 ∈ angularNames) (idx : Option ℕ) :
    Coupling.sym1 o g k r (tab n m) t idx = some (azim M a b c * Q S (upTo n idx) N μ (symF μ M r m [(t, false, 1)])) := by
  rw [sym1_eq_sym o g hg k r (tab n m) t idx]
  exact h.sym hu hp hs hc g hg k r hr m [(t, false, 1)] (by simpa using ha) idx

/-- A product of a single radial and a single angular integral. -/
theorem Samples.prod (t u : Term) (m : ℕ → ℝ) (d : Bool) (k : ℕ) :
    trapSum k S.x (fun i => (rv (M 0) t.1 i * rv (M 1) t.2.1 i * rv (M 2) t.2.2 i * m i) * S.x i ^ 2) *
      angR N μ (fun j => av μ (M 0) u.1 j * av μ (M 1) u.2.1 j * av μ (M 2) u.2.2 j / sinIf μ d j) =
    Q S k N μ fun i j => (rv (M 0) t.1 i * rv (M 1) t.2.1 i * rv (M 2) t.2.2 i * m i) *
      (av μ (M 0) u.1 j * av μ (M 1) u.2.1 j * av μ (M 2) u.2.2 j / sinIf μ d j) := Q_prod ..

end
end
end Verif.Coupling
