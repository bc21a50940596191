import Verif.Coupling.Props
/-! Objects that meet the hypotheses of the theorems about the coupling coefficient. -/
namespace Verif.Coupling
open Finset Equiv NumInt NumInt.Spec
noncomputable section

theorem name_injective (b b' : String) (i j : Fin 3) (h : name b (i + 1) = name b' (j + 1)) : b = b' ∧ i = j := by
  have h' := congrArg String.toList h
  simp only [name, String.toList_append] at h'
  have hl : ∀ k : Fin 3, (toString ((k : ℕ) + 1)).toList.length = 1 := by decide
  have h2 := List.append_inj' h' (by rw [hl, hl])
  have h3 := List.append_inj' h2.1 rfl
  refine ⟨String.toList_inj.1 h3.1, ?_⟩
  have hinj : ∀ i j : Fin 3, (toString ((i : ℕ) + 1)).toList = (toString ((j : ℕ) + 1)).toList → i = j := by decide
  exact hinj i j h2.2

open Classical in
/-- The attributes of an object whose mode `k` has profile `f base k` under every name. -/
def attrs (f : String → Fin 3 → List ℝ) (s : String) : Option (List ℝ) :=
  if h : ∃ p : String × Fin 3, s = name p.1 (p.2 + 1) then some (f h.choose.1 h.choose.2) else none

theorem attrs_name (f : String → Fin 3 → List ℝ) (b : String) (k : Fin 3) : attrs f (name b (k + 1)) = some (f b k) := by
  have h : ∃ p : String × Fin 3, name b (k + 1) = name p.1 (p.2 + 1) := ⟨(b, k), rfl⟩
  have hc := name_injective _ _ _ _ h.choose_spec
  rw [attrs, dif_pos h, ← hc.1, ← hc.2]

/-- An object with these profiles, the azimuthal orders `m` and the first mode conjugated. -/
def exObj (f : String → Fin 3 → List ℝ) (m : Fin 3 → ℤ) (c : Fin 3 → Bool) : Obj where
  attr := attrs f
  mu := [-1 / 2, 1 / 2]
  x := [1, 2]
  mList := [m 0, m 1, m 2]
  conj := .tuple [c 0, c 1, c 2]
  PNormed := [1, 1]
  rhoNormed := [1, 1]
  Gamma1 := [2, 2]
  rhoGammaDer := none
  dgrav := [1, 1]
  dgrav2 := [1, 1]
  dgrav3 := [1, 1]
  normP := 1
  normRho := 1
  R := 1

theorem exObj_attr (f : String → Fin 3 → List ℝ) (m : Fin 3 → ℤ) (c : Fin 3 → Bool) (b : String) (k : Fin 3) :
    (exObj f m c).attr (name b (k + 1)) = some (f b k) := attrs_name f b k

/-- Every relabelling of such an object is one. -/
theorem exObj_relabel (σ : Perm (Fin 3)) (f : String → Fin 3 → List ℝ) (m : Fin 3 → ℤ) (c : Fin 3 → Bool) :
    Relabel σ (exObj f m c) (exObj (fun b k => f b (σ k)) (m ∘ σ) (c ∘ σ)) where
  attr b k := by simp only [exObj, attrs_name]
  orders := ⟨m, c, rfl, rfl, rfl, rfl⟩
  rest := rfl

theorem angInt_two (o : Obj) (t : Term) (d : Bool) (m : Fin 3 → ℤ) (c : Fin 3 → Bool) (hm : o.mList = [m 0, m 1, m 2])
    (hc : o.conj = .tuple [c 0, c 1, c 2]) (hu : o.useCheby = false) (hp : o.protect = false)
    (hmu : o.mu.length = 2) (hl : ∀ b (k : Fin 3), ∃ p, o.attr (name b (k + 1)) = some p ∧ p.length = 2) :
    ∃ v, angInt o t d = some v := by
  have hcj : AngInt.conjugated o.conj = some (c 0, c 1, c 2) := by rw [hc]; rfl
  obtain ⟨p, h1, l1⟩ := hl ("_" ++ t.1) 0
  obtain ⟨q, h2, l2⟩ := hl ("_" ++ t.2.1) 1
  obtain ⟨r, h3, l3⟩ := hl ("_" ++ t.2.2) 2
  have h1 : o.attr (name ("_" ++ t.1) 1) = some p := h1
  have h2 : o.attr (name ("_" ++ t.2.1) 2) = some q := h2
  have h3 : o.attr (name ("_" ++ t.2.2) 3) = some r := h3
  have hprod : AngInt.product (angObj o) [name ("_" ++ t.1) 1, name ("_" ++ t.2.1) 2, name ("_" ++ t.2.2) 3] =
      some (mul (mul p q) r) := by
    rw [product_combine]; simp only [angObj]
    rw [h1, h2, h3]; simp [combine, l1, l2, l3]
  have hlen : (mul (mul p q) r).length = 2 := by simp [mul, l1, l2, l3]
  have hreg : ∀ (f : List ℝ), f.length = 2 → ∃ v, AngInt.regular o.method f o.mu = some v := by
    intro f hf
    rw [tab_surj f 0, tab_surj o.mu 0, hf, hmu]
    exact ⟨_, AngInt.regular_tab o.method 2 le_rfl rfl _ _⟩
  have hth : ∃ v, AngInt.thetaIntegral (angObj o) [name ("_" ++ t.1) 1, name ("_" ++ t.2.1) 2, name ("_" ++ t.2.2) 3]
      (angOpts o d) = .ok v := by
    obtain ⟨v, hv⟩ := hreg (mul (mul p q) r) hlen
    obtain ⟨w, hw⟩ := hreg (AngInt.arrDiv (mul (mul p q) r) (AngInt.sinArr o.mu))
      (by simp [AngInt.arrDiv, AngInt.sinArr, hlen, hmu])
    cases d with
    | false => exact ⟨v, by rw [AngInt.thetaIntegral, hprod]; simp [angOpts, hu, hp, hlen, hmu, angObj, hv]⟩
    | true => exact ⟨w, by rw [AngInt.thetaIntegral, hprod]; simp [angOpts, hu, hp, hlen, hmu, angObj, hw]⟩
  obtain ⟨v, hv⟩ := hth
  unfold angInt
  rw [hm]
  by_cases hs : AngInt.sgn (c 0) * m 0 + AngInt.sgn (c 1) * m 1 + AngInt.sgn (c 2) * m 2 = 0
  · exact ⟨_, by rw [AngInt.C48_otherwise _ _ _ _ _ _ v hv (Or.inr (Or.inr ⟨_, _, _, _, _, _, rfl, hcj, hs⟩))]; rfl⟩
  · exact ⟨0, by rw [AngInt.C48_vanishes _ _ _ _ _ _ _ _ _ _ hcj hs]; rfl⟩

theorem radInt_exists (o : Obj) (t : Term) (mult : List ℝ) (idx : Option ℕ) (n : ℕ) (hx : o.x.length = n)
    (hm : mult.length = n) (h1 : ∃ p, o.attr (name t.1 1) = some p ∧ p.length = n)
    (h2 : ∃ p, o.attr (name t.2.1 2) = some p ∧ p.length = n) (h3 : ∃ p, o.attr (name t.2.2 3) = some p ∧ p.length = n) :
    ∃ v, radInt o t mult idx = some v := by
  obtain ⟨p, h1, l1⟩ := h1
  obtain ⟨q, h2, l2⟩ := h2
  obtain ⟨r, h3, l3⟩ := h3
  rw [tab_surj p 0, l1] at h1
  rw [tab_surj q 0, l2] at h2
  rw [tab_surj r 0, l3] at h3
  rw [tab_surj mult 0, hm]
  have := C50_radial o t n _ _ _ (fun i => mult.getD i 0) (fun i => o.x.getD i 0) (by rw [← hx]; exact tab_surj o.x 0) h1 h2 h3
  cases idx with
  | none => exact ⟨_, this.1⟩
  | some i => exact ⟨_, this.2 i⟩

/-- Non-vacuity of C50 and C65: three different modes with orders `2, 1, 1`, the first one conjugated;
every symmetrised term has a value, and relabelled objects exist for every permutation. -/
example (σ : Perm (Fin 3)) (r : Term) (as : List (Term × Bool × ℝ)) :
    let o := exObj (fun _ k => [k + 1, (k : ℕ) ^ 2 + 3]) ![2, 1, 1] ![true, false, false]
    (∃ o', Relabel σ o o') ∧
    (∃ (R : Term → ℝ) (A : Term → Bool → ℝ), (∀ π, radInt o (Spec.distribute r π) [1, 1] none = some (R (Spec.distribute r π))) ∧
      ∀ p ∈ as, ∀ π, angInt o (Spec.distribute p.1 π) p.2.1 = some (A (Spec.distribute p.1 π) p.2.1)) := by
  intro o
  refine ⟨⟨_, exObj_relabel σ _ _ _⟩, fun t => (radInt o t [1, 1] none).getD 0, fun t d => (angInt o t d).getD 0, ?_, ?_⟩
  · intro π
    have hp : ∀ b (k : Fin 3), ∃ p, o.attr (name b (k + 1)) = some p ∧ p.length = 2 := fun b k =>
      ⟨_, exObj_attr _ _ _ b k, rfl⟩
    obtain ⟨v, hv⟩ := radInt_exists o (Spec.distribute r π) [1, 1] none 2 rfl rfl (hp _ 0) (hp _ 1) (hp _ 2)
    simp [hv]
  · intro p _ π
    obtain ⟨v, hv⟩ := angInt_two o (Spec.distribute p.1 π) p.2.1 ![2, 1, 1] ![true, false, false] rfl rfl rfl rfl rfl
      fun b k => ⟨_, exObj_attr _ _ _ b k, rfl⟩
    simp [hv]

/-- Non-vacuity of the self-coupling theorems: one axisymmetric mode coupled to itself, with non-zero
integrals. -/
example : ∃ o, Identical o ∧ (∃ R, R ≠ 0 ∧
    radInt o ("_rad_diverg", "_z_2_over_c_1_omega", "_rad_der_x_z_2_c_1_omega") [1, 1] none = some R) ∧
    (∃ A, A ≠ 0 ∧ angInt o ("hr", "ht", "ht") false = some A) ∧ ∃ A, angInt o ("hr", "hp", "hp") false = some A := by
  refine ⟨exObj (fun _ _ => [1, 1]) 0 ![true, false, false], ?_, ?_, ?_, ?_⟩
  · intro b k
    have h0 := attrs_name (fun _ _ => [1, 1]) b 0
    simp only [Nat.reduceAdd, Fin.val_zero] at h0
    simp only [exObj, attrs_name]
    exact h0.symm
  · have e : ([1, 1] : List ℝ) = tab 2 (fun _ => 1) := by simp [tab, List.range_succ]
    have ha : ∀ b (k : Fin 3), attrs (fun _ _ => [1, 1]) (name b (k + 1)) = some (tab 2 fun _ => 1) := by
      intro b k; rw [attrs_name, e]
    have := (C50_radial (exObj (fun _ _ => [1, 1]) 0 ![true, false, false])
      ("_rad_diverg", "_z_2_over_c_1_omega", "_rad_der_x_z_2_c_1_omega") 2 (fun _ => 1) (fun _ => 1) (fun _ => 1)
      (fun _ => 1) (fun i => i + 1) (by simp [exObj, tab, List.range_succ]; norm_num) (ha _ 0) (ha _ 1) (ha _ 2)).1
    rw [← e] at this
    refine ⟨_, ?_, this⟩
    simp [trapSum]; norm_num
  · have h : AngInt.thetaIntegral (angObj (exObj (fun _ _ => [1, 1]) 0 ![true, false, false]))
        [name ("_" ++ "hr") 1, name ("_" ++ "ht") 2, name ("_" ++ "ht") 3]
        (angOpts (exObj (fun _ _ => [1, 1]) 0 ![true, false, false]) false) = .ok 1 := by
      have a1 := attrs_name (fun _ _ => [1, 1]) ("_" ++ "hr") 0
      have a2 := attrs_name (fun _ _ => [1, 1]) ("_" ++ "ht") 1
      have a3 := attrs_name (fun _ _ => [1, 1]) ("_" ++ "ht") 2
      have hprod : AngInt.product (angObj (exObj (fun _ _ => [1, 1]) 0 ![true, false, false]))
          [name ("_" ++ "hr") 1, name ("_" ++ "ht") 2, name ("_" ++ "ht") 3] = some [1, 1] := by
        rw [product_combine]; simp only [angObj, exObj]
        erw [a1, a2, a3]; simp [combine, mul]
      have hreg := AngInt.regular_tab "trapz" 2 le_rfl rfl (fun i : ℕ => -1 / 2 + (i : ℝ)) (fun _ => 1)
      have e1 : tab 2 (fun i : ℕ => -1 / 2 + (i : ℝ)) = [-1 / 2, 1 / 2] := by
        simp [tab, List.range_succ]; norm_num
      have e2 : tab 2 (fun _ => (1 : ℝ)) = [1, 1] := by simp [tab, List.range_succ]
      rw [e1, e2] at hreg
      norm_num at hreg
      rw [AngInt.thetaIntegral, hprod]
      simp [angOpts, exObj, angObj]
      norm_num
      rw [hreg]
    have h2 := AngInt.C48_otherwise _ _ (some [0, 0, 0]) false (.tuple [true, false, false]) _ 1 h
      (Or.inr (Or.inr ⟨0, 0, 0, true, false, false, rfl, rfl, by decide⟩))
    refine ⟨2 * Real.pi * 1, by positivity, ?_⟩
    unfold angInt
    exact congrArg val h2
  · exact angInt_two (exObj (fun _ _ => [1, 1]) 0 ![true, false, false]) ("hr", "hp", "hp") false 0 ![true, false, false]
      rfl rfl rfl rfl rfl fun b k => ⟨_, exObj_attr _ _ _ b k, rfl⟩

end
end Verif.Coupling
