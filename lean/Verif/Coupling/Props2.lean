import Verif.Coupling.Example
/-!
# Properties C66–C69: selection rule, radial profile, amplitude scaling, mode norms
-/
namespace Verif.Coupling
open Finset Equiv NumInt NumInt.Spec
noncomputable section

/-- The radial quantities that enter the coefficient. -/
def radialNames : List String :=
  ["_rad_der_x_z_1", "_rad_diverg", "_z_2_over_c_1_omega", "_z_1", "_rad_der_x_z_2_c_1_omega"]
/-- The angular quantities that enter the coefficient. -/
def angularNames : List String :=
  ["hr", "ht", "hp", "mhr", "theta_der_hr_theta", "theta_der_ht_theta", "theta_der_hp_theta", "phi_phi", "theta_phi"]

/-- The radial data of an object are complete: all on the grid of `n` points. -/
structure RadiallyComplete (o : Obj) (n : ℕ) : Prop where
  x : o.x.length = n
  P : o.PNormed.length = n
  rho : o.rhoNormed.length = n
  gamma : o.Gamma1.length = n
  der : ∀ r d, o.rhoGammaDer = some (r, d) → r.length = n ∧ d.length = n
  g1 : o.dgrav.length = n
  g2 : o.dgrav2.length = n
  g3 : o.dgrav3.length = n
  prof : ∀ b ∈ radialNames, ∀ k : Fin 3, ∃ p, o.attr (name b (k + 1)) = some p ∧ p.length = n

/-- A term of radial names. -/
def IsRadial (t : Term) : Prop := t.1 ∈ radialNames ∧ t.2.1 ∈ radialNames ∧ t.2.2 ∈ radialNames

instance (t : Term) : Decidable (IsRadial t) := by unfold IsRadial; infer_instance

theorem act_mem (P : String → Prop) (t : Term) (h : P t.1 ∧ P t.2.1 ∧ P t.2.2) (π : Perm (Fin 3)) :
    P (act t π).1 ∧ P (act t π).2.1 ∧ P (act t π).2.2 := by
  have key : ∀ k, P (t.get k) := by
    intro k; fin_cases k
    · exact h.1
    · exact h.2.1
    · exact h.2.2
  exact ⟨key _, key _, key _⟩

theorem RadiallyComplete.radInt {o : Obj} {n : ℕ} (h : RadiallyComplete o n) (t : Term) (ht : IsRadial t) (mult : List ℝ)
    (hm : mult.length = n) (idx : Option ℕ) : ∃ v, Coupling.radInt o t mult idx = some v :=
  radInt_exists o t mult idx n h.x hm (h.prof _ ht.1 0) (h.prof _ ht.2.1 1) (h.prof _ ht.2.2 2)

theorem mul_length (a b : List ℝ) (n : ℕ) (ha : a.length = n) (hb : b.length = n) : (mul a b).length = n := by
  simp [mul, ha, hb]

theorem RadiallyComplete.mults {o : Obj} {n : ℕ} (h : RadiallyComplete o n) :
    (mult1 o).length = n ∧ (mult2 o).length = n ∧ (mult4a o).length = n ∧ (mult4b o).length = n := by
  refine ⟨?_, ?_, ?_, ?_⟩
  · simp [mult1, mul, h.P, h.gamma]
  · unfold mult2
    split
    · simp [mul, h.P, h.gamma]
    · split
      · next r d e =>
        obtain ⟨h1, h2⟩ := h.der r d e
        simp [mul, h.P, h.gamma, h1, h2]
      · simp [mul, h.P, h.gamma]
  · simp [mult4a, mult4, mul, h.rho, h.x, h.g1, h.g2]
  · simp [mult4b, mult4, mul, h.rho, h.x, h.g3]

/-! ### C66 -/

theorem sym_zero (o : Obj) (n : ℕ) (h : RadiallyComplete o n) (hz : ∀ t d, angInt o t d = some 0) (g : Garbage)
    (hg : GoodGarbage g) (j : ℕ) (r : Term) (hr : IsRadial r) (mult : List ℝ) (hm : mult.length = n)
    (angs : List (Term × Bool × ℝ)) (idx : Option ℕ) : sym o g j r mult angs idx = some 0 := by
  unfold sym
  cases hs : o.selfCoupling with
  | false =>
    have hR : ∀ π, Coupling.radInt o (Spec.distribute r π) mult idx =
        some ((Coupling.radInt o (Spec.distribute r π) mult idx).getD 0) := by
      intro π
      obtain ⟨v, hv⟩ := h.radInt (act r π) (act_mem (· ∈ radialNames) r hr π) mult hm idx
      have hv : Coupling.radInt o (Spec.distribute r π) mult idx = some v := hv
      rw [hv]; rfl
    rw [C50_S_operator_single o hs _ _ (hg j).1 (hg j).2 r 1 angs mult idx
      (fun t => (Coupling.radInt o t mult idx).getD 0) (fun _ _ => 0) hR (fun _ _ _ => hz _ _)]
    simp [Spec.S]
  | true =>
    rw [sTerm, if_pos hs]
    have hf : ∀ (l : List (Term × Bool)), l.foldlM (fun acc (p : Term × Bool) => do
          let v ← angInt o p.1 p.2
          pure (acc + v)) (0 : ℝ) = some 0 := by
      intro l
      induction l with
      | nil => rfl
      | cons p l ih => rw [List.foldlM_cons, hz]; simpa using ih
    simp only [hf]
    simp

theorem sym1_eq_sym (o : Obj) (g : Garbage) (hg : GoodGarbage g) (j : ℕ) (r : Term) (mult : List ℝ) (a : Term) (idx : Option ℕ)
    : sym1 o g j r mult a idx = sym o g j r mult [(a, false, 1)] idx := by
  unfold sym1 sym sTerm
  cases hs : o.selfCoupling with
  | false =>
    simp only [Bool.false_eq_true, if_false]
    rw [determiner_eq _ _ (hg j).1 (hg j).2, determiner_eq _ _ (hg j).1 (hg j).2]
    rfl
  | true =>
    simp only [if_true, List.map_cons, List.map_nil, List.zip_cons_cons, List.zip_nil_left, List.foldlM_cons,
      List.foldlM_nil, zero_add]
    cases angInt o a false <;> simp

/-- **C66.** When the azimuthal orders, reversed for the conjugated modes, do not sum to zero, the
coupling coefficient and its four terms are exactly zero (in the self-coupling case too), for every
radial slice. -/
theorem C66_selection_rule (o : Obj) (n : ℕ) (h : RadiallyComplete o n) (m1 m2 m3 : ℤ) (a b c : Bool)
    (hm : o.mList = [m1, m2, m3]) (hc : AngInt.conjugated o.conj = some (a, b, c))
    (hs : AngInt.sgn a * m1 + AngInt.sgn b * m2 + AngInt.sgn c * m3 ≠ 0) (g : Garbage) (hg : GoodGarbage g)
    (idx : Option ℕ) : coupling o g idx = some (0, [0, 0, 0, 0]) := by
  have hz : ∀ t d, angInt o t d = some 0 := by
    intro t d
    unfold angInt
    rw [hm, AngInt.C48_vanishes _ _ _ _ _ _ _ _ _ _ hc hs]; rfl
  have hsym := sym_zero o n h hz g hg
  have hsym1 := fun j r hr mult hmul a idx => (sym1_eq_sym o g hg j r mult a idx).trans
    (hsym j r hr mult hmul [(a, false, 1)] idx)
  obtain ⟨l1, l2, l4, l5⟩ := h.mults
  have hr := fun t ht mult hmul => h.radInt t ht mult hmul idx
  have k1 : kappa1 o g idx = some 0 := by
    unfold kappa1
    simp (disch := first | assumption | decide) only [hsym, hsym1]
    simp
  have k2 : kappa2 o idx = some 0 := by
    unfold kappa2
    obtain ⟨v, hv⟩ := hr ("_rad_diverg", "_rad_diverg", "_rad_diverg") (by simp [IsRadial, radialNames]) _ l2
    simp [hv, hz]
  have k3 : kappa3 o g idx = some 0 := by
    unfold kappa3
    obtain ⟨v1, hv1⟩ := hr ("_rad_der_x_z_1", "_rad_der_x_z_1", "_rad_der_x_z_1") (by simp [IsRadial, radialNames]) _ h.P
    obtain ⟨v2, hv2⟩ := hr ("_z_1", "_z_1", "_z_1") (by simp [IsRadial, radialNames]) _ h.P
    obtain ⟨v3, hv3⟩ := hr ("_z_2_over_c_1_omega", "_z_2_over_c_1_omega", "_z_2_over_c_1_omega")
      (by simp [IsRadial, radialNames]) _ h.P
    have hP := h.P
    simp (disch := first | assumption | decide) only [hsym, hv1, hv2, hv3, hz]
    simp
  have k4 : kappa4 o g idx = some 0 := by
    unfold kappa4
    obtain ⟨v2, hv2⟩ := hr ("_z_1", "_z_1", "_z_1") (by simp [IsRadial, radialNames]) _ l5
    simp (disch := first | assumption | decide) only [hsym, hv2, hz]
    simp
  simp [coupling, k1, k2, k3, k4]

/-- Non-vacuity: orders 2, 1, 0 with the first mode conjugated. -/
example : ∃ o, RadiallyComplete o 2 ∧ o.mList = [2, 1, 0] ∧ AngInt.conjugated o.conj = some (true, false, false) ∧
    AngInt.sgn true * 2 + AngInt.sgn false * 1 + AngInt.sgn false * 0 ≠ 0 := by
  refine ⟨exObj (fun _ _ => [1, 2]) ![2, 1, 0] ![true, false, false],
    ⟨rfl, rfl, rfl, rfl, fun r d h => by simp [exObj] at h, rfl, rfl, rfl, fun b _ k => ⟨_, exObj_attr _ _ _ b k, rfl⟩⟩,
    rfl, rfl, by decide⟩

/-! ### C67: the radial profile -/

theorem sTerm_garbage (o : Obj) (g1 g2 g1' g2' : List ℝ) (h1 : g1.length = 6) (h2 : g2.length = 6) (h1' : g1'.length = 6)
    (h2' : g2'.length = 6) (r : Rad) (a : Ang) (mult af rf : List ℝ) (idx : Option ℕ) :
    sTerm o g1' g2' r mult a af rf idx = sTerm o g1 g2 r mult a af rf idx := by
  unfold sTerm
  split
  · rfl
  · rw [determiner_eq _ _ h1' h2', determiner_eq _ _ h1 h2]

theorem coupling_garbage (o : Obj) (g g' : Garbage) (hg : GoodGarbage g) (hg' : GoodGarbage g') (idx : Option ℕ) :
    coupling o g' idx = coupling o g idx := by
  have e1 : ∀ j r mult angs, sym o g' j r mult angs idx = sym o g j r mult angs idx := fun j r mult angs =>
    sTerm_garbage o _ _ _ _ (hg j).1 (hg j).2 (hg' j).1 (hg' j).2 _ _ _ _ _ _
  have e2 : ∀ j r mult a, sym1 o g' j r mult a idx = sym1 o g j r mult a idx := fun j r mult angs =>
    sTerm_garbage o _ _ _ _ (hg j).1 (hg j).2 (hg' j).1 (hg' j).2 _ _ _ _ _ _
  unfold coupling kappa1 kappa2 kappa3 kappa4
  simp only [e1, e2]

theorem radInt_full (o : Obj) (t : Term) (mult : List ℝ) (i : ℕ) (hi : o.x.length ≤ i) :
    radInt o t mult (some i) = radInt o t mult none := by
  rw [radInt_combine, radInt_combine]
  congr 1
  funext p
  unfold radOf
  split
  · next h =>
    have hc : ∀ l : List ℝ, l.length ≤ o.x.length → cut (some i) l = l := by
      intro l hl; simp only [cut]; exact List.take_of_length_le (hl.trans hi)
    unfold radint
    rw [hc _ (by simp [mul]), hc _ le_rfl]
    rfl
  · rfl

theorem sTerm_full (o : Obj) (g1 g2 : List ℝ) (r : Rad) (a : Ang) (mult af rf : List ℝ) (i : ℕ) (hi : o.x.length ≤ i) :
    sTerm o g1 g2 r mult a af rf (some i) = sTerm o g1 g2 r mult a af rf none := by
  unfold sTerm symmetryDeterminer radColumns
  simp only [radInt_full o _ mult i hi]

theorem coupling_full (o : Obj) (g : Garbage) (i : ℕ) (hi : o.x.length ≤ i) : coupling o g (some i) = coupling o g none := by
  unfold coupling kappa1 kappa2 kappa3 kappa4 sym sym1
  simp only [sTerm_full o _ _ _ _ _ _ _ i hi, radInt_full o _ _ i hi]

theorem profile_fold (o : Obj) (g : ℕ → Garbage) (c : ℕ → ℝ) (s k : ℕ) (arr : List ℝ) (hs : 1 ≤ s)
    (hc : ∀ i, s ≤ i → i < s + k → ∃ l, coupling o (g i) (some i) = some (c i, l)) :
    ∃ out, (List.range' s k).foldlM (fun arr i => do
      let v ← coupling o (g i) (some i)
      pure (arr.set (i - 1) v.1)) arr = some out ∧ out.length = arr.length ∧
      ∀ j, out[j]? = if s ≤ j + 1 ∧ j + 1 < s + k then (if j < arr.length then some (c (j + 1)) else none) else arr[j]? := by
  induction k generalizing s arr with
  | zero => exact ⟨arr, rfl, rfl, fun j => by rw [if_neg (by omega)]⟩
  | succ k ih =>
    obtain ⟨l, hl⟩ := hc s le_rfl (by omega)
    obtain ⟨out, h1, h2, h3⟩ := ih (s + 1) (arr.set (s - 1) (c s)) (by omega)
      (fun i hi hi' => hc i (by omega) (by omega))
    refine ⟨out, ?_, by simpa using h2, ?_⟩
    · rw [List.range'_succ, List.foldlM_cons, hl]
      simpa using h1
    · intro j
      rw [h3 j]
      by_cases hj : j + 1 = s
      · have hj' : s - 1 = j := by omega
        rw [if_neg (by omega), if_pos (by omega), hj', List.getElem?_set_self', hj]
        by_cases hlen : j < arr.length <;> simp [hlen]
      · by_cases h5 : s ≤ j + 1 ∧ j + 1 < s + (k + 1)
        · rw [if_pos (by omega), if_pos h5]; simp
        · rw [if_neg (by omega), if_neg h5, List.getElem?_set_ne (by omega)]

/-- **C67.** When the coefficient can be computed on every slice, the radial profile has one entry per
grid point; the first one is zero, entry `j` is the coefficient restricted to the first `j + 1` points,
and the last one (of at least two points) is the coupling coefficient itself. -/
theorem C67_profile (o : Obj) (g : ℕ → Garbage) (g0 : Garbage) (hg : ∀ i, GoodGarbage (g i)) (hg0 : GoodGarbage g0)
    (hn : 2 ≤ o.x.length) (c : ℕ → ℝ)
    (hc : ∀ i, 2 ≤ i → i ≤ o.x.length → ∃ l, coupling o g0 (some i) = some (c i, l)) :
    ∃ out, profile o g = some out ∧ out.length = o.x.length ∧ out[0]? = some 0 ∧
      (∀ j, 1 ≤ j → j < o.x.length → out[j]? = some (c (j + 1))) ∧
      ∃ l, coupling o g0 none = some (out.getD (o.x.length - 1) 0, l) := by
  have hc' : ∀ i, 2 ≤ i → i < 2 + (o.x.length - 1) → ∃ l, coupling o (g i) (some i) = some (c i, l) := by
    intro i h1 h2
    rw [coupling_garbage o g0 (g i) hg0 (hg i)]
    exact hc i h1 (by omega)
  obtain ⟨out, h1, h2, h3⟩ := profile_fold o g c 2 (o.x.length - 1) (o.x.map fun _ => 0) (by norm_num) hc'
  have hlen : out.length = o.x.length := by simpa using h2
  have hent : ∀ j, 1 ≤ j → j < o.x.length → out[j]? = some (c (j + 1)) := by
    intro j hj hj'
    rw [h3 j, if_pos (by omega), if_pos (by simpa using hj')]
  refine ⟨out, h1, hlen, ?_, hent, ?_⟩
  · rw [h3 0, if_neg (by omega)]
    have : 0 < o.x.length := by omega
    simp [this]
  · obtain ⟨l, hl⟩ := hc o.x.length hn le_rfl
    refine ⟨l, ?_⟩
    rw [coupling_full o g0 _ le_rfl] at hl
    have := hent (o.x.length - 1) (by omega) (by omega)
    rw [List.getD_eq_getElem?_getD, this, show o.x.length - 1 + 1 = o.x.length by omega]
    exact hl

/-- Non-vacuity: the forbidden triad above has a profile on every slice (all zeros). -/
example : ∃ o : Obj, ∃ g0, GoodGarbage g0 ∧ 2 ≤ o.x.length ∧ ∀ i, ∃ l, coupling o g0 (some i) = some (0, l) := by
  refine ⟨exObj (fun _ _ => [1, 2]) ![2, 1, 0] ![true, false, false], fun _ => ([0, 0, 0, 0, 0, 0], [0, 0, 0, 0, 0, 0]),
    fun _ => ⟨rfl, rfl⟩, by simp [exObj], fun i => ⟨_, C66_selection_rule _ 2
      ⟨rfl, rfl, rfl, rfl, fun r d h => by simp [exObj] at h, rfl, rfl, rfl, fun b _ k => ⟨_, exObj_attr _ _ _ b k, rfl⟩⟩
      2 1 0 true false false rfl rfl (by decide) _ (fun _ => ⟨rfl, rfl⟩) _⟩⟩

/-- **C70.** A conjugation setting that is True or a tuple of three flags is used as it is; when nothing
is given the first mode is conjugated. -/
theorem C70_conjugation_partial :
    (∀ a b c, AngInt.conjugated (conjCC (.tuple [a, b, c])) = some (a, b, c)) ∧
    AngInt.conjugated (conjCC (.flag true)) = some (true, false, false) ∧
    AngInt.conjugated (conjCC .none) = some (true, false, false) :=
  ⟨fun _ _ _ => rfl, rfl, rfl⟩

/-- **C70, refuted for False.** A triad whose azimuthal orders sum to zero couples when no mode is
conjugated; asked for with `conj_cc = False`, its coefficient is nevertheless zero unless the first order
is zero, because the setting is replaced by the default. -/
theorem C70_false_wrong (o : Obj) (n : ℕ) (h : RadiallyComplete o n) (m1 m2 m3 : ℤ)
    (hm : o.mList = [m1, m2, m3]) (hsum : m1 + m2 + m3 = 0) (h1 : m1 ≠ 0) (g : Garbage) (hg : GoodGarbage g)
    (idx : Option ℕ) :
    AngInt.conjugated (.flag false) = some (false, false, false) ∧
    AngInt.adapt (.flag false) o.mList = .ok o.mList ∧ AngInt.selectionRule o.mList = true ∧
    coupling { o with conj := conjCC (.flag false) } g idx = some (0, [0, 0, 0, 0]) := by
  refine ⟨rfl, ?_, ?_, ?_⟩
  · rw [hm]; rfl
  · rw [hm]; simp [AngInt.selectionRule]; omega
  · refine C66_selection_rule { o with conj := conjCC (.flag false) } n
      ⟨h.x, h.P, h.rho, h.gamma, h.der, h.g1, h.g2, h.g3, h.prof⟩ m1 m2 m3 true false false hm rfl ?_ g hg idx
    simp [AngInt.sgn]; omega

/-- Non-vacuity: a complete object with orders 2, -1, -1. -/
example : ∃ o : Obj, RadiallyComplete o 2 ∧ o.mList = [2, -1, -1] :=
  ⟨exObj (fun _ _ => [1, 2]) ![2, -1, -1] ![true, false, false],
    ⟨rfl, rfl, rfl, rfl, fun r d h => by simp [exObj] at h, rfl, rfl, rfl, fun b _ k => ⟨_, exObj_attr _ _ _ b k, rfl⟩⟩, rfl⟩

end
end Verif.Coupling
