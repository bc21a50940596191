import Verif.Kernels.Claims
/-! # Property C105, continued: the values are determined; refutation for the third contribution -/
namespace Verif.Kernels
open Finset Equiv NumInt Coupling
noncomputable section

theorem nodup_unique {α β : Type} (l : List (α × β)) (h : (l.map (·.1)).Nodup) (a : α) (b b' : β) (h1 : (a, b) ∈ l)
    (h2 : (a, b') ∈ l) : b = b' := by
  have := List.inj_on_of_nodup_map h h1 h2 rfl
  exact (Prod.mk.inj this).2

theorem radLabels_nodup (nr : ℤ) : ((radLoads nr).map (·.label)).Nodup := by
  unfold radLoads
  split
  · simp [rad1]
  · split
    · simp [rad2]
    · split
      · simp [rad3]
      · simp [rad4]
theorem angLabels_nodup (nr : ℤ) : ((angLoads nr).map (·.label)).Nodup := by
  unfold angLoads
  split
  · simp [ang1]
  · split
    · simp [ang2]
    · split
      · simp [ang3]
      · simp [ang4]

theorem index_unique {l : List Term} (h : l.Nodup) (k k' : ℕ) (t : Term) (h1 : l[k]? = some t) (h2 : l[k']? = some t) : k = k' := by
  obtain ⟨b1, e1⟩ := List.getElem?_eq_some_iff.1 h1
  obtain ⟨b2, e2⟩ := List.getElem?_eq_some_iff.1 h2
  exact (List.Nodup.getElem_inj_iff h).1 (e1.trans e2.symm)

theorem leg_nodup (b : Bool) (t : Term) : (if b then keys t else [t]).Nodup := by
  cases b
  · simp
  · exact keys_nodup t

/-- **C105.** What the kernel data combine to is a unique number. -/
theorem C105_unique {o : RadObj} {S : Coupling.Spec.Star} {n N : ℕ} {μ : ℕ → ℝ} {M : Fin 3 → Coupling.Spec.Mode}
    (h : Spec.Scene o S n N μ M) (nr : ℤ) (hn : nr = 1 ∨ nr = 2 ∨ nr = 3 ∨ nr = 4) (ps : List Spec.Product) (i j : ℕ) (v v' : ℝ)
    (h1 : Spec.Combined o μ nr ps i j v) (h2 : Spec.Combined o μ nr ps i j v') : v = v' := by
  obtain ⟨dr, da, hr, ha, R, A, hs, rfl⟩ := h1
  obtain ⟨dr', da', hr', ha', R', A', hs', rfl⟩ := h2
  rw [radCall_eq h.rad nr hn] at hr hr'
  rw [angCall_eq h.ang nr hn] at ha ha'
  obtain rfl : _ = dr := by simpa using hr
  obtain rfl : _ = dr' := by simpa using hr'
  obtain rfl : _ = da := by simpa using ha
  obtain rfl : _ = da' := by simpa using ha'
  unfold Spec.combine
  congr 1
  refine List.map_congr_left fun p hp => sum_congr rfl fun π hπ => ?_
  obtain ⟨s1, s2⟩ := hs p hp π hπ
  obtain ⟨s1', s2'⟩ := hs' p hp π hπ
  congr 1
  · obtain ⟨e, he, k, row, hk, hrow, hv⟩ := s1
    obtain ⟨e', he', k', row', hk', hrow', hv'⟩ := s1'
    obtain rfl := nodup_unique _ (by rw [List.map_map]; exact radLabels_nodup nr) _ _ _ he he'
    obtain ⟨l, _, hl⟩ := List.mem_map.1 he
    obtain ⟨_, rfl⟩ := Prod.mk.inj hl
    obtain rfl := index_unique (leg_nodup _ _) _ _ _ hk hk'
    rw [hrow] at hrow'; cases hrow'
    rw [hv] at hv'; exact Option.some.inj hv'
  · congr 1
    refine List.map_congr_left fun a ha => ?_
    congr 1
    obtain ⟨e, he, k, row, w, hk, hrow, hv, hw⟩ := s2 a ha
    obtain ⟨e', he', k', row', w', hk', hrow', hv', hw'⟩ := s2' a ha
    obtain rfl := nodup_unique _ (by rw [List.map_map]; exact angLabels_nodup nr) _ _ _ he he'
    obtain ⟨l, _, hl⟩ := List.mem_map.1 he
    obtain ⟨_, rfl⟩ := Prod.mk.inj hl
    obtain rfl := index_unique (leg_nodup _ _) _ _ _ hk hk'
    rw [hrow] at hrow'; cases hrow'
    rw [hv] at hv'; cases hv'
    rw [hw, hw']

/-- The object of a star and three modes. -/
def sceneObj (S : Coupling.Spec.Star) (d : ℕ → ℝ) (n N : ℕ) (μ : ℕ → ℝ) (M : Fin 3 → Coupling.Spec.Mode) (E : ℝ) : RadObj :=
  ⟨Coupling.sampleObj S n N μ M .none, some (tab n S.P), some (tab n S.ρ), some (tab n d), E⟩

/-- Non-vacuity: every star and every triad make a scene. -/
theorem scene (S : Coupling.Spec.Star) (d : ℕ → ℝ) (n N : ℕ) (μ : ℕ → ℝ) (M : Fin 3 → Coupling.Spec.Mode) (E : ℝ) (hE : E ≠ 0)
    (hd : ∀ i, S.Γ' i = S.ρ i * d i) : Spec.Scene (sceneObj S d n N μ M E) S n N μ M where
  energy := hE
  rad :=
    { x := rfl, R := rfl, gamma := rfl, g1 := rfl, g2 := rfl, g3 := rfl, P := rfl, rho := rfl, der := ⟨d, rfl, hd⟩
      fn := by
        intro b hb k
        have key := attrs_name (fun b k => arrOf n N μ (M k) b) b k
        simp only [List.mem_cons, List.not_mem_nil, or_false] at hb
        rcases hb with rfl | rfl | rfl | rfl | rfl <;> exact key }
  ang :=
    { mu := rfl
      fn := by
        intro b hb k
        have key := attrs_name (fun b k => arrOf n N μ (M k) b) ("_" ++ b) k
        simp only [List.mem_cons, List.not_mem_nil, or_false] at hb
        rcases hb with rfl | rfl | rfl | rfl | rfl | rfl | rfl | rfl | rfl <;> exact key }

/-- **C105.** The array that the loading of an angular term computes and throws away is the kernel multiplied by exactly what its
entry declares: the factor, `μ`, and one over the sine. -/
theorem C105_lost_scaling (N : ℕ) (μ f : ℕ → ℝ) (m d : Bool) (c : ℝ) :
    scaled (tab N μ) m d c [tab N f] =
      [tab N fun j => c * (if m then μ j else 1) * f j / (if d then √(1 - μ j ^ 2) else 1)] := by
  have e1 : (tab N f).map (· * c) = tab N fun j => f j * c := by simp [tab]
  have e2 : (tab N μ).map (fun v => 1 / √(1 - v ^ 2)) = tab N fun j => 1 / √(1 - μ j ^ 2) := by simp [tab]
  unfold scaled
  simp only [List.map_cons, List.map_nil, e1, e2]
  cases m <;> cases d <;> simp only [if_true, if_false, Bool.false_eq_true, mul_tab] <;>
    (congr 2; funext j; ring)

set_option maxHeartbeats 4000000 in
/-- **C105 (refutation).** The kernels of the third contribution, scaled as declared, do not combine to the energy
density: for three modes with horizontal displacements only, at the equator, they give the wrong value. -/
theorem C105_third_wrong : ∃ (o : RadObj) (S : Coupling.Spec.Star) (n N : ℕ) (μ : ℕ → ℝ) (M : Fin 3 → Coupling.Spec.Mode),
    Spec.Scene o S n N μ M ∧ ∃ i j, i < n ∧ j < N ∧ μ j = 0 ∧ S.x i * S.R ≠ 0 ∧
      (∃ v, Spec.Combined o μ 3 (Spec.products3 fun _ _ _ => 1) i j v) ∧
      ∀ v : ℝ, Spec.Combined o μ 3 (Spec.products3 fun _ _ _ => 1) i j v →
        ((1 / 2 * v : ℝ) : ℂ) ≠ ((S.x i * S.R) ^ 3 / o.energy : ℝ) * Spec.density S μ M i j 2 := by
  let S : Coupling.Spec.Star := ⟨1, 1, 1, 1, 1, 0, 0, 0, 0⟩
  let A : Coupling.Spec.Mode := ⟨0, 0, 0, 1, 1, 0, 0, 1, 0, 0, 1, 0⟩
  obtain ⟨M, hM⟩ : ∃ M : Fin 3 → Coupling.Spec.Mode, ∀ k, M k = A := ⟨fun _ => A, fun _ => rfl⟩
  have hS := scene S 0 1 1 0 M 1 one_ne_zero (fun i => by simp [S])
  refine ⟨_, S, 1, 1, 0, M, hS, 0, 0, by norm_num, by norm_num, rfl, by simp [S], ?_, ?_⟩
  · exact ⟨_, shown_of hS.rad hS.ang 3 (by simp) 0 0 one_pos one_pos _ (fits_of _ _ (fits3 _)) _ rfl⟩
  · intro v hv
    have := C105_unique hS 3 (by simp) _ 0 0 v _ hv
      (shown_of hS.rad hS.ang 3 (by simp) 0 0 one_pos one_pos _ (fits_of _ _ (fits3 _)) _ rfl)
    rw [this, Spec.density, density_real, ← Complex.ofReal_mul, Ne, Complex.ofReal_inj]
    simp only [Spec.combine, Spec.products3, List.map_cons, List.map_nil, List.sum_cons, List.sum_nil]
    simp only [dist_act, rval, aval, radLoads, angLoads, rad3, ang3, find1, find2, String.reduceBEq, Int.reduceEq, if_true, if_false]
    simp only [Spec.Product.perms, if_true, if_false, Bool.false_eq_true, sum_singleton, ← sum_six, six, List.map_cons, List.map_nil,
      List.sum_cons, List.sum_nil, List.prod_cons, List.prod_nil, act0, act1, act2, act3, act4, act5, Spec.product, radFn_rv,
      angFn_av, Spec.structural, rv1, rv2, rv3, rv4, rv5, av1, av2, av3, av4, av5, av6, av7, av8, av9, div_one, Pi.one_apply,
      one_mul, mul_one, add_zero, neg_mul]
    unfold d2
    simp only [trace3, Matrix.mul_apply, Fin.sum_univ_three, U, Matrix.of_apply, Matrix.cons_val]
    simp [S, A, hM, sceneObj]
    norm_num

end
end Verif.Kernels
