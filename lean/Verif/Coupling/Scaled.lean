import Verif.Coupling.Pipeline4
/-! # C93: which functions of the modes the constructor scales, and with which factors -/
namespace Verif.Coupling
noncomputable section
open Real Classical

namespace Spec
/-- The radial functions of a mode. -/
def radials : List String := ["_z_1", "_z_2", "_x_z_1", "_z_2_over_c_1_omega", "_x_z_2_over_c_1_omega", "_rad_der_x_z_1",
  "_rad_der_x_z_2_c_1_omega", "_rad_diverg"]
/-- Function `b` of mode `k` in `o'` is `f` times that in `o`. -/
def Times (o o' : Obj) (b : String) (k : Fin 3) (f : ℝ) : Prop :=
  ∃ l, o.attr (b ++ "_mode_" ++ toString ((k : ℕ) + 1)) = some l ∧
    o'.attr (b ++ "_mode_" ++ toString ((k : ℕ) + 1)) = some (l.map (f * ·))
end Spec

theorem scaleAll_other (c : ℝ) : ∀ (ps : List String) (a b : String → Option (List ℝ)), Norm.scaleAll ps c a = some b →
    ∀ n ∉ ps, b n = a n
  | [], _, _, h, _, _ => by cases h; rfl
  | p :: ps, a, b, h, n, hn => by
    rw [List.mem_cons, not_or] at hn
    simp only [Norm.scaleAll, List.foldlM_cons, Option.bind_eq_bind] at h
    obtain ⟨a1, h1, h2⟩ := Option.bind_eq_some_iff.1 h
    obtain ⟨v, hv, rfl⟩ := Option.map_eq_some_iff.1 h1
    rw [scaleAll_other c ps _ b h2 n hn.2, Function.update_of_ne hn.1]

theorem normalizeHough_other (p : HoughNorm) (o o' : Obj) (i j : Fin 3) (b : String) (hb : ∀ b' ∈ functionalNames, b ≠ "_" ++ b')
    (h : normalizeHough p o (i + 1) = some o') : o'.attr (name b (j + 1)) = o.attr (name b (j + 1)) ∧ o'.polytropic = o.polytropic := by
  simp only [normalizeHough, Option.bind_eq_bind] at h
  obtain ⟨hr, -, h⟩ := Option.bind_eq_some_iff.1 h
  obtain ⟨f, -, h⟩ := Option.bind_eq_some_iff.1 h
  obtain ⟨a, ha, h⟩ := Option.bind_eq_some_iff.1 h
  cases h
  refine ⟨scaleAll_other f _ _ _ ha _ ?_, rfl⟩
  rw [List.mem_map]
  rintro ⟨b', hb', e⟩
  exact hb b' hb' (name_injective _ _ i j e).1.symm

theorem normalizeHoughs_other (p : HoughNorm) (o o' : Obj) (j : Fin 3) (b : String) (hb : ∀ b' ∈ functionalNames, b ≠ "_" ++ b')
    (h : normalizeHoughs p o = some o') : o'.attr (name b (j + 1)) = o.attr (name b (j + 1)) ∧ o'.polytropic = o.polytropic := by
  rw [houghs_unfold] at h
  obtain ⟨o1, h1, h⟩ := Option.bind_eq_some_iff.1 h
  obtain ⟨o2, h2, h3⟩ := Option.bind_eq_some_iff.1 h
  obtain ⟨a1, b1⟩ := normalizeHough_other p o o1 0 j b hb h1
  obtain ⟨a2, b2⟩ := normalizeHough_other p o1 o2 1 j b hb h2
  obtain ⟨a3, b3⟩ := normalizeHough_other p o2 o' 2 j b hb h3
  exact ⟨by rw [a3, a2, a1], by rw [b3, b2, b1]⟩

theorem normalize_other (s : Setting) (o o2 : Obj) (E F : ℕ → ℝ) (h : normalize s o = some (o2, E, F)) (b : String) (hb : b ∉ params o)
    (j : Fin 3) : o2.attr (name b (j + 1)) = o.attr (name b (j + 1)) := by
  unfold normalize at h
  split_ifs at h
  simp only [Option.bind_eq_bind] at h
  obtain ⟨st, -, h⟩ := Option.bind_eq_some_iff.1 h
  cases h
  have step : ∀ (o' : Obj) (i : Fin 3) (a : String → Option (List ℝ)), o'.polytropic = o.polytropic →
      (withMode o' (i + 1) a).attr (name b (j + 1)) = o'.attr (name b (j + 1)) := by
    intro o' i a hp
    have : params o' = params o := by unfold params; rw [hp]
    rw [withMode_attr, if_neg]
    rintro ⟨-, hm⟩
    exact hb (this ▸ hm)
  simp only [List.foldl_cons, List.foldl_nil]
  have e0 := step o 0 (st.modes 1).attrs rfl
  have e1 := step (withMode o 1 (st.modes 1).attrs) 1 (st.modes 2).attrs rfl
  have e2 := step (withMode (withMode o 1 (st.modes 1).attrs) 2 (st.modes 2).attrs) 2 (st.modes 3).attrs rfl
  exact e2.trans (e1.trans e0)

/-- **C93.** The constructor multiplies all radial functions of a mode by the factor of the mode, for stars also the luminosity
perturbation, which polytropes need not have and keep. -/
theorem C93_functions (s : Setting) (p : HoughNorm) (o o2 : Obj) (E F : ℕ → ℝ) (h : construct s p o = some (o2, E, F)) (k : Fin 3) :
    (∀ b ∈ Spec.radials, Spec.Times o o2 b k (F (k + 1))) ∧
    if o.polytropic = true then o2.attr ("_lag_L_dim" ++ "_mode_" ++ toString ((k : ℕ) + 1)) =
      o.attr ("_lag_L_dim" ++ "_mode_" ++ toString ((k : ℕ) + 1)) else Spec.Times o o2 "_lag_L_dim" k (F (k + 1)) := by
  unfold construct at h
  obtain ⟨n, h1, h2⟩ := Option.bind_eq_some_iff.1 h
  obtain ⟨-, a2, a3⟩ := normalize_spec s n o2 E F h2
  have hp : n.polytropic = o.polytropic := (normalizeHoughs_other p o n 0 "_z_1" (by decide) h1).2
  have key : ∀ b ∈ params n, Spec.Times o o2 b k (F (k + 1)) := by
    intro b hb
    have e := (normalizeHoughs_other p o n k b (fun b' hb' => params_not_functional n b hb b' hb') h1).1
    obtain ⟨l, hl⟩ := Option.isSome_iff_exists.1 (a3 k b hb)
    refine ⟨l, by rw [← hl, e]; rfl, ?_⟩
    have := a2.rad b hb k
    rw [hl] at this
    exact this
  refine ⟨fun b hb => key b ?_, ?_⟩
  · unfold params
    split
    · exact (by decide : ∀ b ∈ Spec.radials, b ∈ Norm.enumRadialPoly) b hb
    · exact (by decide : ∀ b ∈ Spec.radials, b ∈ Norm.enumRadial) b hb
  · split_ifs with hpo
    · have h3 := normalize_other s n o2 E F h2 "_lag_L_dim" (by unfold params; rw [hp, if_pos hpo]; decide) k
      rw [(normalizeHoughs_other p o n k "_lag_L_dim" (by decide) h1).1] at h3
      exact h3
    · exact key _ (by unfold params; rw [hp, if_neg hpo]; decide)

/-- The concrete triad. -/
example (p : HoughNorm) : ∃ o2 E F, construct ⟨1, 1, 1, fun k => k⟩ p demo = some (o2, E, F) ∧ Spec.Times demo o2 "_z_1" 1 (F 2) := by

  obtain ⟨-, ⟨⟨o2, E, F⟩, h⟩, -⟩ := demo_normed p (fun _ => (List.replicate 6 0, List.replicate 6 0)) (fun _ => ⟨rfl, rfl⟩)
  exact ⟨o2, E, F, h, (C93_functions _ p demo o2 E F h 1).1 "_z_1" (by decide)⟩

end
end Verif.Coupling
