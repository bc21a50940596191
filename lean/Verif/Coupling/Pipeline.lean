import Verif.Coupling.PipelineModel
import Verif.Coupling.Norms
import Verif.Coupling.Example
import Verif.Norm.Props
/-! # C92, C93: normalisation of the modes and the normalised coefficient -/
namespace Verif.Coupling
noncomputable section
open Real Classical

/-- `o'` is `o` with all radial functions of mode `k` multiplied by `c k` and all its Hough functions by `d k`. -/
structure Rescaled (c d : Fin 3 → ℝ) (o o' : Obj) : Prop where
  rad : ∀ b ∈ params o, ∀ k : Fin 3, o'.attr (name b (k + 1)) = (o.attr (name b (k + 1))).map (List.map (c k * ·))
  ang : ∀ b ∈ functionalNames, ∀ k : Fin 3,
    o'.attr (name ("_" ++ b) (k + 1)) = (o.attr (name ("_" ++ b) (k + 1))).map (List.map (d k * ·))
  rest : o' = { o with attr := o'.attr }

theorem angular_functional : ∀ b ∈ angularNames, b ∈ functionalNames := by decide
theorem radial_params (o : Obj) : ∀ b ∈ radialNames ++ ["_x_z_1", "_x_z_2_over_c_1_omega"], b ∈ params o := by
  unfold params; split <;> decide
theorem params_not_functional (o : Obj) : ∀ b ∈ params o, ∀ b' ∈ functionalNames, b ≠ "_" ++ b' := by
  unfold params; split <;> decide
theorem params_nodup (o : Obj) : (params o).Nodup := by unfold params; split <;> decide

theorem Rescaled.params {c d : Fin 3 → ℝ} {o o' : Obj} (h : Rescaled c d o o') : Coupling.params o' = Coupling.params o := by
  rw [h.rest]; rfl

theorem Rescaled.scaled {c d : Fin 3 → ℝ} {o o' : Obj} (h : Rescaled c d o o') : Scaled c d o o' where
  rad b hb := h.rad b (radial_params o b hb)
  ang b hb := h.ang b (angular_functional b hb)
  rest := h.rest

/-- Rescaling twice. -/
theorem Rescaled.trans {c d c' d' : Fin 3 → ℝ} {o o1 o2 : Obj} (h : Rescaled c d o o1) (h' : Rescaled c' d' o1 o2) :
    Rescaled (fun k => c k * c' k) (fun k => d k * d' k) o o2 where
  rad b hb k := by
    rw [h'.rad b (by rw [h.params]; exact hb) k, h.rad b hb k, Option.map_map]
    congr 1; funext l; simp only [Function.comp, List.map_map]; congr 1; funext x; simp only [Function.comp]; ring
  ang b hb k := by
    rw [h'.ang b hb k, h.ang b hb k, Option.map_map]
    congr 1; funext l; simp only [Function.comp, List.map_map]; congr 1; funext x; simp only [Function.comp]; ring
  rest := by rw [h'.rest, h.rest]

/-- Two rescalings of one object differ by the ratio of the factors. -/
theorem Rescaled.ratio {c d c' d' e f : Fin 3 → ℝ} {o o1 o2 : Obj} (h : Rescaled c d o o1) (h' : Rescaled c' d' o o2)
    (he : ∀ k, c' k = e k * c k) (hf : ∀ k, d' k = f k * d k) : Rescaled e f o1 o2 where
  rad b hb k := by
    rw [h.params] at hb
    rw [h'.rad b hb k, h.rad b hb k, Option.map_map]
    congr 1; funext l; simp only [Function.comp, List.map_map]; congr 1; funext x; simp only [Function.comp, he]; ring
  ang b hb k := by
    rw [h'.ang b hb k, h.ang b hb k, Option.map_map]
    congr 1; funext l; simp only [Function.comp, List.map_map]; congr 1; funext x; simp only [Function.comp, hf]; ring
  rest := by rw [h'.rest, h.rest]

/-! ### Hough functions -/

theorem regular_scale (m : String) (c : ℝ) (f x : List ℝ) :
    AngInt.regular m (f.map (c * ·)) x = (AngInt.regular m f x).map (c * ·) := by
  unfold AngInt.regular
  exact NumInt.cni_scale c _ _ _ _ _ _ _

theorem leeFactor_scale (mu hr : List ℝ) (d : ℝ) :
    AngInt.leeFactor mu (hr.map (d * ·)) = (AngInt.leeFactor mu hr).map (· / |d|) := by
  unfold AngInt.leeFactor
  have e : (hr.map (d * ·)).map (fun v => v ^ 2) = (hr.map fun v => v ^ 2).map (d ^ 2 * ·) := by
    simp only [List.map_map]; congr 1; funext x; simp only [Function.comp]; ring
  rw [e, regular_scale, Option.map_map, Option.map_map]
  congr 1; funext I
  simp only [Function.comp]
  have : 2 * π * (d ^ 2 * I) = d ^ 2 * (2 * π * I) := by ring
  rw [this, Real.sqrt_mul (sq_nonneg d), Real.sqrt_sq_eq_abs, div_div, mul_comm]

theorem pratFactor_scale (hr : List ℝ) (d : ℝ) : AngInt.pratFactor (hr.map (d * ·)) = AngInt.pratFactor hr / |d| := by
  unfold AngInt.pratFactor
  have e : ((hr.map (d * ·)).map abs).foldr max 0 = |d| * (hr.map abs).foldr max 0 := by
    induction hr with
    | nil => simp
    | cons a t ih =>
      simp only [List.map_cons, List.foldr_cons] at ih ⊢
      rw [ih, abs_mul, mul_max_of_nonneg _ _ (abs_nonneg d)]
  rw [e, div_div, mul_comm]

theorem houghFactor_scale (p : HoughNorm) (mu hr : List ℝ) (d f : ℝ) (hd : d ≠ 0) (h : houghFactor p mu hr = some f) :
    houghFactor p mu (hr.map (d * ·)) = some (f / |d|) := by
  have hp : 0 < |d| := abs_pos.2 hd
  cases p with
  | lee2012 =>
    simp only [houghFactor] at h ⊢
    rw [leeFactor_scale]
    obtain ⟨g, hg, h⟩ := Option.bind_eq_some_iff.1 h
    split_ifs at h with h0
    cases h
    simp [hg, div_pos h0 hp]
  | prat2019 =>
    simp only [houghFactor] at h ⊢
    rw [pratFactor_scale]
    split_ifs at h with h0
    cases h
    rw [if_pos (div_pos h0 hp)]

/-- What `_normalize_houghs` does to one mode. -/
theorem normalizeHough_spec (p : HoughNorm) (o o1 : Obj) (k : Fin 3) (h : normalizeHough p o (k + 1) = some o1) :
    ∃ hr f, o.attr (name "_hr" (k + 1)) = some hr ∧ houghFactor p o.mu hr = some f ∧
      (∀ b ∈ functionalNames, o1.attr (name ("_" ++ b) (k + 1)) = (o.attr (name ("_" ++ b) (k + 1))).map (List.map (f * ·))) ∧
      (∀ b (j : Fin 3), (j ≠ k ∨ ∀ b' ∈ functionalNames, b ≠ "_" ++ b') → o1.attr (name b (j + 1)) = o.attr (name b (j + 1))) ∧
      o1 = { o with attr := o1.attr } := by
  simp only [normalizeHough, Option.bind_eq_bind] at h
  obtain ⟨hr, e1, h⟩ := Option.bind_eq_some_iff.1 h
  obtain ⟨f, e2, h⟩ := Option.bind_eq_some_iff.1 h
  obtain ⟨a, e3, h⟩ := Option.bind_eq_some_iff.1 h
  cases h
  have hnd : (functionalNames.map fun n => name ("_" ++ n) ((k : ℕ) + 1)).Nodup := by
    refine List.Nodup.map_on ?_ (by decide)
    intro x _ y _ hxy
    have := (name_injective _ _ _ _ hxy).1
    have := congrArg String.toList this
    simp only [String.toList_append] at this
    exact String.toList_inj.1 (List.append_cancel_left this)
  have sp := Norm.scaleAll_spec _ hnd f _ _ e3
  refine ⟨hr, f, e1, e2, ?_, ?_, rfl⟩
  · intro b hb
    have := sp (name ("_" ++ b) (k + 1))
    rw [if_pos (List.mem_map_of_mem (f := fun n => name ("_" ++ n) ((k : ℕ) + 1)) hb)] at this
    exact this
  · intro b j hj
    have := sp (name b (j + 1))
    rw [if_neg] at this
    · exact this
    · intro hm
      obtain ⟨b', hb', e⟩ := List.mem_map.1 hm
      obtain ⟨h1, h2⟩ := name_injective _ _ _ _ e
      rcases hj with hj | hj
      · exact hj h2.symm
      · exact hj b' hb' h1.symm

/-- One mode, as a rescaling. -/
theorem normalizeHough_scaled (p : HoughNorm) (o o1 : Obj) (k : Fin 3) (h : normalizeHough p o (k + 1) = some o1) :
    ∃ hr f, o.attr (name "_hr" (k + 1)) = some hr ∧ houghFactor p o.mu hr = some f ∧
      Rescaled (fun _ => 1) (Function.update (fun _ => 1) k f) o o1 ∧
      o1.attr (name "_hr" (k + 1)) = some (hr.map (f * ·)) ∧
      ∀ j : Fin 3, j ≠ k → ∀ b, o1.attr (name b (j + 1)) = o.attr (name b (j + 1)) := by
  obtain ⟨hr, f, e1, e2, a1, a2, a3⟩ := normalizeHough_spec p o o1 k h
  refine ⟨hr, f, e1, e2, ⟨?_, ?_, a3⟩, ?_, fun j hj b => a2 b j (Or.inl hj)⟩
  · intro b hb j
    rw [a2 b j (Or.inr (params_not_functional o b hb))]
    simp
  · intro b hb j
    by_cases hj : j = k
    · subst hj; simp [a1 b hb]
    · rw [a2 _ j (Or.inl hj)]; simp [Function.update_of_ne hj]
  · have := a1 "hr" (by decide)
    have e : "_" ++ "hr" = "_hr" := by decide
    rw [e, e1] at this
    exact this

theorem houghs_unfold (p : HoughNorm) (o : Obj) : normalizeHoughs p o =
    (normalizeHough p o ((0 : Fin 3) + 1)).bind fun o1 => (normalizeHough p o1 ((1 : Fin 3) + 1)).bind fun o2 =>
      normalizeHough p o2 ((2 : Fin 3) + 1) := by
  simp [normalizeHoughs, List.foldlM_cons]

/-- All modes: each with the factor of its own radial Hough function. -/
theorem normalizeHoughs_scaled (p : HoughNorm) (o o' : Obj) (h : normalizeHoughs p o = some o') :
    ∃ (hr : Fin 3 → List ℝ) (f : Fin 3 → ℝ), (∀ k : Fin 3, o.attr (name "_hr" (k + 1)) = some (hr k)) ∧
      (∀ k, houghFactor p o.mu (hr k) = some (f k)) ∧ Rescaled (fun _ => 1) f o o' ∧
      ∀ k : Fin 3, o'.attr (name "_hr" (k + 1)) = some ((hr k).map (f k * ·)) := by
  rw [houghs_unfold] at h
  obtain ⟨o1, h1, h⟩ := Option.bind_eq_some_iff.1 h
  obtain ⟨o2, h2, h3⟩ := Option.bind_eq_some_iff.1 h
  obtain ⟨hr0, f0, a1, a2, a3, a4, a5⟩ := normalizeHough_scaled p o o1 0 h1
  obtain ⟨hr1, f1, b1, b2, b3, b4, b5⟩ := normalizeHough_scaled p o1 o2 1 h2
  obtain ⟨hr2, f2, c1, c2, c3, c4, c5⟩ := normalizeHough_scaled p o2 o' 2 h3
  have m1 : o1.mu = o.mu := by rw [a3.rest]
  have m2 : o2.mu = o.mu := by rw [b3.rest, m1]
  rw [b5 2 (by decide), a5 2 (by decide)] at c1
  rw [a5 1 (by decide)] at b1
  refine ⟨![hr0, hr1, hr2], ![f0, f1, f2], ?_, ?_, ?_, ?_⟩
  · intro k; fin_cases k
    · exact a1
    · exact b1
    · exact c1
  · intro k; fin_cases k
    · exact a2
    · rw [m1] at b2; exact b2
    · rw [m2] at c2; exact c2
  · have := (a3.trans b3).trans c3
    convert this using 1
    · simp
    · funext k; fin_cases k <;> simp
  · intro k; fin_cases k
    · have := c5 0 (by decide) "_hr"
      rw [b5 0 (by decide)] at this
      exact this.trans a4
    · exact (c5 1 (by decide) "_hr").trans b4
    · exact c4


/-- Normalising succeeds when all functions are there and have a norm. -/
theorem normalizeHough_total (p : HoughNorm) (o : Obj) (k : Fin 3) (hr : List ℝ) (f : ℝ)
    (ha : ∀ b ∈ functionalNames, (o.attr (name ("_" ++ b) (k + 1))).isSome) (h1 : o.attr (name "_hr" (k + 1)) = some hr)
    (h2 : houghFactor p o.mu hr = some f) : ∃ o1, normalizeHough p o (k + 1) = some o1 := by
  obtain ⟨b, hb⟩ := Norm.scaleAll_total (functionalNames.map fun n => name ("_" ++ n) ((k : ℕ) + 1)) f o.attr (by
    intro n hn
    obtain ⟨b, hb, rfl⟩ := List.mem_map.1 hn
    exact ha b hb)
  exact ⟨{ o with attr := b }, by simp [normalizeHough, h1, h2, hb]⟩

theorem scaleAll_some (c : ℝ) : ∀ (ps : List String) (a b : String → Option (List ℝ)), Norm.scaleAll ps c a = some b →
    ∀ n ∈ ps, (a n).isSome
  | [], _, _, _ => by simp
  | p :: ps, a, b, h => by
    simp only [Norm.scaleAll, List.foldlM_cons, Option.bind_eq_bind] at h
    obtain ⟨a1, h1, h2⟩ := Option.bind_eq_some_iff.1 h
    obtain ⟨v, hv, rfl⟩ := Option.map_eq_some_iff.1 h1
    have ih := scaleAll_some c ps _ b h2
    intro n hn
    by_cases e : n = p
    · subst e; simp [hv]
    · rcases List.mem_cons.1 hn with hn | hn
      · exact absurd hn e
      · simpa [e] using ih n hn

theorem normalizeHough_present (p : HoughNorm) (o o1 : Obj) (k : Fin 3) (h : normalizeHough p o (k + 1) = some o1) :
    ∀ b ∈ functionalNames, (o.attr (name ("_" ++ b) (k + 1))).isSome := by
  simp only [normalizeHough, Option.bind_eq_bind] at h
  obtain ⟨hr, e1, h⟩ := Option.bind_eq_some_iff.1 h
  obtain ⟨f, e2, h⟩ := Option.bind_eq_some_iff.1 h
  obtain ⟨a, e3, h⟩ := Option.bind_eq_some_iff.1 h
  intro b hb
  exact scaleAll_some f _ _ _ e3 _ (List.mem_map_of_mem (f := fun n => name ("_" ++ n) ((k : ℕ) + 1)) hb)

theorem normalizeHoughs_present (p : HoughNorm) (o o' : Obj) (h : normalizeHoughs p o = some o') (k : Fin 3) :
    ∀ b ∈ functionalNames, (o.attr (name ("_" ++ b) (k + 1))).isSome := by
  rw [houghs_unfold] at h
  obtain ⟨o1, h1, h⟩ := Option.bind_eq_some_iff.1 h
  obtain ⟨o2, h2, h3⟩ := Option.bind_eq_some_iff.1 h
  obtain ⟨_, _, _, _, _, _, a5⟩ := normalizeHough_scaled p o o1 0 h1
  obtain ⟨_, _, _, _, _, _, b5⟩ := normalizeHough_scaled p o1 o2 1 h2
  intro b hb
  fin_cases k
  · exact normalizeHough_present p o o1 0 h1 b hb
  · have := normalizeHough_present p o1 o2 1 h2 b hb
    rw [a5 1 (by decide)] at this; exact this
  · have := normalizeHough_present p o2 o' 2 h3 b hb
    rw [b5 2 (by decide), a5 2 (by decide)] at this; exact this

theorem normalizeHoughs_total (p : HoughNorm) (o : Obj) (hr : Fin 3 → List ℝ) (f : Fin 3 → ℝ)
    (ha : ∀ k : Fin 3, ∀ b ∈ functionalNames, (o.attr (name ("_" ++ b) (k + 1))).isSome)
    (h1 : ∀ k : Fin 3, o.attr (name "_hr" (k + 1)) = some (hr k)) (h2 : ∀ k, houghFactor p o.mu (hr k) = some (f k)) :
    ∃ o', normalizeHoughs p o = some o' := by
  rw [houghs_unfold]
  obtain ⟨o1, e1⟩ := normalizeHough_total p o 0 _ _ (ha 0) (h1 0) (h2 0)
  obtain ⟨_, _, _, _, a3, _, a5⟩ := normalizeHough_scaled p o o1 0 e1
  have m1 : o1.mu = o.mu := by rw [a3.rest]
  obtain ⟨o2, e2⟩ := normalizeHough_total p o1 1 (hr 1) (f 1) (fun b hb => by rw [a5 1 (by decide)]; exact ha 1 b hb)
    (by rw [a5 1 (by decide)]; exact h1 1) (by rw [m1]; exact h2 1)
  obtain ⟨_, _, _, _, b3, _, b5⟩ := normalizeHough_scaled p o1 o2 1 e2
  have m2 : o2.mu = o.mu := by rw [b3.rest, m1]
  obtain ⟨o3, e3⟩ := normalizeHough_total p o2 2 (hr 2) (f 2)
    (fun b hb => by rw [b5 2 (by decide), a5 2 (by decide)]; exact ha 2 b hb)
    (by rw [b5 2 (by decide), a5 2 (by decide)]; exact h1 2) (by rw [m2]; exact h2 2)
  refine ⟨o3, ?_⟩
  rw [e1, Option.bind_some, e2, Option.bind_some, e3]

theorem houghFactor_pos (p : HoughNorm) (mu hr : List ℝ) (f : ℝ) (h : houghFactor p mu hr = some f) : 0 < f := by
  cases p with
  | lee2012 =>
    simp only [houghFactor] at h
    obtain ⟨g, hg, h⟩ := Option.bind_eq_some_iff.1 h
    split_ifs at h with h0
    cases h; exact h0
  | prat2019 =>
    simp only [houghFactor] at h
    split_ifs at h with h0
    cases h; exact h0

end
end Verif.Coupling
