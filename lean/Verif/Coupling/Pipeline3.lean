import Verif.Coupling.Pipeline2
/-! # C92 (Hough normalisation) and C93 (normalised modes and coefficient) -/
namespace Verif.Coupling
noncomputable section
open Real Classical

namespace Spec
/-- The sign of a nonzero number. -/
def sgn (x : ℝ) : ℝ := if 0 < x then 1 else -1

/-- The largest absolute value of an array is one. -/
def UnitPeak (hr : List ℝ) : Prop := (∀ v ∈ hr, |v| ≤ 1) ∧ ∃ v ∈ hr, |v| = 1

/-- The square of the function integrates to one over the sphere, with the integration used by the program. -/
def UnitNorm (mu hr : List ℝ) : Prop := ∃ I, AngInt.regular "trapz" (hr.map fun v => v ^ 2) mu = some I ∧ 2 * π * I = 1

/-- What each normalisation is meant to achieve. -/
def Normalised (p : HoughNorm) (mu hr : List ℝ) : Prop := match p with
  | .lee2012 => UnitNorm mu hr
  | .prat2019 => UnitPeak hr
end Spec

theorem sgn_eq (x : ℝ) (hx : x ≠ 0) : Spec.sgn x = x / |x| := by
  unfold Spec.sgn
  split_ifs with h
  · rw [abs_of_pos h, div_self hx]
  · have : x < 0 := lt_of_le_of_ne (not_lt.1 h) hx
    rw [abs_of_neg this, div_neg, div_self hx]

theorem sgn_sq (x : ℝ) : Spec.sgn x ^ 2 = 1 := by unfold Spec.sgn; split_ifs <;> norm_num
theorem sgn_ne (x : ℝ) : Spec.sgn x ≠ 0 := by unfold Spec.sgn; split_ifs <;> norm_num

theorem peak_le (l : List ℝ) : ∀ v ∈ l, |v| ≤ (l.map abs).foldr max 0 := by
  induction l with
  | nil => simp
  | cons a t ih =>
    intro v hv
    rw [List.map_cons, List.foldr_cons]
    rcases List.mem_cons.1 hv with rfl | hv
    · exact le_max_left _ _
    · exact (ih v hv).trans (le_max_right _ _)

theorem peak_attained (l : List ℝ) (h : 0 < (l.map abs).foldr max 0) : ∃ v ∈ l, |v| = (l.map abs).foldr max 0 := by
  induction l with
  | nil => simp at h
  | cons a t ih =>
    rw [List.map_cons, List.foldr_cons] at h ⊢
    rcases le_total |a| ((t.map abs).foldr max 0) with h' | h'
    · rw [max_eq_right h'] at h ⊢
      obtain ⟨v, hv, e⟩ := ih h
      exact ⟨v, List.mem_cons_of_mem _ hv, e⟩
    · exact ⟨a, List.mem_cons_self, (max_eq_left h').symm⟩

theorem normalised_of_factor (p : HoughNorm) (mu hr : List ℝ) (f : ℝ) (h : houghFactor p mu hr = some f) :
    Spec.Normalised p mu (hr.map (f * ·)) := by
  have hf := houghFactor_pos p mu hr f h
  cases p with
  | lee2012 =>
    simp only [houghFactor] at h
    obtain ⟨g, hg, h⟩ := Option.bind_eq_some_iff.1 h
    split_ifs at h with h0
    cases h
    unfold AngInt.leeFactor at hg
    obtain ⟨I, hI, rfl⟩ := Option.map_eq_some_iff.1 hg
    have hpos : 0 < √(2 * π * I) := by
      rcases (Real.sqrt_nonneg (2 * π * I)).lt_or_eq with h | h
      · exact h
      · rw [← h] at h0; simp at h0
    have hI0 : 0 < 2 * π * I := Real.sqrt_pos.1 hpos
    refine ⟨(1 / √(2 * π * I)) ^ 2 * I, ?_, ?_⟩
    · have e : (hr.map ((1 / √(2 * π * I)) * ·)).map (fun v => v ^ 2) =
          (hr.map fun v => v ^ 2).map ((1 / √(2 * π * I)) ^ 2 * ·) := by
        simp only [List.map_map]; congr 1; funext x; simp only [Function.comp]; ring
      rw [e, regular_scale, hI]; rfl
    · rw [div_pow, one_pow, Real.sq_sqrt hI0.le]
      rw [show 2 * π * (1 / (2 * π * I) * I) = (2 * π * I) / (2 * π * I) by ring, div_self hI0.ne']
  | prat2019 =>
    simp only [houghFactor] at h
    split_ifs at h with h0
    cases h
    unfold AngInt.pratFactor at hf ⊢
    have hM : 0 < (hr.map abs).foldr max 0 := by
      by_contra hc
      have := one_div_nonpos.2 (not_lt.1 hc)
      linarith
    constructor
    · intro v hv
      obtain ⟨u, hu, rfl⟩ := List.mem_map.1 hv
      rw [abs_mul, abs_of_pos hf, one_div, inv_mul_le_one₀ hM]
      exact peak_le hr u hu
    · obtain ⟨u, hu, e⟩ := peak_attained hr hM
      refine ⟨_, List.mem_map_of_mem hu, ?_⟩
      rw [abs_mul, abs_of_pos hf, e, one_div, inv_mul_cancel₀ hM.ne']

/-- **C92.** Normalising the Hough functions multiplies all functions of a mode by one positive factor, leaves all
radial functions as they are, and makes the radial Hough function of every mode normalised in the chosen sense. -/
theorem C92_normalised (p : HoughNorm) (o o' : Obj) (h : normalizeHoughs p o = some o') :
    ∃ f : Fin 3 → ℝ, (∀ k, 0 < f k) ∧ Rescaled (fun _ => 1) f o o' ∧
      ∀ k : Fin 3, ∃ hr, o'.attr (name "_hr" (k + 1)) = some hr ∧ Spec.Normalised p o'.mu hr := by
  obtain ⟨hr, f, h1, h2, h3, h4⟩ := normalizeHoughs_scaled p o o' h
  have hmu : o'.mu = o.mu := by rw [h3.rest]
  exact ⟨f, fun k => houghFactor_pos p _ _ _ (h2 k), h3, fun k => ⟨_, h4 k, by rw [hmu]; exact normalised_of_factor p _ _ _ (h2 k)⟩⟩

/-- **C92.** The result does not depend on the amplitude with which the Hough functions were computed, apart from their
sign. -/
theorem C92_amplitude_free (p : HoughNorm) (o o' n : Obj) (c d : Fin 3 → ℝ) (hd : ∀ k, d k ≠ 0) (hs : Rescaled c d o o')
    (h : normalizeHoughs p o = some n) :
    ∃ n', normalizeHoughs p o' = some n' ∧ Rescaled c (fun k => Spec.sgn (d k)) n n' := by
  obtain ⟨hr, f, h1, h2, h3, h4⟩ := normalizeHoughs_scaled p o n h
  have hpres := normalizeHoughs_present p o n h
  have hmu : o'.mu = o.mu := by rw [hs.rest]
  have e1 : ∀ k : Fin 3, o'.attr (name "_hr" (k + 1)) = some ((hr k).map (d k * ·)) := by
    intro k
    have := hs.ang "hr" (by decide) k
    have e : "_" ++ "hr" = "_hr" := by decide
    rw [e, h1 k] at this; exact this
  have e2 : ∀ k : Fin 3, houghFactor p o'.mu ((hr k).map (d k * ·)) = some (f k / |d k|) := by
    intro k; rw [hmu]; exact houghFactor_scale p _ _ _ _ (hd k) (h2 k)
  obtain ⟨n', hn'⟩ := normalizeHoughs_total p o' _ _ (fun k b hb => by
    rw [hs.ang b hb k, Option.isSome_map]; exact hpres k b hb) e1 e2
  obtain ⟨hr', f', g1, g2, g3, -⟩ := normalizeHoughs_scaled p o' n' hn'
  have hf' : ∀ k, f' k = f k / |d k| := by
    intro k
    have : hr' k = (hr k).map (d k * ·) := Option.some.inj ((g1 k).symm.trans (e1 k))
    have h5 := g2 k
    rw [this, e2 k] at h5
    exact (Option.some.inj h5).symm
  refine ⟨n', hn', h3.ratio (hs.trans g3) (fun k => by ring) fun k => ?_⟩
  rw [hf', sgn_eq _ (hd k)]; ring

/-- **C92.** Normalising again changes nothing. -/
theorem C92_idempotent (p : HoughNorm) (o n : Obj) (h : normalizeHoughs p o = some n) :
    ∃ n', normalizeHoughs p n = some n' ∧ Rescaled (fun _ => 1) (fun _ => 1) n n' := by
  obtain ⟨f, hf, h3, -⟩ := C92_normalised p o n h
  obtain ⟨n', e, h4⟩ := C92_amplitude_free p o n n _ f (fun k => (hf k).ne') h3 h
  refine ⟨n', e, ?_⟩
  have : (fun k => Spec.sgn (f k)) = fun _ => 1 := by funext k; simp [Spec.sgn, hf k]
  rwa [this] at h4

/-! ### Modes -/

/-- **C93.** After the constructor every mode has the energy `G M² / R`, recorded and recomputed. -/
theorem C93_energy (s : Setting) (p : HoughNorm) (o o2 : Obj) (E F : ℕ → ℝ) (h : construct s p o = some (o2, E, F))
    (hG : 0 < s.G) (hM : 0 < s.M) (hR : 0 < o.R) (k : Fin 3) :
    E (k + 1) = s.G * s.M ^ 2 / o.R ∧
      ∃ b, modeEnergy o2 s.omegaRot (s.omega (k + 1)) (k + 1) = some (b, s.G * s.M ^ 2 / o.R) := by
  unfold construct at h
  obtain ⟨n, h1, h2⟩ := Option.bind_eq_some_iff.1 h
  obtain ⟨f, -, hn, -⟩ := C92_normalised p o n h1
  have hRn : n.R = o.R := by rw [hn.rest]
  obtain ⟨a1, a2, -⟩ := normalize_spec s n o2 E F h2
  obtain ⟨e, b1, b2, b3, b4⟩ := a1 k
  rw [hRn] at b3
  have hE : F (k + 1) ^ 2 * e.2 = s.G * s.M ^ 2 / o.R := by
    rw [b3, Real.sq_sqrt (by positivity)]
    field_simp
  refine ⟨by rw [b4, hE], F (k + 1) ^ 2 * e.1, ?_⟩
  have := C69_quadratic a2.scaled (Or.inr fun _ => rfl) s.omegaRot (s.omega (k + 1)) k
  rw [this, b1]
  simp [hE]

/-- The preparation of rescaled modes. -/
theorem construct_rescaled (s : Setting) (p : HoughNorm) (o o' o2 : Obj) (E F : ℕ → ℝ) (c d : Fin 3 → ℝ)
    (hc : ∀ k, c k ≠ 0) (hd : ∀ k, d k ≠ 0) (hs : Rescaled c d o o') (hr : Regular o)
    (h : construct s p o = some (o2, E, F)) :
    ∃ o2' E' F', construct s p o' = some (o2', E', F') ∧ (∀ k : Fin 3, E' (k + 1) = E (k + 1)) ∧
      (∀ k : Fin 3, F' (k + 1) = F (k + 1) / |c k|) ∧
      Rescaled (fun k => Spec.sgn (c k)) (fun k => Spec.sgn (d k)) o2 o2' := by
  unfold construct at h
  obtain ⟨n, h1, h2⟩ := Option.bind_eq_some_iff.1 h
  obtain ⟨n', h1', hn⟩ := C92_amplitude_free p o o' n c d hd hs h1
  obtain ⟨f, -, hon, -⟩ := C92_normalised p o n h1
  have hlin : Linear n fun k => Spec.sgn (d k) := Or.inl (by rw [hon.rest]; exact hr)
  have hq := fun k : Fin 3 => C69_quadratic hn.scaled hlin s.omegaRot (s.omega (k + 1)) k
  obtain ⟨a1, a2, a3⟩ := normalize_spec s n o2 E F h2
  obtain ⟨⟨o2', E', F'⟩, h2'⟩ := normalize_total s n' (fun k b hb => by
      rw [hn.params] at hb
      rw [hn.rad b hb k, Option.isSome_map]; exact a3 k b hb) (fun k => by
      obtain ⟨e, b1, b2, -⟩ := a1 k
      refine ⟨_, by rw [hq k, b1]; rfl, ?_⟩
      have : 0 < c k ^ 2 := by have := hc k; positivity
      simp only [sgn_sq, mul_one]
      positivity)
  obtain ⟨a1', a2', -⟩ := normalize_spec s n' o2' E' F' h2'
  have hRn : n'.R = n.R := by rw [hn.rest]
  have hF : ∀ k : Fin 3, F' (k + 1) = F (k + 1) / |c k| := by
    intro k
    obtain ⟨e, b1, b2, b3, b4⟩ := a1 k
    obtain ⟨e', b1', b2', b3', b4'⟩ := a1' k
    have : e' = (c k ^ 2 * Spec.sgn (d k) ^ 2 * e.1, c k ^ 2 * Spec.sgn (d k) ^ 2 * e.2) := by
      have := hq k
      rw [b1, b1'] at this
      exact Option.some.inj this
    rw [b3', b3, this, hRn]
    simp only [sgn_sq, mul_one]
    have : s.G * s.M ^ 2 / (n.R * (c k ^ 2 * e.2)) = s.G * s.M ^ 2 / (n.R * e.2) / c k ^ 2 := by
      rw [div_div]; congr 1; ring
    rw [this, Real.sqrt_div' _ (sq_nonneg _), Real.sqrt_sq_eq_abs]
  refine ⟨o2', E', F', by unfold construct; rw [h1']; exact h2', ?_, hF, ?_⟩
  · intro k
    obtain ⟨e, b1, b2, b3, b4⟩ := a1 k
    obtain ⟨e', b1', b2', b3', b4'⟩ := a1' k
    have : e' = (c k ^ 2 * Spec.sgn (d k) ^ 2 * e.1, c k ^ 2 * Spec.sgn (d k) ^ 2 * e.2) := by
      have := hq k
      rw [b1, b1'] at this
      exact Option.some.inj this
    rw [b4', b4, hF, this]
    simp only [sgn_sq, mul_one, div_pow, sq_abs]
    have := hc k
    field_simp
  · refine a2.ratio (hn.trans a2') (fun k => ?_) fun k => by ring
    rw [hF, sgn_eq _ (hc k)]; ring

/-- **C93.** The normalised coupling coefficient and the coefficient of Lee (2012) do not depend on the amplitudes of the
eigenfunctions that are read in: multiplying the radial functions of each mode by any `c k ≠ 0` and its Hough functions
by any `d k ≠ 0` changes at most their sign, by the product of the signs of the factors; and the stored normalisation
factors change inversely to `|c k|`. -/
theorem C93_amplitude_free (s : Setting) (p : HoughNorm) (o o' : Obj) (c d : Fin 3 → ℝ) (hc : ∀ k, c k ≠ 0)
    (hd : ∀ k, d k ≠ 0) (hs : Rescaled c d o o') (hr : Regular o) (hsc : o.selfCoupling = false) (g g' : Garbage)
    (hg : GoodGarbage g) (hg' : GoodGarbage g') (v : ℝ) (h : normedCoupling s p o g = some v) :
    normedCoupling s p o' g' = some ((∏ k, Spec.sgn (c k)) * (∏ k, Spec.sgn (d k)) * v) ∧
    etaLee s p o' g' = some ((∏ k, Spec.sgn (c k)) * (∏ k, Spec.sgn (d k)) * (2 * v)) ∧ etaLee s p o g = some (2 * v) := by
  have hv := h
  simp only [normedCoupling, Option.bind_eq_bind] at h
  obtain ⟨⟨o2, E, F⟩, h1, h⟩ := Option.bind_eq_some_iff.1 h
  obtain ⟨r, h2, h⟩ := Option.bind_eq_some_iff.1 h
  cases h
  obtain ⟨o2', E', F', h1', hE, -, hn⟩ := construct_rescaled s p o o' o2 E F c d hc hd hs hr h1
  have hfield : o2.selfCoupling = o.selfCoupling ∧ o2.useCheby = o.useCheby ∧ o2.protect = o.protect := by
    unfold construct at h1
    obtain ⟨n, k1, k2⟩ := Option.bind_eq_some_iff.1 h1
    obtain ⟨f, -, hon, -⟩ := C92_normalised p o n k1
    obtain ⟨-, a2, -⟩ := normalize_spec s n o2 E F k2
    rw [a2.rest, hon.rest]
    exact ⟨rfl, rfl, rfl⟩
  have key := C68_multilinear hn.scaled (Or.inl ⟨hfield.2.1.trans hr.1, hfield.2.2.trans hr.2⟩) (hfield.1.trans hsc) g g' hg hg' none
  have e : normedCoupling s p o' g' = some ((∏ k, Spec.sgn (c k)) * (∏ k, Spec.sgn (d k)) * (r.1 / E 1)) := by
    simp only [normedCoupling, Option.bind_eq_bind]
    rw [h1', Option.bind_some, key, h2]
    simp only [Option.map_some, Option.bind_some, pure, Option.some.injEq]
    have := hE 0
    simp only [Fin.val_zero, zero_add] at this
    rw [this, Fin.prod_univ_three, Fin.prod_univ_three]
    ring
  refine ⟨e, ?_, ?_⟩
  · rw [etaLee, e]; simp only [Option.map_some, Option.some.injEq]; ring
  · rw [etaLee, hv]; rfl

/-- **C93.** In terms of the computed coefficient the normalised one is `κ R / (G M²)` (`κ` computed with normalised
modes), and that of Lee (2012) is twice it. -/
theorem C93_value (s : Setting) (p : HoughNorm) (o : Obj) (g : Garbage) (v : ℝ) (h : normedCoupling s p o g = some v)
    (hG : 0 < s.G) (hM : 0 < s.M) (hR : 0 < o.R) :
    ∃ o2 E F κ terms, construct s p o = some (o2, E, F) ∧ coupling o2 g none = some (κ, terms) ∧
      v = κ * o.R / (s.G * s.M ^ 2) := by
  simp only [normedCoupling, Option.bind_eq_bind] at h
  obtain ⟨⟨o2, E, F⟩, h1, h⟩ := Option.bind_eq_some_iff.1 h
  obtain ⟨r, h2, h⟩ := Option.bind_eq_some_iff.1 h
  cases h
  refine ⟨o2, E, F, r.1, r.2, h1, h2, ?_⟩
  have := (C93_energy s p o o2 E F h1 hG hM hR 0).1
  simp only [Fin.val_zero, zero_add] at this
  show r.1 / E 1 = _
  rw [this]
  field_simp

end
end Verif.Coupling
