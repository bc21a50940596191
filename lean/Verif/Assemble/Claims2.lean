import Verif.Assemble.Claims
/-!
# C95, C96: structure profiles on the grid of the modes; polytropes
-/
namespace Verif.Assemble
noncomputable section
open Classical

namespace Spec
/-- The stored order from center to surface: MESA stores profiles from the surface inwards. -/
def outward (poly : Bool) (a : List ℝ) : List ℝ := if poly then a else a.reverse

/-- The names of the radius in the structure file. -/
def radiusKey (poly : Bool) : String := if poly then "r" else "radius"

/-- The radii from center to surface in units of the largest. -/
def Scaled (poly : Bool) (r x : List ℝ) : Prop := ∃ m, IsGreatest {v | v ∈ r} m ∧ x = (outward poly r).map (· / m)
end Spec

theorem normRad_spec (poly : Bool) (d : Dict) (r nr : List ℝ) (hr : d.get (Spec.radiusKey poly) = some (.arr r))
    (h : normRad poly d = some nr) : Spec.Scaled poly r nr := by
  unfold normRad at h
  rw [show (if poly then "r" else "radius") = Spec.radiusKey poly from rfl, hr] at h
  obtain ⟨m, hm, rfl⟩ := Option.map_eq_some_iff.1 h
  refine ⟨m, ⟨(maxOf_spec _ _ hm).1, fun v hv => (maxOf_spec _ _ hm).2 v hv⟩, ?_⟩
  cases poly
  · simp [Spec.outward]
  · simp [Spec.outward]

theorem scaled_length (poly : Bool) (r x : List ℝ) (h : Spec.Scaled poly r x) : x.length = r.length := by
  obtain ⟨m, -, rfl⟩ := h
  cases poly <;> simp [Spec.outward]

theorem additional_cases (poly : Bool) (add : Dict) (s s' : Attrs) (xs r : List ℝ) (h : extractAdditional poly add s = some s')
    (hx : s "_x" = some (.arr xs)) (hr : add.get (Spec.radiusKey poly) = some (.arr r)) :
    ∃ nr, Spec.Scaled poly r nr ∧ ((r.length = xs.length ∧ sameLoop poly add s = some s') ∨
      (r.length ≠ xs.length ∧ diffLoop poly xs nr add s = some s')) := by
  unfold extractAdditional at h
  simp only [Option.bind_eq_bind] at h
  obtain ⟨nr, hnr, h⟩ := Option.bind_eq_some_iff.1 h
  obtain ⟨xs', hxs, h⟩ := Option.bind_eq_some_iff.1 h
  have : xs' = xs := by unfold arrOf at hxs; rw [hx] at hxs; exact (Option.some.inj hxs).symm
  subst this
  have hs := normRad_spec poly add r nr hr hnr
  refine ⟨nr, hs, ?_⟩
  rw [scaled_length _ _ _ hs] at h
  split at h
  · next e => exact Or.inl ⟨e, h⟩
  · next e => exact Or.inr ⟨e, h⟩

/-- **C95.** A structure profile given at another number of points than the modes is brought to the grid of the modes: the
result is the piecewise linear function of the scaled radius through the stored points, from center to surface. -/
theorem C95_regridded_partial (poly : Bool) (add : Dict) (s s' : Attrs) (xs r : List ℝ) (h : extractAdditional poly add s = some s')
    (hx : s "_x" = some (.arr xs)) (hr : add.get (Spec.radiusKey poly) = some (.arr r)) (hd : (add.map Prod.fst).Nodup)
    (hlen : r.length ≠ xs.length) (k : String) (a : List ℝ) (hk : add.get k = some (.arr a)) (hc : k ++ "_profile" ∉ add.map Prod.fst) :
    ∃ x b, Spec.Scaled poly r x ∧ Spec.Resampled xs x (Spec.outward poly a) b ∧ s' ("_" ++ k ++ "_profile") = some (.arr b) := by
  obtain ⟨nr, hs, ⟨e, -⟩ | ⟨-, hl⟩⟩ := additional_cases poly add s s' xs r h hx hr
  · exact absurd e hlen
  · obtain ⟨w, hw, hp⟩ := diffLoop_get _ _ _ _ _ _ hl hd k a hk (by
      intro k' v' hm e
      apply hc
      have : k' = k ++ "_profile" := by
        unfold profileName at e
        rw [String.append_assoc] at e
        exact under_inj _ _ e
      rw [← this]; exact mem_keys hm)
    exact ⟨nr, w, hs, npInterp_spec _ _ _ _ hw, hp⟩

/-- **C95.** With the same number of points, the profile is stored as it is in the file, from center to surface. -/
theorem C95_same_count (poly : Bool) (add : Dict) (s s' : Attrs) (xs r : List ℝ) (h : extractAdditional poly add s = some s')
    (hx : s "_x" = some (.arr xs)) (hr : add.get (Spec.radiusKey poly) = some (.arr r)) (hd : (add.map Prod.fst).Nodup)
    (hlen : r.length = xs.length) (k : String) (a : List ℝ) (hk : add.get k = some (.arr a)) (he : k ∉ exclude poly) :
    s' ("_" ++ k ++ "_profile") = some (.arr (Spec.outward poly a)) := by
  obtain ⟨nr, hs, ⟨-, hl⟩ | ⟨e, -⟩⟩ := additional_cases poly add s s' xs r h hx hr
  · obtain ⟨w, hw, hp⟩ := sameLoop_get _ _ _ _ hl hd k _ hk he
    cases hw
    exact hp
  · exact absurd hlen e

/-- **C95, refutation of the full claim.** If the structure file has as many points as the modes, but at other radii, no
interpolation takes place: the stored profile of the radius itself is then not the radius of the points of the grid, for any
input. -/
theorem C95_other_radii_wrong (poly : Bool) (add : Dict) (s s' : Attrs) (xs r x : List ℝ)
    (h : extractAdditional poly add s = some s') (hx : s "_x" = some (.arr xs)) (hr : add.get (Spec.radiusKey poly) = some (.arr r))
    (hd : (add.map Prod.fst).Nodup) (hlen : r.length = xs.length) (hs : Spec.Scaled poly r x) (hne : x ≠ xs) (m : ℝ)
    (hm : IsGreatest {v | v ∈ r} m) (hpos : m ≠ 0) :
    ∃ b, s' ("_" ++ Spec.radiusKey poly ++ "_profile") = some (.arr b) ∧ b ≠ xs.map (· * m) := by
  refine ⟨_, C95_same_count poly add s s' xs r h hx hr hd hlen _ r hr (by cases poly <;> decide), fun e => hne ?_⟩
  obtain ⟨m', hm', rfl⟩ := hs
  rw [hm'.unique hm, e, List.map_map]
  have : ((· / m) ∘ (· * m) : ℝ → ℝ) = id := by
    funext t; simp [hpos]
  rw [this, List.map_id]

/-! ### Polytropes -/

theorem poly_stages (cc cs : Bool) (d1 d2 d3 add : Dict) (s : Attrs) (nP nρ : ℝ)
    (h : assemblePoly cc cs d1 d2 d3 add = some (s, nP, nρ)) :
    ∃ s1 s2 s3 p ρ c1 v2 as u, interpolationModes d1 d2 d3
        (extractMode true d3 3 (extractMode true d2 2 (extractMode true d1 1 (extractCommon true d1 fun _ => none)))) = some s1 ∧
      extractAdditional true add s1 = some s2 ∧ s2 "_p0_profile" = some p ∧ s2 "_rho0_profile" = some ρ ∧
      normFactor cc cs p = some nP ∧ normFactor cc cs ρ = some nρ ∧ cuts cc cs preCutsPoly s2 = some s3 ∧
      sameLength s3 "_Gamma_1" "_p_profile" = some () ∧ arrOf s3 "_c1_profile" = some c1 ∧ arrOf s3 "_v2_profile" = some v2 ∧
      arrOf s3 "_as_profile" = some as ∧ arrOf s3 "_u_profile" = some u ∧
      cuts cc cs (polytropicCuts ++ structureCuts)
        (set (set (set (set s3 "_c_1" (.arr c1)) "_V_2" (.arr v2)) "_As" (.arr as)) "_U" (.arr u)) = some s := by
  unfold assemblePoly at h
  simp only [Option.bind_eq_bind] at h
  obtain ⟨s1, h1, h⟩ := Option.bind_eq_some_iff.1 h
  obtain ⟨s2, h2, h⟩ := Option.bind_eq_some_iff.1 h
  obtain ⟨p, h3, h⟩ := Option.bind_eq_some_iff.1 h
  obtain ⟨ρ, h4, h⟩ := Option.bind_eq_some_iff.1 h
  obtain ⟨nP', h5, h⟩ := Option.bind_eq_some_iff.1 h
  obtain ⟨nρ', h6, h⟩ := Option.bind_eq_some_iff.1 h
  obtain ⟨s3, h8, h⟩ := Option.bind_eq_some_iff.1 h
  obtain ⟨-, -, h⟩ := Option.bind_eq_some_iff.1 h
  obtain ⟨⟨⟩, h9, h⟩ := Option.bind_eq_some_iff.1 h
  obtain ⟨c1, a1, h⟩ := Option.bind_eq_some_iff.1 h
  obtain ⟨v2, a2, h⟩ := Option.bind_eq_some_iff.1 h
  obtain ⟨as, a3, h⟩ := Option.bind_eq_some_iff.1 h
  obtain ⟨u, a4, h⟩ := Option.bind_eq_some_iff.1 h
  obtain ⟨s4, h10, h⟩ := Option.bind_eq_some_iff.1 h
  cases h
  rw [modeCuts_eq] at h10
  exact ⟨s1, s2, s3, p, ρ, c1, v2, as, u, h1, h2, h3, h4, h5, h6, h8, h9, a1, a2, a3, a4, h10⟩

namespace Spec
/-- A structure file of a polytrope with radii `r`: no key twice, central pressure and density are numbers, the given names are
arrays with one value per radius, and no name already carries the program's suffix. -/
structure PolytropeFile (add : Dict) (r : List ℝ) (p0 ρ0 : ℝ) : Prop where
  keys : (add.map Prod.fst).Nodup
  radii : add.get "r" = some (.arr r)
  pressure : add.get "p0" = some (.num p0)
  density : add.get "rho0" = some (.num ρ0)
  plain : ∀ k ∈ add.map Prod.fst, ¬ "_profile".toList <:+ k.toList

/-- The arrays of the structure file that are used, with the names under which the object keeps them. -/
def polytropeArrays : List (String × String) :=
  [("mr", "_mr_profile"), ("rho", "_rho_profile"), ("r", "_r_profile"), ("p", "_p_profile"), ("brunt_n2", "_brunt_n2_profile"),
   ("c1", "_c_1"), ("v2", "_V_2"), ("as", "_As"), ("u", "_U")]
end Spec

/-- Nothing but the structure file sets attributes with the suffix. -/
theorem no_profile_before (d1 d2 d3 : Dict) (s1 : Attrs) (hk : ∀ i, ((pick d1 d2 d3 i).map Prod.fst).Nodup)
    (h1 : interpolationModes d1 d2 d3 (extractMode true d3 3 (extractMode true d2 2 (extractMode true d1 1
      (extractCommon true d1 fun _ => none)))) = some s1) (k : String) : s1 (profileName k) = none := by
  obtain ⟨-, -, -, -, -, -, -, -, -, -, hoth⟩ := interpolation_spec _ _ _ _ _ h1 hk
  have hm : ∀ k' (i : Fin 3), modeName k' (i + 1) ≠ profileName k := fun k' i => mode_profile_ne k' k i
  rw [hoth _ hm (profileName_ne k _ (by decide)), extractMode_other _ _ 3 _ _ (fun k => hm k 2),
    extractMode_other _ _ 2 _ _ (fun k => hm k 1), extractMode_other _ _ 1 _ _ (fun k => hm k 0), extractCommon_other]
  intro a ha
  exact (profileName_ne k _ ((by decide : ∀ a ∈ common true, ¬ "_profile".toList <:+ ("_" ++ a).toList) a ha)).symm

/-- A key that occurs with a value is looked up. -/
theorem lookup_mem (d : Dict) (k : String) (v : Val) (hm : (k, v) ∈ d) (hd : (d.map Prod.fst).Nodup) : d.lookup k = some v := by
  induction d with
  | nil => simp at hm
  | cons q d ih =>
    obtain ⟨k', v'⟩ := q
    rw [List.map_cons, List.nodup_cons] at hd
    rw [List.lookup_cons]
    rcases List.mem_cons.1 hm with e | hm
    · cases e; simp
    · have hne : k ≠ k' := fun e => hd.1 (by rw [← e]; exact mem_keys hm)
      rw [show (k == k') = false by simpa using hne]
      exact ih hm hd.2

/-- The central pressure is found only if the numbers of points agree. -/
theorem pressure_found (d1 d2 d3 add : Dict) (s1 s2 : Attrs) (xs r : List ℝ) (p0 ρ0 : ℝ) (p : Val)
    (hk : ∀ i, ((pick d1 d2 d3 i).map Prod.fst).Nodup)
    (h1 : interpolationModes d1 d2 d3 (extractMode true d3 3 (extractMode true d2 2 (extractMode true d1 1
      (extractCommon true d1 fun _ => none)))) = some s1) (hx : s1 "_x" = some (.arr xs))
    (h2 : extractAdditional true add s1 = some s2) (fa : Spec.PolytropeFile add r p0 ρ0) (h3 : s2 "_p0_profile" = some p) :
    r.length = xs.length ∧ sameLoop true add s1 = some s2 := by
  obtain ⟨nr, hs, e | ⟨-, hl⟩⟩ := additional_cases true add s1 s2 xs r h2 hx fa.radii
  · exact e
  · exfalso
    have := diffLoop_other _ _ _ _ _ _ hl "_p0_profile" (by
      intro k a hm e
      have hk0 : k = "p0" := profile_inj k "p0" e
      subst hk0
      have hp := fa.pressure
      unfold Dict.get at hp
      rw [lookup_mem _ _ _ hm fa.keys] at hp
      cases hp) (by
      intro k v hm e
      have : k = "p0_profile" := under_inj k "p0_profile" e
      subst this
      exact fa.plain _ (mem_keys hm) (by decide))
    rw [this, show ("_p0_profile" : String) = profileName "p0" from rfl, no_profile_before d1 d2 d3 s1 hk h1] at h3
    cases h3

theorem longest_length (d1 d2 d3 : Dict) (x1 x2 x3 xs : List ℝ) (f1 : Spec.File d1 x1) (f2 : Spec.File d2 x2) (f3 : Spec.File d3 x3)
    (h : gridOf (longest x1.length x2.length x3.length d1 d2 d3) = some xs) :
    xs.length = max x1.length (max x2.length x3.length) := by
  obtain ⟨xs', ex', l1, l2, l3, -⟩ := longest_grid d1 d2 d3 x1 x2 x3 f1 f2 f3
  rw [h] at ex'; cases ex'
  have hxs : xs = x1 ∨ xs = x2 ∨ xs = x3 := by
    unfold longest at h
    split at h
    · rw [file_grid f1] at h; exact Or.inl (Option.some.inj h).symm
    · split at h
      · rw [file_grid f2] at h; exact Or.inr (Or.inl (Option.some.inj h).symm)
      · rw [file_grid f3] at h; exact Or.inr (Or.inr (Option.some.inj h).symm)
  rcases hxs with rfl | rfl | rfl <;> omega

/-- **C95, refutation for polytropes.** A polytrope whose structure file has another number of points than the finest of the modes
is never accepted: the central pressure is then stored under another name than the one that is read. -/
theorem C95_polytrope_regrid_wrong (cc cs : Bool) (d1 d2 d3 add : Dict) (x1 x2 x3 r : List ℝ) (p0 ρ0 : ℝ)
    (f1 : Spec.File d1 x1) (f2 : Spec.File d2 x2) (f3 : Spec.File d3 x3) (fa : Spec.PolytropeFile add r p0 ρ0)
    (hr : r.length ≠ max x1.length (max x2.length x3.length)) :
    assemblePoly cc cs d1 d2 d3 add = none := by
  rcases h : assemblePoly cc cs d1 d2 d3 add with _ | ⟨s, nP, nρ⟩
  · rfl
  · exfalso
    obtain ⟨s1, s2, s3, p, ρ, c1, v2, as, u, h1, h2, h3, h4, h5, h6, h7, h8, a1, a2, a3, a4, h9⟩ := poly_stages _ _ _ _ _ _ _ _ _ h
    have hk := pick_files f1 f2 f3
    obtain ⟨m1, m2, m3, xs, e1, e2, e3, ex, hx, hget, hoth⟩ := interpolation_spec _ _ _ _ _ h1 hk
    rw [file_size f1] at e1; rw [file_size f2] at e2; rw [file_size f3] at e3
    cases e1; cases e2; cases e3
    rw [← longest_length d1 d2 d3 x1 x2 x3 xs f1 f2 f3 ex] at hr
    exact hr (pressure_found d1 d2 d3 add s1 s2 xs r p0 ρ0 p hk h1 hx h2 fa h3).1

/-- **C96.** If the constructor finishes for a polytrope, the first mode has the finest grid, the structure file has as many points,
the scales are the central values of the file, and every array is that of its file, brought to that grid (modes) and without
the cut ends. -/
theorem C96_polytrope_grid (cc cs : Bool) (d1 d2 d3 add : Dict) (x1 x2 x3 r : List ℝ) (p0 ρ0 : ℝ) (s : Attrs) (nP nρ : ℝ)
    (f1 : Spec.File d1 x1) (f2 : Spec.File d2 x2) (f3 : Spec.File d3 x3) (fa : Spec.PolytropeFile add r p0 ρ0)
    (hp : Spec.Profiles ["Gamma_1"] d1 x1) (ha : Spec.Profiles (Spec.polytropeArrays.map Prod.fst) add r)
    (h : assemblePoly cc cs d1 d2 d3 add = some (s, nP, nρ)) :
    x2.length ≤ x1.length ∧ x3.length ≤ x1.length ∧ r.length = x1.length ∧ nP = p0 ∧ nρ = ρ0 ∧
    (∃ x, s "_x" = some (.arr x) ∧ Spec.Trimmed cc cs x1 x) ∧
    (∀ (i : Fin 3), ∀ k ∈ ["xi_r", "xi_h", "y_1", "y_2"], ∀ v, ((![d1, d2, d3] : Fin 3 → Dict) i).get k = some v →
      ∃ w t, Spec.ResampledVal x1 ((![x1, x2, x3] : Fin 3 → List ℝ) i) v w ∧ Spec.TrimmedVal cc cs w t ∧
        s ("_" ++ k ++ "_mode_" ++ toString ((i : ℕ) + 1)) = some t) ∧
    (∀ p ∈ Spec.polytropeArrays, ∀ v, add.get p.1 = some v → ∃ t, Spec.TrimmedVal cc cs v t ∧ s p.2 = some t) ∧
    ∀ v, d1.get "Gamma_1" = some v → ∃ t, Spec.TrimmedVal cc cs v t ∧ s "_Gamma_1" = some t := by
  obtain ⟨s1, s2, s3, p, ρ, c1, v2, as, u, h1, h2, h3, h4, h5, h6, h7, h8, a1, a2, a3, a4, h9⟩ := poly_stages _ _ _ _ _ _ _ _ _ h
  have hk := pick_files f1 f2 f3
  obtain ⟨m1, m2, m3, xs, e1, e2, e3, ex, hx, hget, hoth⟩ := interpolation_spec _ _ _ _ _ h1 hk
  rw [file_size f1] at e1; rw [file_size f2] at e2; rw [file_size f3] at e3
  cases e1; cases e2; cases e3
  obtain ⟨xs', ex', l1, l2, l3, luniq⟩ := longest_grid d1 d2 d3 x1 x2 x3 f1 f2 f3
  rw [ex] at ex'; cases ex'
  have hc2 := two_le cc cs
  have hpos := f1.pos
  obtain ⟨hrx, hl⟩ := pressure_found d1 d2 d3 add s1 s2 xs r p0 ρ0 p hk h1 hx h2 fa h3
  -- numbers of the structure file
  have hp0 : p = .num p0 := by
    obtain ⟨w, hw, hs⟩ := sameLoop_get _ _ _ _ hl fa.keys "p0" _ fa.pressure (by decide)
    cases hw
    exact Option.some.inj (h3.symm.trans hs)
  have hρ0 : ρ = .num ρ0 := by
    obtain ⟨w, hw, hs⟩ := sameLoop_get _ _ _ _ hl fa.keys "rho0" _ fa.density (by decide)
    cases hw
    exact Option.some.inj (h4.symm.trans hs)
  subst hp0 hρ0
  -- arrays of the structure file
  have harr : ∀ k ∈ Spec.polytropeArrays.map Prod.fst, ∀ v, add.get k = some v → s2 (profileName k) = some v ∧
      ∃ a, v = .arr a ∧ a.length = xs.length := by
    intro k hkm v hv
    obtain ⟨a, ha1, ha2⟩ := ha k hkm
    rw [hv] at ha1; cases ha1
    obtain ⟨w, hw, hs⟩ := sameLoop_get _ _ _ _ hl fa.keys k _ hv
      ((by decide : ∀ k ∈ Spec.polytropeArrays.map Prod.fst, k ∉ exclude true) k hkm)
    cases hw
    exact ⟨hs, a, rfl, by rw [ha2, hrx]⟩
  have hx2 : s2 "_x" = some (.arr xs) := by
    rw [sameLoop_other _ _ _ _ hl "_x" (fun k _ => profileName_ne k _ (by decide)), hx]
  have hΓ : s2 "_Gamma_1" = some ((d1.get "Gamma_1").getD .null) := by
    rw [sameLoop_other _ _ _ _ hl "_Gamma_1" (fun k _ => profileName_ne k _ (by decide))]
    exact common_before true d1 d2 d3 s1 hk h1 "Gamma_1" (by decide) (by decide)
  obtain ⟨vΓ, hvΓ, lΓ⟩ := hp "Gamma_1" (by decide)
  rw [hvΓ] at hΓ
  obtain ⟨b1, b2⟩ := cuts_spec _ _ _ _ _ h7 (by decide)
  obtain ⟨b3, b4⟩ := cuts_spec _ _ _ _ _ h9 (by decide)
  have hΓ3 : s3 "_Gamma_1" = some (.arr (slice cc cs vΓ)) := by rw [b1 _ (by decide), hΓ]; rfl
  have hlen : xs = x1 := by
    apply luniq
    obtain ⟨a, hpa, -⟩ := ha "p" (by decide)
    obtain ⟨hp2, a', e, la⟩ := harr "p" (by decide) _ hpa
    cases e
    have hp3 : s3 "_p_profile" = some (.arr (slice cc cs a)) := by
      rw [b1 _ (by decide), show ("_p_profile" : String) = profileName "p" from rfl, hp2]; rfl
    unfold sameLength arrOf at h8
    rw [hΓ3, hp3] at h8
    simp only [Option.bind_eq_bind, Option.bind_some, slice_length] at h8
    split at h8
    · next hc => omega
    · cases h8
  subst hlen
  have trim : ∀ a : List ℝ, a.length = xs.length → Spec.Trimmed cc cs a (slice cc cs a) := fun a e => slice_trimmed _ _ _ (by omega)
  -- the attributes that only the first cut treats
  have first : ∀ c ∈ preCutsPoly, s c = (s2 c).map (Val.cut (slice cc cs)) := by
    intro c hc
    have hd : ∀ c ∈ preCutsPoly, c ∉ polytropicCuts ++ structureCuts ∧ c ≠ "_c_1" ∧ c ≠ "_V_2" ∧ c ≠ "_As" ∧ c ≠ "_U" := by decide
    obtain ⟨q1, q2, q3, q4, q5⟩ := hd c hc
    rw [b4 c q1, set_ne _ _ _ _ q5, set_ne _ _ _ _ q4, set_ne _ _ _ _ q3, set_ne _ _ _ _ q2, b1 c hc]
  refine ⟨l2, l3, hrx, (Option.some.inj h5).symm, (Option.some.inj h6).symm, ⟨slice cc cs xs, ?_, trim _ rfl⟩, ?_, ?_, ?_⟩
  · rw [first "_x" (by decide), hx2]; rfl
  · intro i k hkm v hv
    have hki : k ∈ interpList := (by decide : ∀ k ∈ ["xi_r", "xi_h", "y_1", "y_2"], k ∈ interpList) k hkm
    obtain ⟨xp, w, q1, q2, q3⟩ := hget i k v hv hki
    have hxp : xp = (![xs, x2, x3] : Fin 3 → List ℝ) i := by
      fin_cases i
      · exact Option.some.inj (q1.symm.trans (file_grid f1))
      · exact Option.some.inj (q1.symm.trans (file_grid f2))
      · exact Option.some.inj (q1.symm.trans (file_grid f3))
    subst hxp
    refine ⟨w, w.cut (slice cc cs), interpVal_spec _ _ _ _ q2, resampled_trim _ _ _ _ _ _ (interpVal_spec _ _ _ _ q2) f1.pos, ?_⟩
    have hmem : ∀ k ∈ ["xi_r", "xi_h", "y_1", "y_2"], ∀ i : Fin 3, modeName k (i + 1) ∈ polytropicCuts ++ structureCuts ∧
        modeName k (i + 1) ∉ preCutsPoly ∧ modeName k (i + 1) ≠ "_c_1" ∧ modeName k (i + 1) ≠ "_V_2" ∧ modeName k (i + 1) ≠ "_As" ∧
        modeName k (i + 1) ≠ "_U" := by decide
    obtain ⟨t1, t2, t3, t4, t5, t6⟩ := hmem k hkm i
    change s (modeName k (i + 1)) = _
    rw [b3 _ t1, set_ne _ _ _ _ t6, set_ne _ _ _ _ t5, set_ne _ _ _ _ t4, set_ne _ _ _ _ t3, b2 _ t2,
      sameLoop_other _ _ _ _ hl _ (fun k' _ => (mode_profile_ne k k' i).symm), q3]
    rfl
  · have str : ∀ (k c : String) (v' : List ℝ), k ∈ Spec.polytropeArrays.map Prod.fst → arrOf s3 (profileName k) = some v' →
        profileName k ∉ preCutsPoly → ∀ v, add.get k = some v → v = .arr v' ∧ v'.length = xs.length := by
      intro k c v' hkm hv' hnp v hv
      obtain ⟨e1, a, rfl, la⟩ := harr k hkm v hv
      unfold arrOf at hv'
      rw [b2 _ hnp, e1] at hv'
      cases hv'
      exact ⟨rfl, la⟩
    intro q hq v hv
    have pre : ∀ k, k ∈ Spec.polytropeArrays.map Prod.fst → profileName k ∈ preCutsPoly → ∀ v, add.get k = some v →
        ∃ t, Spec.TrimmedVal cc cs v t ∧ s (profileName k) = some t := by
      intro k hkm hin v hv
      obtain ⟨e1, a, rfl, la⟩ := harr k hkm v hv
      exact ⟨.arr (slice cc cs a), trim a la, by rw [first _ hin, e1]; rfl⟩
    simp only [Spec.polytropeArrays, List.mem_cons, List.not_mem_nil, or_false] at hq
    rcases hq with rfl | rfl | rfl | rfl | rfl | rfl | rfl | rfl | rfl
    · exact pre "mr" (by decide) (by decide) v hv
    · exact pre "rho" (by decide) (by decide) v hv
    · exact pre "r" (by decide) (by decide) v hv
    · exact pre "p" (by decide) (by decide) v hv
    · exact pre "brunt_n2" (by decide) (by decide) v hv
    · obtain ⟨rfl, la⟩ := str "c1" "_c_1" c1 (by decide) a1 (by decide) v hv
      refine ⟨.arr (slice cc cs c1), trim _ la, ?_⟩
      rw [b3 _ (by decide), set_ne _ _ _ _ (by decide), set_ne _ _ _ _ (by decide), set_ne _ _ _ _ (by decide), set_same]; rfl
    · obtain ⟨rfl, la⟩ := str "v2" "_V_2" v2 (by decide) a2 (by decide) v hv
      refine ⟨.arr (slice cc cs v2), trim _ la, ?_⟩
      rw [b3 _ (by decide), set_ne _ _ _ _ (by decide), set_ne _ _ _ _ (by decide), set_same]; rfl
    · obtain ⟨rfl, la⟩ := str "as" "_As" as (by decide) a3 (by decide) v hv
      refine ⟨.arr (slice cc cs as), trim _ la, ?_⟩
      rw [b3 _ (by decide), set_ne _ _ _ _ (by decide), set_same]; rfl
    · obtain ⟨rfl, la⟩ := str "u" "_U" u (by decide) a4 (by decide) v hv
      refine ⟨.arr (slice cc cs u), trim _ la, ?_⟩
      rw [b3 _ (by decide), set_same]; rfl
  · intro v hv
    rw [hv] at hvΓ
    cases hvΓ
    exact ⟨.arr (slice cc cs vΓ), trim _ lΓ, by rw [first _ (by decide), hΓ]; rfl⟩

end
end Verif.Assemble
