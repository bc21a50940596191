import Verif.Assemble.Analytic
import Verif.Assemble.Total
import Verif.Poly.Centre
/-!
# C156: analytic polytropes
-/
namespace Verif.Assemble
noncomputable section
open Classical

theorem fill_spec (xs nr : List ℝ) (add : Dict) (l : List (String × String)) (s s' : Attrs) (h : fill false xs nr add l s = some s')
    (hn : (l.map Prod.snd).Nodup) :
    (∀ q ∈ l, s' q.2 = some ((add.get q.1).getD .null)) ∧ ∀ c, c ∉ l.map Prod.snd → s' c = s c := by
  induction l generalizing s with
  | nil => cases h; simp
  | cons q l ih =>
    obtain ⟨k, a⟩ := q
    simp only [fill, getOrInterp, Bool.false_eq_true, if_false, Option.bind_some] at h
    rw [List.map_cons, List.nodup_cons] at hn
    obtain ⟨i1, i2⟩ := ih _ h hn.2
    refine ⟨fun q hq => ?_, fun c hc => ?_⟩
    · rcases List.mem_cons.1 hq with rfl | hq
      · rw [i2 _ hn.1, set_same]
      · exact i1 q hq
    · rw [List.map_cons, List.mem_cons, not_or] at hc
      rw [i2 c hc.2, set_ne _ _ _ _ hc.1]

theorem norms_spec (nP nρ : ℝ) (l : List (String × String × Bool × Bool)) (s s' : Attrs) (h : norms nP nρ l s = some s')
    (hn : (l.map (·.2.1)).Nodup) (hd : ∀ q ∈ l, q.1 ∉ l.map (·.2.1)) :
    (∀ q ∈ l, ∃ v w, s q.1 = some v ∧ divVal (if q.2.2.2 then nP else nρ) q.2.2.1 v = some w ∧ s' q.2.1 = some w) ∧
      ∀ c, c ∉ l.map (·.2.1) → s' c = s c := by
  induction l generalizing s with
  | nil => cases h; simp
  | cons q l ih =>
    obtain ⟨a, t, may, pr⟩ := q
    simp only [norms, Option.bind_eq_bind] at h
    obtain ⟨v, hv, h⟩ := Option.bind_eq_some_iff.1 h
    obtain ⟨w, hw, h⟩ := Option.bind_eq_some_iff.1 h
    rw [List.map_cons, List.nodup_cons] at hn
    obtain ⟨i1, i2⟩ := ih _ h hn.2 (fun q hq hc => hd q (List.mem_cons_of_mem _ hq) (List.mem_cons_of_mem _ hc))
    refine ⟨fun q hq => ?_, fun c hc => ?_⟩
    · rcases List.mem_cons.1 hq with rfl | hq
      · exact ⟨v, w, hv, hw, by rw [i2 _ hn.1, set_same]⟩
      · obtain ⟨v', w', h1, h2, h3⟩ := i1 q hq
        have hne : q.1 ≠ t := fun e => hd q (List.mem_cons_of_mem _ hq) (by rw [e]; simp)
        exact ⟨v', w', by rw [← h1, set_ne _ _ _ _ hne], h2, h3⟩
    · rw [List.map_cons, List.mem_cons, not_or] at hc
      rw [i2 c hc.2, set_ne _ _ _ _ hc.1]

theorem analytic_stages (cc cs : Bool) (d1 d2 d3 add : Dict) (s : Attrs) (nP nρ : ℝ)
    (h : assembleAnalytic cc cs d1 d2 d3 add = some (s, nP, nρ)) :
    ∃ s1 s2 s3 p ρ c1 v2 as u, interpolationModes d1 d2 d3
        (extractMode true d3 3 (extractMode true d2 2 (extractMode true d1 1 (extractCommon true d1 fun _ => none)))) = some s1 ∧
      extractAdditional true add s1 = some s2 ∧ s2 "_p0_profile" = some p ∧ s2 "_rho0_profile" = some ρ ∧
      normFactor cc cs p = some nP ∧ normFactor cc cs ρ = some nρ ∧ analyticProfiles cc cs nP nρ add s2 = some s3 ∧
      arrOf s3 "_c1_profile" = some c1 ∧ arrOf s3 "_v2_profile" = some v2 ∧
      arrOf s3 "_as_profile" = some as ∧ arrOf s3 "_u_profile" = some u ∧
      cuts cc cs (polytropicCuts ++ structureCuts)
        (set (set (set (set s3 "_c_1" (.arr c1)) "_V_2" (.arr v2)) "_As" (.arr as)) "_U" (.arr u)) = some s ∧
      sameLength s "_V_2" "_Gamma_1" = some () := by
  unfold assembleAnalytic at h
  simp only [Option.bind_eq_bind] at h
  obtain ⟨s1, h1, h⟩ := Option.bind_eq_some_iff.1 h
  obtain ⟨s2, h2, h⟩ := Option.bind_eq_some_iff.1 h
  obtain ⟨p, h3, h⟩ := Option.bind_eq_some_iff.1 h
  obtain ⟨ρ, h4, h⟩ := Option.bind_eq_some_iff.1 h
  obtain ⟨nP', h5, h⟩ := Option.bind_eq_some_iff.1 h
  obtain ⟨nρ', h6, h⟩ := Option.bind_eq_some_iff.1 h
  obtain ⟨s3, h8, h⟩ := Option.bind_eq_some_iff.1 h
  obtain ⟨c1, a1, h⟩ := Option.bind_eq_some_iff.1 h
  obtain ⟨v2, a2, h⟩ := Option.bind_eq_some_iff.1 h
  obtain ⟨as, a3, h⟩ := Option.bind_eq_some_iff.1 h
  obtain ⟨u, a4, h⟩ := Option.bind_eq_some_iff.1 h
  obtain ⟨s4, h10, h⟩ := Option.bind_eq_some_iff.1 h
  obtain ⟨⟨⟩, h9, h⟩ := Option.bind_eq_some_iff.1 h
  cases h
  rw [modeCuts_eq] at h10
  exact ⟨s1, s2, s3, p, ρ, c1, v2, as, u, h1, h2, h3, h4, h5, h6, h8, a1, a2, a3, a4, h10, h9⟩

namespace Spec
/-- The names of the derivatives in the structure dictionary, and under which the object keeps them. -/
def derivativeArrays : List (String × String) :=
  [("drho", "_drho"), ("drho2", "_drho2"), ("drho3", "_drho3"), ("dp", "_dP"), ("dp2", "_dP2"), ("dp3", "_dP3"),
   ("dgravpot", "_dgravpot"), ("dgravpot2", "_dgravpot2"), ("dgravpot3", "_dgravpot3")]

/-- The names of what is kept in units of the central pressure, and of the central density. -/
def scaledByPressure : List (String × String) :=
  [("p", "_P_normed"), ("dp", "_dP_normed"), ("dp2", "_dP2_normed"), ("dp3", "_dP3_normed")]
def scaledByDensity : List (String × String) :=
  [("rho", "_rho_normed"), ("drho", "_drho_normed"), ("drho2", "_drho2_normed"), ("drho3", "_drho3_normed")]
end Spec

/-- **C156.** If the constructor finishes for an analytic polytrope, the first mode has the finest grid, the structure has as many
points, the scales are the central values of the structure, every array (also of derivatives) is that of its dictionary, brought to
that grid (modes) and without the cut ends, and the scaled arrays are those divided by the scales. -/
theorem C156_analytic_grid (cc cs : Bool) (d1 d2 d3 add : Dict) (x1 x2 x3 r : List ℝ) (p0 ρ0 : ℝ) (s : Attrs) (nP nρ : ℝ)
    (f1 : Spec.File d1 x1) (f2 : Spec.File d2 x2) (f3 : Spec.File d3 x3) (fa : Spec.PolytropeFile add r p0 ρ0)
    (hp : Spec.Profiles ["Gamma_1"] d1 x1)
    (ha : Spec.Profiles ((Spec.polytropeArrays ++ Spec.derivativeArrays).map Prod.fst) add r)
    (h : assembleAnalytic cc cs d1 d2 d3 add = some (s, nP, nρ)) :
    x2.length ≤ x1.length ∧ x3.length ≤ x1.length ∧ r.length = x1.length ∧ nP = p0 ∧ nρ = ρ0 ∧
    (∃ x, s "_x" = some (.arr x) ∧ Spec.Trimmed cc cs x1 x) ∧
    (∀ (i : Fin 3), ∀ k ∈ ["xi_r", "xi_h", "y_1", "y_2"], ∀ v, ((![d1, d2, d3] : Fin 3 → Dict) i).get k = some v →
      ∃ w t, Spec.ResampledVal x1 ((![x1, x2, x3] : Fin 3 → List ℝ) i) v w ∧ Spec.TrimmedVal cc cs w t ∧
        s ("_" ++ k ++ "_mode_" ++ toString ((i : ℕ) + 1)) = some t) ∧
    (∀ p ∈ Spec.polytropeArrays ++ Spec.derivativeArrays, ∀ a, add.get p.1 = some (.arr a) →
      ∃ t, Spec.Trimmed cc cs a t ∧ s p.2 = some (.arr t)) ∧
    (∀ p ∈ Spec.scaledByPressure, ∀ a, add.get p.1 = some (.arr a) →
      ∃ t, Spec.Trimmed cc cs a t ∧ s p.2 = some (.arr (t.map (· / p0)))) ∧
    (∀ p ∈ Spec.scaledByDensity, ∀ a, add.get p.1 = some (.arr a) →
      ∃ t, Spec.Trimmed cc cs a t ∧ s p.2 = some (.arr (t.map (· / ρ0)))) ∧
    ∀ v, d1.get "Gamma_1" = some v → ∃ t, Spec.TrimmedVal cc cs v t ∧ s "_Gamma_1" = some t := by
  obtain ⟨s1, s2, s3, p, ρ, c1, v2, as, u, h1, h2, h3, h4, h5, h6, h7, a1, a2, a3, a4, h9, h8⟩ := analytic_stages _ _ _ _ _ _ _ _ _ h
  have hk := pick_files f1 f2 f3
  obtain ⟨m1, m2, m3, xs, e1, e2, e3, ex, hx, hget, hoth⟩ := interpolation_spec _ _ _ _ _ h1 hk
  rw [file_size f1] at e1; rw [file_size f2] at e2; rw [file_size f3] at e3
  cases e1; cases e2; cases e3
  obtain ⟨xs', ex', l1, l2, l3, luniq⟩ := longest_grid d1 d2 d3 x1 x2 x3 f1 f2 f3
  rw [ex] at ex'; cases ex'
  have hc2 := two_le cc cs
  have hpos := f1.pos
  obtain ⟨hrx, hl⟩ := pressure_found d1 d2 d3 add s1 s2 xs r p0 ρ0 p hk h1 hx h2 fa h3
  have hp0 : p = .num p0 := by
    obtain ⟨w, hw, hs⟩ := sameLoop_get _ _ _ _ hl fa.keys "p0" _ fa.pressure (by decide)
    cases hw
    exact Option.some.inj (h3.symm.trans hs)
  have hρ0 : ρ = .num ρ0 := by
    obtain ⟨w, hw, hs⟩ := sameLoop_get _ _ _ _ hl fa.keys "rho0" _ fa.density (by decide)
    cases hw
    exact Option.some.inj (h4.symm.trans hs)
  subst hp0 hρ0
  have enP : p0 = nP := Option.some.inj h5
  have enρ : ρ0 = nρ := Option.some.inj h6
  subst enP enρ
  -- arrays of the structure file
  have hlenr : ∀ k ∈ (Spec.polytropeArrays ++ Spec.derivativeArrays).map Prod.fst, ∀ a, add.get k = some (.arr a) →
      a.length = xs.length := by
    intro k hkm a hv
    obtain ⟨b, hb1, hb2⟩ := ha k hkm
    rw [hv] at hb1; cases hb1
    rw [hb2, hrx]
  have sub : ∀ k ∈ Spec.polytropeArrays.map Prod.fst, k ∈ (Spec.polytropeArrays ++ Spec.derivativeArrays).map Prod.fst := by
    intro k hk; rw [List.map_append]; exact List.mem_append_left _ hk
  have harr : ∀ k ∈ Spec.polytropeArrays.map Prod.fst, ∀ a, add.get k = some (.arr a) → s2 (profileName k) = some (.arr a) := by
    intro k hkm v hv
    obtain ⟨w, hw, hs⟩ := sameLoop_get _ _ _ _ hl fa.keys k _ hv
      ((by decide : ∀ k ∈ Spec.polytropeArrays.map Prod.fst, k ∉ exclude true) k hkm)
    cases hw
    exact hs
  have hx2 : s2 "_x" = some (.arr xs) := by
    rw [sameLoop_other _ _ _ _ hl "_x" (fun k _ => profileName_ne k _ (by decide)), hx]
  have hΓ : s2 "_Gamma_1" = some ((d1.get "Gamma_1").getD .null) := by
    rw [sameLoop_other _ _ _ _ hl "_Gamma_1" (fun k _ => profileName_ne k _ (by decide))]
    exact common_before true d1 d2 d3 s1 hk h1 "Gamma_1" (by decide) (by decide)
  obtain ⟨vΓ, hvΓ, lΓ⟩ := hp "Gamma_1" (by decide)
  rw [hvΓ] at hΓ
  -- the stages of the derivatives
  unfold analyticProfiles at h7
  simp only [Option.bind_eq_bind] at h7
  obtain ⟨r', hr', h7⟩ := Option.bind_eq_some_iff.1 h7
  obtain ⟨R, hR, h7⟩ := Option.bind_eq_some_iff.1 h7
  obtain ⟨xs', hxs', h7⟩ := Option.bind_eq_some_iff.1 h7
  obtain ⟨sa, hsa, h7⟩ := Option.bind_eq_some_iff.1 h7
  obtain ⟨sb, hsb, h7⟩ := Option.bind_eq_some_iff.1 h7
  have er : r' = r := by
    have := harr "r" (by decide) r fa.radii
    unfold arrOf at hr'
    rw [show ("_r_profile" : String) = profileName "r" from rfl, this] at hr'
    exact (Option.some.inj hr').symm
  have exs : xs' = xs := by
    unfold arrOf at hxs'
    rw [hx2] at hxs'
    exact (Option.some.inj hxs').symm
  subst er exs
  rw [show decide (r'.length ≠ xs'.length) = false by simp [hrx]] at hsa
  obtain ⟨p1, p2⟩ := fill_spec _ _ _ _ _ _ hsa (by decide)
  obtain ⟨b1, b2⟩ := cuts_spec _ _ _ _ _ hsb (by decide)
  obtain ⟨q1, q2⟩ := norms_spec _ _ _ _ _ h7 (by decide) (by decide)
  obtain ⟨b3, b4⟩ := cuts_spec _ _ _ _ _ h9 (by decide)
  have last : ∀ c, c ∉ polytropicCuts ++ structureCuts → s c = s3 c := by
    intro c hc
    have hne : c ≠ "_c_1" ∧ c ≠ "_V_2" ∧ c ≠ "_As" ∧ c ≠ "_U" := by
      refine ⟨?_, ?_, ?_, ?_⟩ <;> rintro rfl <;> exact hc (by decide)
    rw [b4 c hc, set_ne _ _ _ _ hne.2.2.2, set_ne _ _ _ _ hne.2.2.1, set_ne _ _ _ _ hne.2.1, set_ne _ _ _ _ hne.1]
  -- the attributes that the analytic cut treats
  have first : ∀ c ∈ analyticCuts, s c = (sa c).map (Val.cut (slice cc cs)) := by
    intro c hc
    have hd : ∀ c ∈ analyticCuts, c ∉ polytropicCuts ++ structureCuts ∧ c ∉ normList.map (·.2.1) := by decide
    rw [last c (hd c hc).1, q2 c (hd c hc).2, b1 c hc]
  have hΓs : s "_Gamma_1" = some (.arr (slice cc cs vΓ)) := by
    rw [first _ (by decide), p2 _ (by decide), hΓ]; rfl
  have plain : ∀ k ∈ ["c1", "v2", "as", "u"], s3 (profileName k) = s2 (profileName k) := by
    intro k hk
    have hd : ∀ k ∈ ["c1", "v2", "as", "u"], profileName k ∉ normList.map (·.2.1) ∧ profileName k ∉ analyticCuts ∧
      profileName k ∉ derivArrays.map Prod.snd := by decide
    obtain ⟨t1, t2, t3⟩ := hd k hk
    rw [q2 _ t1, b2 _ t2, p2 _ t3]
  have str : ∀ (k : String) (v' : List ℝ), k ∈ ["c1", "v2", "as", "u"] → arrOf s3 (profileName k) = some v' →
      ∀ a, add.get k = some (.arr a) → a = v' ∧ a.length = xs'.length := by
    intro k v' hkm hv' a hv
    have hd : ∀ k ∈ ["c1", "v2", "as", "u"], k ∈ Spec.polytropeArrays.map Prod.fst := by decide
    unfold arrOf at hv'
    rw [plain k hkm, harr k (hd k hkm) a hv] at hv'
    exact ⟨Option.some.inj hv', hlenr k (sub k (hd k hkm)) a hv⟩
  have hlen : xs' = x1 := by
    apply luniq
    obtain ⟨a, hpa, -⟩ := ha "v2" (by decide)
    obtain ⟨rfl, la⟩ := str "v2" v2 (by decide) a2 a hpa
    have hv : s "_V_2" = some (.arr (slice cc cs a)) := by
      rw [b3 _ (by decide), set_ne _ _ _ _ (by decide), set_ne _ _ _ _ (by decide), set_same]; rfl
    unfold sameLength arrOf at h8
    rw [hΓs, hv] at h8
    simp only [Option.bind_eq_bind, Option.bind_some, slice_length] at h8
    split at h8
    · next hc => omega
    · cases h8
  subst hlen
  have trim : ∀ a : List ℝ, a.length = xs'.length → Spec.Trimmed cc cs a (slice cc cs a) := fun a e => slice_trimmed _ _ _ (by omega)
  have pre : ∀ k ∈ ["mr", "rho", "r", "p", "brunt_n2"], ∀ a, add.get k = some (.arr a) →
      Spec.Trimmed cc cs a (slice cc cs a) ∧ sb (profileName k) = some (.arr (slice cc cs a)) ∧
        s (profileName k) = some (.arr (slice cc cs a)) := by
    intro k hkm a hv
    have hd : ∀ k ∈ ["mr", "rho", "r", "p", "brunt_n2"], k ∈ Spec.polytropeArrays.map Prod.fst ∧ profileName k ∈ analyticCuts ∧
      profileName k ∉ derivArrays.map Prod.snd := by decide
    obtain ⟨t1, t2, t3⟩ := hd k hkm
    refine ⟨trim a (hlenr k (sub k t1) a hv), ?_, ?_⟩
    · rw [b1 _ t2, p2 _ t3, harr k t1 a hv]; rfl
    · rw [first _ t2, p2 _ t3, harr k t1 a hv]; rfl
  have der : ∀ q ∈ Spec.derivativeArrays, ∀ a, add.get q.1 = some (.arr a) →
      Spec.Trimmed cc cs a (slice cc cs a) ∧ sb q.2 = some (.arr (slice cc cs a)) ∧ s q.2 = some (.arr (slice cc cs a)) := by
    intro q hq a hv
    have hd : ∀ q ∈ Spec.derivativeArrays, q ∈ derivArrays ∧ q.2 ∈ analyticCuts ∧
      q.1 ∈ (Spec.polytropeArrays ++ Spec.derivativeArrays).map Prod.fst := by decide
    obtain ⟨t1, t2, t3⟩ := hd q hq
    have e := p1 q t1
    rw [hv, Option.getD_some] at e
    refine ⟨trim a (hlenr _ t3 a hv), ?_, ?_⟩
    · rw [b1 _ t2, e]; rfl
    · rw [first _ t2, e]; rfl
  have nrm : ∀ (a t : String) (may pr : Bool) (b : List ℝ), (a, t, may, pr) ∈ normList → sb a = some (.arr b) →
      s t = some (.arr (b.map (· / if pr then p0 else ρ0))) := by
    intro a t may pr b hm hb
    obtain ⟨v, w, w1, w2, w3⟩ := q1 _ hm
    rw [hb] at w1; cases w1
    cases w2
    rw [last t ((by decide : ∀ q ∈ normList, q.2.1 ∉ polytropicCuts ++ structureCuts) _ hm)]
    exact w3
  refine ⟨l2, l3, hrx, rfl, rfl, ⟨slice cc cs xs', ?_, trim _ rfl⟩, ?_, ?_, ?_, ?_, ?_⟩
  · rw [first "_x" (by decide), p2 _ (by decide), hx2]; rfl
  · intro i k hkm v hv
    have hki : k ∈ interpList := (by decide : ∀ k ∈ ["xi_r", "xi_h", "y_1", "y_2"], k ∈ interpList) k hkm
    obtain ⟨xp, w, z1, z2, z3⟩ := hget i k v hv hki
    have hxp : xp = (![xs', x2, x3] : Fin 3 → List ℝ) i := by
      fin_cases i
      · exact Option.some.inj (z1.symm.trans (file_grid f1))
      · exact Option.some.inj (z1.symm.trans (file_grid f2))
      · exact Option.some.inj (z1.symm.trans (file_grid f3))
    subst hxp
    refine ⟨w, w.cut (slice cc cs), interpVal_spec _ _ _ _ z2, resampled_trim _ _ _ _ _ _ (interpVal_spec _ _ _ _ z2) f1.pos, ?_⟩
    have hmem : ∀ k ∈ ["xi_r", "xi_h", "y_1", "y_2"], ∀ i : Fin 3, modeName k (i + 1) ∈ polytropicCuts ++ structureCuts ∧
        modeName k (i + 1) ∉ analyticCuts ∧ modeName k (i + 1) ∉ derivArrays.map Prod.snd ∧
        modeName k (i + 1) ∉ normList.map (·.2.1) ∧ modeName k (i + 1) ≠ "_c_1" ∧ modeName k (i + 1) ≠ "_V_2" ∧
        modeName k (i + 1) ≠ "_As" ∧ modeName k (i + 1) ≠ "_U" := by decide
    obtain ⟨t1, t2, t2', t2'', t3, t4, t5, t6⟩ := hmem k hkm i
    change s (modeName k (i + 1)) = _
    rw [b3 _ t1, set_ne _ _ _ _ t6, set_ne _ _ _ _ t5, set_ne _ _ _ _ t4, set_ne _ _ _ _ t3, q2 _ t2'', b2 _ t2, p2 _ t2',
      sameLoop_other _ _ _ _ hl _ (fun k' _ => (mode_profile_ne k k' i).symm), z3]
    rfl
  · intro q hq a hv
    rcases List.mem_append.1 hq with hq | hq
    · simp only [Spec.polytropeArrays, List.mem_cons, List.not_mem_nil, or_false] at hq
      rcases hq with rfl | rfl | rfl | rfl | rfl | rfl | rfl | rfl | rfl
      · obtain ⟨y1, -, y3⟩ := pre "mr" (by decide) a hv; exact ⟨_, y1, y3⟩
      · obtain ⟨y1, -, y3⟩ := pre "rho" (by decide) a hv; exact ⟨_, y1, y3⟩
      · obtain ⟨y1, -, y3⟩ := pre "r" (by decide) a hv; exact ⟨_, y1, y3⟩
      · obtain ⟨y1, -, y3⟩ := pre "p" (by decide) a hv; exact ⟨_, y1, y3⟩
      · obtain ⟨y1, -, y3⟩ := pre "brunt_n2" (by decide) a hv; exact ⟨_, y1, y3⟩
      · obtain ⟨rfl, la⟩ := str "c1" c1 (by decide) a1 a hv
        refine ⟨slice cc cs a, trim _ la, ?_⟩
        rw [b3 _ (by decide), set_ne _ _ _ _ (by decide), set_ne _ _ _ _ (by decide), set_ne _ _ _ _ (by decide), set_same]; rfl
      · obtain ⟨rfl, la⟩ := str "v2" v2 (by decide) a2 a hv
        refine ⟨slice cc cs a, trim _ la, ?_⟩
        rw [b3 _ (by decide), set_ne _ _ _ _ (by decide), set_ne _ _ _ _ (by decide), set_same]; rfl
      · obtain ⟨rfl, la⟩ := str "as" as (by decide) a3 a hv
        refine ⟨slice cc cs a, trim _ la, ?_⟩
        rw [b3 _ (by decide), set_ne _ _ _ _ (by decide), set_same]; rfl
      · obtain ⟨rfl, la⟩ := str "u" u (by decide) a4 a hv
        refine ⟨slice cc cs a, trim _ la, ?_⟩
        rw [b3 _ (by decide), set_same]; rfl
    · obtain ⟨y1, -, y3⟩ := der q hq a hv
      exact ⟨_, y1, y3⟩
  · intro q hq a hv
    simp only [Spec.scaledByPressure, List.mem_cons, List.not_mem_nil, or_false] at hq
    rcases hq with rfl | rfl | rfl | rfl
    · obtain ⟨y1, y2, -⟩ := pre "p" (by decide) a hv
      exact ⟨_, y1, nrm "_p_profile" _ false true _ (by decide) y2⟩
    · obtain ⟨y1, y2, -⟩ := der ("dp", "_dP") (by decide) a hv
      exact ⟨_, y1, nrm _ _ true true _ (by decide) y2⟩
    · obtain ⟨y1, y2, -⟩ := der ("dp2", "_dP2") (by decide) a hv
      exact ⟨_, y1, nrm _ _ true true _ (by decide) y2⟩
    · obtain ⟨y1, y2, -⟩ := der ("dp3", "_dP3") (by decide) a hv
      exact ⟨_, y1, nrm _ _ true true _ (by decide) y2⟩
  · intro q hq a hv
    simp only [Spec.scaledByDensity, List.mem_cons, List.not_mem_nil, or_false] at hq
    rcases hq with rfl | rfl | rfl | rfl
    · obtain ⟨y1, y2, -⟩ := pre "rho" (by decide) a hv
      exact ⟨_, y1, nrm "_rho_profile" _ false false _ (by decide) y2⟩
    · obtain ⟨y1, y2, -⟩ := der ("drho", "_drho") (by decide) a hv
      exact ⟨_, y1, nrm _ _ true false _ (by decide) y2⟩
    · obtain ⟨y1, y2, -⟩ := der ("drho2", "_drho2") (by decide) a hv
      exact ⟨_, y1, nrm _ _ true false _ (by decide) y2⟩
    · obtain ⟨y1, y2, -⟩ := der ("drho3", "_drho3") (by decide) a hv
      exact ⟨_, y1, nrm _ _ true false _ (by decide) y2⟩
  · intro v hv
    rw [hv] at hvΓ
    cases hvΓ
    exact ⟨.arr (slice cc cs vΓ), trim _ lΓ, hΓs⟩

end
end Verif.Assemble
