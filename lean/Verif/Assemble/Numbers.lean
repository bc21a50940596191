import Verif.Assemble.AnalyticClaims
/-!
# C159: the numbers of the modes and of the star in the coefficient object
-/
namespace Verif.Assemble
noncomputable section
open Classical

namespace Spec
/-- Quantities of the star in a mode file of GYRE for a stellar model. -/
def starNames : List String :=
  ["M_star", "R_star", "L_star", "Delta_p", "Delta_g", "V_2", "As", "U", "c_1", "Gamma_1", "nabla", "nabla_ad", "dnabla_ad",
   "upsilon_r", "c_lum", "c_rad", "c_thn", "c_thk", "c_eps", "kap_rho", "kap_T", "eps_rho", "eps_T", "Omega_rot", "M_r", "P", "rho",
   "T", "x"]
/-- The same for a polytrope. -/
def starNamesPoly : List String := ["Omega_rot", "G", "M_star", "R_star", "Gamma_1"]

/-- No number of the structure dictionary has the name of a number of a mode or of the star. -/
def Apart (add : Dict) : Prop :=
  ∀ k v, (k, Val.num v) ∈ add → k ∉ ["M_star", "R_star", "L_star"] ∧ ∀ k' (i : Fin 3), "_" ++ k ≠ "_" ++ k' ++ "_mode_" ++ toString ((i : ℕ) + 1)

/-- The object has the numbers of the three files: those of each mode under the name of the mode, those of the star from the first. -/
def HasNumbers (star : List String) (d1 d2 d3 : Dict) (s : Attrs) : Prop :=
  (∀ (i : Fin 3) k v, ((![d1, d2, d3] : Fin 3 → Dict) i).get k = some (.num v) → k ∉ star →
    s ("_" ++ k ++ "_mode_" ++ toString ((i : ℕ) + 1)) = some (.num v)) ∧
  ∀ a ∈ ["M_star", "R_star"], ∀ v, d1.get a = some (.num v) → s ("_" ++ a) = some (.num v)
end Spec

theorem extractMode_get (poly : Bool) (d : Dict) (i : Fin 3) (s : Attrs) (hd : (d.map Prod.fst).Nodup) (k : String) (v : Val)
    (hv : d.lookup k = some v) (hk : k ∉ common poly) : extractMode poly d (i + 1) s (modeName k (i + 1)) = some v := by
  induction d generalizing s with
  | nil => simp at hv
  | cons p d ih =>
    obtain ⟨k', v'⟩ := p
    rw [List.map_cons, List.nodup_cons] at hd
    rw [List.lookup_cons] at hv
    by_cases hkk : k = k'
    · subst hkk
      simp only [beq_self_eq_true, Option.some.injEq] at hv
      subst hv
      have keep : ∀ (d : Dict) (s : Attrs), k ∉ d.map Prod.fst →
          extractMode poly d (i + 1) s (modeName k (i + 1)) = s (modeName k (i + 1)) := by
        intro d
        induction d with
        | nil => intro s _; rfl
        | cons p d ih2 =>
          intro s hn
          rw [List.map_cons, List.mem_cons, not_or] at hn
          unfold extractMode at ih2 ⊢
          rw [List.foldl_cons, ih2 _ hn.2]
          split
          · rfl
          · rw [set_ne]
            intro e
            exact hn.1 (modeName_inj _ _ i i e).1
      have := keep d (set s (modeName k (i + 1)) v') hd.1
      unfold extractMode at this ⊢
      rw [List.foldl_cons, if_neg hk, this, set_same]
    · have hb : (k == k') = false := by simpa using hkk
      rw [hb] at hv
      have := ih (if k' ∈ common poly then s else set s (modeName k' (i + 1)) v') hd.2 hv
      unfold extractMode at this ⊢
      rw [List.foldl_cons]
      exact this

theorem interpLoop_num (xs xp : List ℝ) (i : Fin 3) (d : Dict) (s s' : Attrs) (h : interpLoop xs xp (i + 1) d s = some s')
    (k : String) (hk : k ∉ interpList) : s' (modeName k (i + 1)) = s (modeName k (i + 1)) := by
  induction d generalizing s with
  | nil => cases h; rfl
  | cons p d ih =>
    obtain ⟨k', v'⟩ := p
    unfold interpLoop at h
    split at h
    · rename_i hk'
      obtain ⟨w, -, h⟩ := Option.bind_eq_some_iff.1 h
      rw [ih _ h, set_ne]
      intro e
      exact hk ((modeName_inj _ _ i i e).1 ▸ hk')
    · exact ih _ h

/-- A number of mode `i` survives the interpolation. -/
theorem interpolation_num (d1 d2 d3 : Dict) (s s' : Attrs) (h : interpolationModes d1 d2 d3 s = some s')
    (hd : ∀ i, ((pick d1 d2 d3 i).map Prod.fst).Nodup) (i : Fin 3) (k : String) (v : ℝ)
    (hv : (pick d1 d2 d3 i).get k = some (.num v)) : s' (modeName k (i + 1)) = s (modeName k (i + 1)) := by
  have hk : k ∉ interpList := by
    intro hk
    obtain ⟨_, _, _, _, -, -, -, -, -, hg, -⟩ := interpolation_spec _ _ _ _ _ h hd
    obtain ⟨xp, w, -, hw, -⟩ := hg i k _ hv hk
    simp [interpVal] at hw
  unfold interpolationModes at h
  simp only [Option.bind_eq_bind] at h
  obtain ⟨n1, e1, h⟩ := Option.bind_eq_some_iff.1 h
  obtain ⟨n2, e2, h⟩ := Option.bind_eq_some_iff.1 h
  obtain ⟨n3, e3, h⟩ := Option.bind_eq_some_iff.1 h
  obtain ⟨xs, ex, h⟩ := Option.bind_eq_some_iff.1 h
  obtain ⟨s1, a1, h⟩ := Option.bind_eq_some_iff.1 h
  obtain ⟨s2, a2, a3⟩ := Option.bind_eq_some_iff.1 h
  have step : ∀ (j : Fin 3) (d : Dict) (t t' : Attrs), interpMode xs d (j + 1) t = some t' →
      t' (modeName k (i + 1)) = t (modeName k (i + 1)) := by
    intro j d t t' ht
    by_cases hij : j = i
    · subst hij
      unfold interpMode at ht
      obtain ⟨xp, -, ht⟩ := Option.bind_eq_some_iff.1 ht
      rw [interpLoop_num _ _ _ _ _ _ ht k hk, set_ne _ _ _ _ (x_not_mode k j)]
    · exact interpMode_other _ _ _ _ _ ht _ (fun k' e => hij (modeName_inj _ _ j i e).2) (x_not_mode k i)
  rw [step 2 d3 _ _ a3, step 1 d2 _ _ a2, step 0 d1 _ _ a1]

/-- After the modes are read and interpolated. -/
theorem modes_numbers (poly : Bool) (d1 d2 d3 : Dict) (s1 : Attrs) (hd : ∀ i, ((pick d1 d2 d3 i).map Prod.fst).Nodup)
    (h1 : interpolationModes d1 d2 d3 (extractMode poly d3 3 (extractMode poly d2 2 (extractMode poly d1 1
      (extractCommon poly d1 fun _ => none)))) = some s1) (i : Fin 3) (k : String) (v : ℝ)
    (hv : (pick d1 d2 d3 i).get k = some (.num v)) (hk : k ∉ common poly) : s1 (modeName k (i + 1)) = some (.num v) := by
  rw [interpolation_num d1 d2 d3 _ _ h1 hd i k v hv]
  have other : ∀ (j : Fin 3), j ≠ i → ∀ (d : Dict) (s : Attrs), extractMode poly d (j + 1) s (modeName k (i + 1)) = s (modeName k (i + 1)) :=
    fun j hj d s => extractMode_other _ _ _ _ _ fun k' e => hj (modeName_inj _ _ j i e).2
  match i with
  | 0 => exact (other 2 (by decide) d3 _).trans ((other 1 (by decide) d2 _).trans (extractMode_get poly d1 0 _ (hd 0) k _ hv hk))
  | 1 => exact (other 2 (by decide) d3 _).trans (extractMode_get poly d2 1 _ (hd 1) k _ hv hk)
  | 2 => exact extractMode_get poly d3 2 _ (hd 2) k _ hv hk

/-- Cuts keep numbers. -/
theorem cuts_num (cc cs : Bool) (ks : List String) (s s' : Attrs) (h : cuts cc cs ks s = some s') (hn : ks.Nodup) (c : String) (v : ℝ)
    (hv : s c = some (.num v)) : s' c = some (.num v) := by
  obtain ⟨a, b⟩ := cuts_spec _ _ _ _ _ h hn
  by_cases hc : c ∈ ks
  · rw [a c hc, hv]; rfl
  · rw [b c hc, hv]

theorem modeName_under (k : String) (i : Fin 3) : ("_" ++ k ++ "_mode_" ++ toString ((i : ℕ) + 1)) = modeName k (i + 1) := rfl

theorem star_common (poly : Bool) (a : String) (ha : a ∈ ["M_star", "R_star"]) : a ∈ common poly ∧ a ≠ "x" :=
  (by decide : ∀ poly : Bool, ∀ a ∈ ["M_star", "R_star"], a ∈ common poly ∧ a ≠ "x") poly a ha

/-- After the structure is read. -/
theorem structure_numbers (poly : Bool) (d1 d2 d3 add : Dict) (s1 s2 : Attrs) (hd : ∀ i, ((pick d1 d2 d3 i).map Prod.fst).Nodup)
    (h1 : interpolationModes d1 d2 d3 (extractMode poly d3 3 (extractMode poly d2 2 (extractMode poly d1 1
      (extractCommon poly d1 fun _ => none)))) = some s1) (h2 : extractAdditional poly add s1 = some s2) (hn : Spec.Apart add) :
    Spec.HasNumbers (common poly) d1 d2 d3 s2 := by
  constructor
  · intro i k v hv hk
    rw [modeName_under, additional_other _ _ _ _ h2 _ (fun k' e => mode_profile_ne k k' i e.symm) (fun k' v' h' => (hn k' v' h').2 k i)]
    exact modes_numbers poly d1 d2 d3 s1 hd h1 i k v hv hk
  · intro a ha v hv
    obtain ⟨hc, hx⟩ := star_common poly a ha
    rw [additional_other _ _ _ _ h2 _ (common_not_profile poly a hc) (fun k' v' h' e => (hn k' v' h').1 (by
      rw [under_inj _ _ e]; exact (by decide : ∀ a ∈ ["M_star", "R_star"], a ∈ ["M_star", "R_star", "L_star"]) a ha)),
      common_before poly d1 d2 d3 s1 hd h1 a hc hx, hv]
    rfl

/-- Numbers kept by one step are kept by `HasNumbers`. -/
theorem HasNumbers.step {star : List String} {d1 d2 d3 : Dict} {s s' : Attrs} (h : Spec.HasNumbers star d1 d2 d3 s)
    (hs : ∀ k (i : Fin 3) v, s (modeName k (i + 1)) = some (.num v) → s' (modeName k (i + 1)) = some (.num v))
    (ha : ∀ a ∈ ["M_star", "R_star"], ∀ v, s ("_" ++ a) = some (.num v) → s' ("_" ++ a) = some (.num v)) :
    Spec.HasNumbers star d1 d2 d3 s' :=
  ⟨fun i k v hv hk => hs k i v (h.1 i k v hv hk), fun a hm v hv => ha a hm v (h.2 a hm v hv)⟩

theorem HasNumbers.cuts {star : List String} {d1 d2 d3 : Dict} {s s' : Attrs} (h : Spec.HasNumbers star d1 d2 d3 s) (cc cs : Bool)
    (ks : List String) (hn : ks.Nodup) (hc : Assemble.cuts cc cs ks s = some s') : Spec.HasNumbers star d1 d2 d3 s' :=
  HasNumbers.step h (fun _ _ v hv => cuts_num cc cs ks s s' hc hn _ v hv) (fun _ _ v hv => cuts_num cc cs ks s s' hc hn _ v hv)

theorem HasNumbers.set {star : List String} {d1 d2 d3 : Dict} {s : Attrs} (h : Spec.HasNumbers star d1 d2 d3 s) (c : String) (v : Val)
    (hm : ∀ i : Fin 3, ¬ ("_mode_" ++ toString ((i : ℕ) + 1)).toList <:+ c.toList) (ha : ∀ a ∈ ["M_star", "R_star"], "_" ++ a ≠ c) :
    Spec.HasNumbers star d1 d2 d3 (Assemble.set s c v) :=
  HasNumbers.step h (fun k i w hw => by rw [set_ne _ _ _ _ (modeName_ne k i c hm)]; exact hw)
    (fun a hh w hw => by rw [set_ne _ _ _ _ (ha a hh)]; exact hw)

theorem common_eq (poly : Bool) : common poly = if poly then Spec.starNamesPoly else Spec.starNames := by cases poly <;> rfl

/-- **C159.** Stellar models. -/
theorem C159_numbers (cc cs : Bool) (d1 d2 d3 add : Dict) (s : Attrs) (nP nρ : ℝ)
    (k1 : (d1.map Prod.fst).Nodup) (k2 : (d2.map Prod.fst).Nodup) (k3 : (d3.map Prod.fst).Nodup) (hn : Spec.Apart add)
    (h : assembleMesa cc cs d1 d2 d3 add = some (s, nP, nρ)) : Spec.HasNumbers Spec.starNames d1 d2 d3 s := by
  obtain ⟨s1, s2, s3, g, p, ρ, h1, h2, h3, h4, h5, h6, h7, h8, h9⟩ := mesa_stages _ _ _ _ _ _ _ _ _ h
  have hk : ∀ i, ((pick d1 d2 d3 i).map Prod.fst).Nodup := by
    intro i; fin_cases i
    exacts [k1, k2, k3]
  have := structure_numbers false d1 d2 d3 add s1 s2 hk h1 h2 hn
  rw [common_eq] at this
  exact HasNumbers.cuts (HasNumbers.cuts (HasNumbers.set this "_G" g (by decide) (by decide)) cc cs preCuts (by decide) h7) cc cs _
    (by decide) h9

/-- The four structure coefficients of polytropes. -/
theorem HasNumbers.coefficients {star : List String} {d1 d2 d3 : Dict} {s : Attrs} (h : Spec.HasNumbers star d1 d2 d3 s) (a b c d : Val) :
    Spec.HasNumbers star d1 d2 d3 (Assemble.set (Assemble.set (Assemble.set (Assemble.set s "_c_1" a) "_V_2" b) "_As" c) "_U" d) :=
  HasNumbers.set (HasNumbers.set (HasNumbers.set (HasNumbers.set h "_c_1" a (by decide) (by decide)) "_V_2" b (by decide) (by decide)) "_As" c (by decide)
    (by decide)) "_U" d (by decide) (by decide)

/-- **C159.** Polytropes with numerical derivatives. -/
theorem C159_polytrope (cc cs : Bool) (d1 d2 d3 add : Dict) (s : Attrs) (nP nρ : ℝ)
    (k1 : (d1.map Prod.fst).Nodup) (k2 : (d2.map Prod.fst).Nodup) (k3 : (d3.map Prod.fst).Nodup) (hn : Spec.Apart add)
    (h : assemblePoly cc cs d1 d2 d3 add = some (s, nP, nρ)) : Spec.HasNumbers Spec.starNamesPoly d1 d2 d3 s := by
  obtain ⟨s1, s2, s3, p, ρ, c1, v2, as, u, h1, h2, h3, h4, h5, h6, h7, h8, h9, h10, h11, h12, h13⟩ := poly_stages _ _ _ _ _ _ _ _ _ h
  have hk : ∀ i, ((pick d1 d2 d3 i).map Prod.fst).Nodup := by
    intro i; fin_cases i
    exacts [k1, k2, k3]
  have := structure_numbers true d1 d2 d3 add s1 s2 hk h1 h2 hn
  rw [common_eq] at this
  exact HasNumbers.cuts (HasNumbers.coefficients (HasNumbers.cuts this cc cs preCutsPoly (by decide) h7) _ _ _ _) cc cs _ (by decide) h13

theorem fill_other (i : Bool) (xs nr : List ℝ) (add : Dict) (l : List (String × String)) (s s' : Attrs)
    (h : fill i xs nr add l s = some s') (c : String) (hc : c ∉ l.map Prod.snd) : s' c = s c := by
  induction l generalizing s with
  | nil => cases h; rfl
  | cons q l ih =>
    obtain ⟨k, a⟩ := q
    rw [List.map_cons, List.mem_cons, not_or] at hc
    simp only [fill] at h
    obtain ⟨w, -, h⟩ := Option.bind_eq_some_iff.1 h
    rw [ih _ h hc.2, set_ne _ _ _ _ hc.1]

theorem not_mode_of (l : List String) (hl : ∀ c ∈ l, ∀ i : Fin 3, ¬ ("_mode_" ++ toString ((i : ℕ) + 1)).toList <:+ c.toList) (k : String)
    (i : Fin 3) : modeName k (i + 1) ∉ l := fun hc => modeName_ne k i _ (hl _ hc) rfl

/-- **C159.** Analytic polytropes. -/
theorem C159_analytic (cc cs : Bool) (d1 d2 d3 add : Dict) (s : Attrs) (nP nρ : ℝ)
    (k1 : (d1.map Prod.fst).Nodup) (k2 : (d2.map Prod.fst).Nodup) (k3 : (d3.map Prod.fst).Nodup) (hn : Spec.Apart add)
    (h : assembleAnalytic cc cs d1 d2 d3 add = some (s, nP, nρ)) : Spec.HasNumbers Spec.starNamesPoly d1 d2 d3 s := by
  obtain ⟨s1, s2, s3, p, ρ, c1, v2, as, u, h1, h2, h3, h4, h5, h6, h7, h8, h9, h10, h11, h12, h13⟩ := analytic_stages _ _ _ _ _ _ _ _ _ h
  have hk : ∀ i, ((pick d1 d2 d3 i).map Prod.fst).Nodup := by
    intro i; fin_cases i
    exacts [k1, k2, k3]
  have hs := structure_numbers true d1 d2 d3 add s1 s2 hk h1 h2 hn
  rw [common_eq] at hs
  unfold analyticProfiles at h7
  simp only [Option.bind_eq_bind] at h7
  obtain ⟨r, -, h7⟩ := Option.bind_eq_some_iff.1 h7
  obtain ⟨R, -, h7⟩ := Option.bind_eq_some_iff.1 h7
  obtain ⟨xs, -, h7⟩ := Option.bind_eq_some_iff.1 h7
  obtain ⟨t1, g1, h7⟩ := Option.bind_eq_some_iff.1 h7
  obtain ⟨t2, g2, h7⟩ := Option.bind_eq_some_iff.1 h7
  have m1 : Spec.HasNumbers Spec.starNamesPoly d1 d2 d3 t1 := by
    refine HasNumbers.step hs (fun k i v hv => ?_) (fun a ha v hv => ?_)
    · rw [fill_other _ _ _ _ _ _ _ g1 _ (not_mode_of _ (by decide) k i)]; exact hv
    · rw [fill_other _ _ _ _ _ _ _ g1 _ ((by decide : ∀ a ∈ ["M_star", "R_star"], "_" ++ a ∉ derivArrays.map Prod.snd) a ha)]; exact hv
  have m2 := HasNumbers.cuts m1 cc cs analyticCuts (by decide) g2
  obtain ⟨-, hoth⟩ := norms_spec _ _ _ _ _ h7 (by decide) (by decide)
  have m3 : Spec.HasNumbers Spec.starNamesPoly d1 d2 d3 s3 := by
    refine HasNumbers.step m2 (fun k i v hv => ?_) (fun a ha v hv => ?_)
    · rw [hoth _ (not_mode_of _ (by decide) k i)]; exact hv
    · rw [hoth _ ((by decide : ∀ a ∈ ["M_star", "R_star"], "_" ++ a ∉ normList.map (·.2.1)) a ha)]; exact hv
  exact HasNumbers.cuts (HasNumbers.coefficients m3 _ _ _ _) cc cs _ (by decide) h12

/-- A concrete object: the numbers of points of the three modes. -/
example (cc cs : Bool) : ∃ s nP nρ, assembleMesa cc cs file5 file4 file5' add3 = some (s, nP, nρ) ∧ s "_n_mode_1" = some (.num 5) ∧
    s "_n_mode_2" = some (.num 4) := by
  obtain ⟨s, nP, nρ, h⟩ := C94_accepted cc cs _ _ _ _ _ _ _ _ demo5.1 demo4.1 demo5'.1 demo5.2 ⟨_, rfl⟩ demo3.1 demo3.2 (by simp) (by simp)
  have hn : Spec.Apart add3 := by
    intro k v hv
    simp [add3, demoAdd] at hv
    obtain ⟨rfl, -⟩ := hv
    exact ⟨by decide, fun k' i => (modeName_ne k' i _ (by decide)).symm⟩
  have := C159_numbers cc cs _ _ _ _ s nP nρ demo5.1.keys demo4.1.keys demo5'.1.keys hn h
  refine ⟨s, nP, nρ, h, ?_, ?_⟩
  · have e := this.1 0 "n" 5 (by simpa using demo5.1.size) (by decide)
    exact e
  · have e := this.1 1 "n" 4 (by simpa using demo4.1.size) (by decide)
    exact e

/-- A derivative that the structure dictionary does not have stays `None` after scaling. -/
theorem C156_missing_derivative (nP nρ : ℝ) (s s' : Attrs) (h : norms nP nρ normList s = some s') :
    ∀ q ∈ [("_dP", "_dP_normed"), ("_dP2", "_dP2_normed"), ("_dP3", "_dP3_normed"), ("_drho", "_drho_normed"), ("_drho2", "_drho2_normed"),
      ("_drho3", "_drho3_normed")], s q.1 = some .null → s' q.2 = some .null := by
  obtain ⟨a, -⟩ := norms_spec _ _ _ _ _ h (by decide) (by decide)
  intro q hq hs
  have key : ∀ q ∈ normList, q.2.2.1 = true → s q.1 = some .null → s' q.2.1 = some .null := by
    intro q hq hm hs
    obtain ⟨v, w, h1, h2, h3⟩ := a q hq
    rw [hs] at h1; cases h1
    rw [hm] at h2
    simp only [divVal, if_true, Option.some.injEq] at h2
    rw [h3, ← h2]
  simp only [List.mem_cons, List.not_mem_nil, or_false] at hq
  rcases hq with rfl | rfl | rfl | rfl | rfl | rfl
  · exact key ("_dP", "_dP_normed", true, true) (by simp [normList]) rfl hs
  · exact key ("_dP2", "_dP2_normed", true, true) (by simp [normList]) rfl hs
  · exact key ("_dP3", "_dP3_normed", true, true) (by simp [normList]) rfl hs
  · exact key ("_drho", "_drho_normed", true, false) (by simp [normList]) rfl hs
  · exact key ("_drho2", "_drho2_normed", true, false) (by simp [normList]) rfl hs
  · exact key ("_drho3", "_drho3_normed", true, false) (by simp [normList]) rfl hs

/-- A missing pressure or density profile raises. -/
theorem C156_missing_profile_raises (nP nρ : ℝ) (s : Attrs) (h : s "_p_profile" = some .null ∨ s "_rho_profile" = some .null) :
    norms nP nρ normList s = none := by
  cases hr : norms nP nρ normList s with
  | none => rfl
  | some s' =>
    exfalso
    obtain ⟨a, -⟩ := norms_spec _ _ _ _ _ hr (by decide) (by decide)
    rcases h with h | h
    · obtain ⟨v, w, h1, h2, -⟩ := a ("_p_profile", "_P_normed", false, true) (by simp [normList])
      rw [h] at h1; cases h1
      simp [divVal] at h2
    · obtain ⟨v, w, h1, h2, -⟩ := a ("_rho_profile", "_rho_normed", false, false) (by simp [normList])
      rw [h] at h1; cases h1
      simp [divVal] at h2

end
end Verif.Assemble
