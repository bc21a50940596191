import Verif.Load.Units
/-!
# C125: files of the documented kind are loaded
-/
namespace Verif.Load
open Verif.Inlist (Str)

noncomputable section

/-! ### Specification -/

/-- Quantities of a GYRE file that are complex numbers (a profile, or one number at the reference point or for the mode). -/
def complexNames : List String :=
  ["omega", "freq", "l_i", "lambda", "omega_int", "Yt_1", "Yt_2", "I_0", "I_1", "y_1", "y_2", "y_3", "y_4", "y_5", "y_6",
   "xi_r", "xi_h", "eul_phi", "deul_phi", "lag_S", "lag_L", "xi_r_ref", "xi_h_ref", "eul_phi_ref", "deul_phi_ref", "lag_S_ref",
   "lag_L_ref"]

/-- Complex profiles in units of a profile of the model. -/
def perturbationNames : List String := ["eul_P", "eul_rho", "eul_T", "lag_P", "lag_rho", "lag_T"]

/-- Quantities that are real numbers or profiles of real numbers. -/
def realNames : List String :=
  ["x", "x_ref", "M_star", "R_star", "L_star", "M_r", "P", "rho", "T", "Omega_rot", "Delta_p", "Delta_g", "V_2", "As", "U", "c_1",
   "Gamma_1", "nabla", "nabla_ad", "E", "E_p", "E_g", "E_norm", "E_ratio", "H", "W", "W_eps", "tau_ss", "tau_tr", "dE_dx", "dW_dx",
   "dW_eps_dx", "dtau_ss_dx", "dtau_tr_dx", "eta", "beta", "domega_rot", "dfreq_rot"]

/-- Integers and strings. -/
def labelNames : List String := ["j", "l", "m", "n", "n_p", "n_g", "n_pg", "freq_units", "freq_frame", "prop_type"]

/-- The contents of a GYRE file with `n` points. -/
structure GyreFile (n : ℕ) (d : Dict V) : Prop where
  star : ∃ M R L : ℝ, get d "M_star".toList = some (.sc M) ∧ get d "R_star".toList = some (.sc R) ∧ get d "L_star".toList = some (.sc L)
  profiles : ∀ k ∈ ["P", "rho", "T"], ∃ xs : List ℝ, xs.length = n ∧ get d k.toList = some (.ar xs)
  kinds : ∀ k v, (k, v) ∈ d →
    (∃ c ∈ complexNames, k = c.toList ∧ ((∃ z, v = .pair z) ∨ ∃ zs, v = .pairs zs)) ∨
    (∃ c ∈ perturbationNames, k = c.toList ∧ ∃ zs : List (ℝ × ℝ), zs.length = n ∧ v = .pairs zs) ∨
    (∃ c ∈ realNames, k = c.toList ∧ ((∃ x, v = .sc x) ∨ ∃ xs, v = .ar xs)) ∨
    ∃ c ∈ labelNames, k = c.toList

/-! ### Proof -/

/-- Factors that are numbers. -/
def Fac.scalar : Fac → Bool
  | .pressure => false
  | .density => false
  | .temperature => false
  | _ => true

theorem complex_keys : ∀ c ∈ complexNames, c.toList ∈ detailTable.map (·.1) ∧ c.toList ∈ dimGyre.complex ∧
    (get dimGyre.facs (upper c.toList)).all Fac.scalar = true := by decide +kernel

theorem perturbation_keys : ∀ c ∈ perturbationNames, c.toList ∈ detailTable.map (·.1) ∧ c.toList ∈ dimGyre.complex := by
  decide +kernel

theorem real_keys : ∀ c ∈ realNames, c.toList ∈ detailTable.map (·.1) ∧ c.toList ∉ dimGyre.complex ∧
    (get dimGyre.facs (upper c.toList)).all Fac.scalar = true := by decide +kernel

theorem label_keys : ∀ c ∈ labelNames, c.toList ∈ detailTable.map (·.1) ∧ c.toList ∈ dimGyre.avoid := by decide +kernel

theorem scalar_eval {b : Dict V} {G M R L : ℝ} (h0 : get b "G".toList = some (.sc G)) (h1 : get b "M_star".toList = some (.sc M))
    (h2 : get b "R_star".toList = some (.sc R)) (h3 : get b "L_star".toList = some (.sc L)) (f : Fac) (hf : f.scalar = true) :
    ∃ y : ℝ, f.eval b = some (.sc y) := by
  cases f <;> simp only [Fac.scalar, Bool.false_eq_true] at hf
  · exact ⟨R, h2⟩
  · exact ⟨_, by unfold Fac.eval; rw [num_eq h0, num_eq h1, num_eq h2]; rfl⟩
  · exact ⟨_, by unfold Fac.eval; rw [num_eq h0, num_eq h1, num_eq h2]; rfl⟩
  · exact ⟨_, by unfold Fac.eval; rw [num_eq h0, num_eq h1, num_eq h2]; rfl⟩
  · exact ⟨L, h3⟩
  · exact ⟨_, by unfold Fac.eval; rw [num_eq h1, num_eq h2]; rfl⟩
  · exact ⟨_, by unfold Fac.eval; rw [num_eq h0, num_eq h1, num_eq h2]; rfl⟩

theorem any_eval {n : ℕ} {b : Dict V} {G M R L : ℝ} (h0 : get b "G".toList = some (.sc G))
    (h1 : get b "M_star".toList = some (.sc M)) (h2 : get b "R_star".toList = some (.sc R))
    (h3 : get b "L_star".toList = some (.sc L))
    (h4 : ∀ k ∈ ["P", "rho", "T"], ∃ xs : List ℝ, xs.length = n ∧ get b k.toList = some (.ar xs)) (f : Fac) :
    (∃ y : ℝ, f.eval b = some (.sc y)) ∨ ∃ xs : List ℝ, xs.length = n ∧ f.eval b = some (.ar xs) := by
  cases hf : f.scalar with
  | true => exact .inl (scalar_eval h0 h1 h2 h3 f hf)
  | false =>
    right
    cases f <;> simp only [Fac.scalar, Bool.true_eq_false] at hf
    · exact h4 "P" (by decide)
    · exact h4 "rho" (by decide)
    · exact h4 "T" (by decide)

theorem dimAll_total {c : DimClass} {b : Dict V} : ∀ r : Dict V, (∀ k v, (k, v) ∈ r → ∃ o, dimOne c b k v = some o) →
    ∃ es, dimAll c b r = some es := by
  intro r
  induction r with
  | nil => intro _; exact ⟨[], rfl⟩
  | cons e r ih =>
    intro h
    obtain ⟨k, v⟩ := e
    obtain ⟨o, ho⟩ := h k v List.mem_cons_self
    obtain ⟨es, hes⟩ := ih fun k v hk => h k v (List.mem_cons_of_mem _ hk)
    refine ⟨o.toList ++ es, ?_⟩
    unfold dimAll
    rw [ho, hes]
    rfl

theorem dimOne_total {c : DimClass} {b : Dict V} {k : Str} {v : V}
    (h : ∀ u, ((get c.facs (upper k) = none ∧ u = .sc 1) ∨ ∃ f, get c.facs (upper k) = some f ∧ f.eval b = some u) →
      ∃ w, dimVal c k v u = some w)
    (hf : ∀ f, get c.facs (upper k) = some f → ∃ u, f.eval b = some u) : ∃ o, dimOne c b k v = some o := by
  unfold dimOne
  split_ifs
  · exact ⟨_, rfl⟩
  · unfold dimFac
    cases hg : get c.facs (upper k) with
    | none =>
      obtain ⟨w, hw⟩ := h (.sc 1) (.inl ⟨hg, rfl⟩)
      refine ⟨some (k, w), ?_⟩
      simp [hw]
    | some f =>
      obtain ⟨u, hu⟩ := hf f hg
      obtain ⟨w, hw⟩ := h u (.inr ⟨f, hg, hu⟩)
      refine ⟨some (k ++ "_dim".toList, w), ?_⟩
      simp only [hu, Option.map_some, Option.bind_some, hw]

/-- C125: every file of the documented kind is loaded. -/
theorem C125_loads (gS gC : ℝ) (n : ℕ) (d : Dict V) (hd : (d.map (·.1)).Nodup) (h : GyreFile n d) :
    ∃ d', loadDetail gS gC "CGS".toList d = some d' := by
  obtain ⟨⟨M, R, L, hM, hR, hL⟩, hp, hk⟩ := h
  have hs : "CGS".toList ≠ "SI".toList := by decide
  have hnames : ∀ k ∈ d.map (·.1), k ∈ detailTable.map (·.1) := by
    intro k hkm
    obtain ⟨⟨k', v⟩, hm, rfl⟩ := List.mem_map.1 hkm
    rcases hk k' v hm with ⟨c, hc, rfl, _⟩ | ⟨c, hc, rfl, _⟩ | ⟨c, hc, rfl, _⟩ | ⟨c, hc, rfl⟩
    · exact (complex_keys c hc).1
    · exact (perturbation_keys c hc).1
    · exact (real_keys c hc).1
    · exact (label_keys c hc).1
  unfold loadDetail
  rw [unitConvert_other hs hnames]
  have hg : gFor gS gC "CGS".toList = gC := by
    unfold gFor
    rw [if_neg (by decide)]
  rw [hg]
  set b := put d "G".toList (.sc gC) with hb
  have b0 : get b "G".toList = some (.sc gC) := by rw [hb, get_put, if_pos rfl]
  have b1 : ∀ k : String, k ∈ ["M_star", "R_star", "L_star", "P", "rho", "T"] → get b k.toList = get d k.toList := by
    intro k hk'
    rw [hb, get_put, if_neg]
    revert k
    decide
  have bM := (b1 "M_star" (by decide)).trans hM
  have bR := (b1 "R_star" (by decide)).trans hR
  have bL := (b1 "L_star" (by decide)).trans hL
  have bP : ∀ k ∈ ["P", "rho", "T"], ∃ xs : List ℝ, xs.length = n ∧ get b k.toList = some (.ar xs) := by
    intro k hk'
    obtain ⟨xs, h1, h2⟩ := hp k hk'
    have hm : ∀ k ∈ ["P", "rho", "T"], k ∈ ["M_star", "R_star", "L_star", "P", "rho", "T"] := by decide
    exact ⟨xs, h1, (b1 k (hm k hk')).trans h2⟩
  have hall : ∀ k v, (k, v) ∈ b → ∃ o, dimOne dimGyre b k v = some o := by
    intro k v hkv
    have hev : ∀ f, get dimGyre.facs (upper k) = some f → ∃ u, f.eval b = some u := by
      intro f _
      rcases any_eval b0 bM bR bL bP f with ⟨y, hy⟩ | ⟨xs, _, hy⟩
      exacts [⟨_, hy⟩, ⟨_, hy⟩]
    by_cases hG : k = "G".toList
    · subst hG
      have hv := get_of_mem (nodup_put hd _ _) hkv
      rw [b0] at hv
      cases hv
      refine dimOne_total ?_ hev
      have hn : get dimGyre.facs (upper "G".toList) = none := by decide +kernel
      have hnc : "G".toList ∉ dimGyre.complex := by decide +kernel
      rintro u (⟨_, rfl⟩ | ⟨f, hf, _⟩)
      · unfold dimVal
        rw [if_neg hnc]
        exact ⟨_, rfl⟩
      · rw [hn] at hf; cases hf
    · have hm : (k, v) ∈ d := by
        have h1 := get_of_mem (nodup_put hd _ _) hkv
        rw [get_put, if_neg (Ne.symm hG)] at h1
        exact get_mem h1
      have sc_of : (get dimGyre.facs (upper k)).all Fac.scalar = true →
          ∀ u, ((get dimGyre.facs (upper k) = none ∧ u = .sc 1) ∨ ∃ f, get dimGyre.facs (upper k) = some f ∧ f.eval b = some u) →
          ∃ y : ℝ, u = .sc y := by
        intro ha u hu
        rcases hu with ⟨_, rfl⟩ | ⟨f, hf, hu⟩
        · exact ⟨1, rfl⟩
        · rw [hf] at ha
          obtain ⟨y, hy⟩ := scalar_eval b0 bM bR bL f (by simpa using ha)
          rw [hy] at hu
          exact ⟨y, (Option.some.inj hu).symm⟩
      rcases hk k v hm with ⟨c, hc, rfl, hv⟩ | ⟨c, hc, rfl, zs, hz, rfl⟩ | ⟨c, hc, rfl, hv⟩ | ⟨c, hc, rfl⟩
      · obtain ⟨_, h2, h3⟩ := complex_keys c hc
        refine dimOne_total (fun u hu => ?_) hev
        obtain ⟨y, rfl⟩ := sc_of h3 u hu
        unfold dimVal
        rw [if_pos h2]
        rcases hv with ⟨z, rfl⟩ | ⟨zs, rfl⟩
        exacts [⟨_, rfl⟩, ⟨_, rfl⟩]
      · obtain ⟨_, h2⟩ := perturbation_keys c hc
        refine dimOne_total (fun u hu => ?_) hev
        unfold dimVal
        rw [if_pos h2]
        have hu' : (∃ y : ℝ, u = .sc y) ∨ ∃ xs : List ℝ, xs.length = n ∧ u = .ar xs := by
          rcases hu with ⟨_, rfl⟩ | ⟨f, _, hu⟩
          · exact .inl ⟨1, rfl⟩
          · rcases any_eval b0 bM bR bL bP f with ⟨y, hy⟩ | ⟨xs, hx, hy⟩
            · rw [hy] at hu; exact .inl ⟨y, (Option.some.inj hu).symm⟩
            · rw [hy] at hu; exact .inr ⟨xs, hx, (Option.some.inj hu).symm⟩
        rcases hu' with ⟨y, rfl⟩ | ⟨xs, hx, rfl⟩
        · exact ⟨_, rfl⟩
        · refine ⟨.cx (List.zipWith toC zs xs), ?_⟩
          show (if zs.length = xs.length then _ else _) = _
          rw [if_pos (hz.trans hx.symm)]
      · obtain ⟨_, h2, h3⟩ := real_keys c hc
        refine dimOne_total (fun u hu => ?_) hev
        obtain ⟨y, rfl⟩ := sc_of h3 u hu
        unfold dimVal
        rw [if_neg h2]
        rcases hv with ⟨z, rfl⟩ | ⟨zs, rfl⟩
        exacts [⟨_, rfl⟩, ⟨_, rfl⟩]
      · exact ⟨none, by unfold dimOne; rw [if_pos (label_keys c hc).2]⟩
  obtain ⟨es, hes⟩ := dimAll_total b hall
  refine ⟨es.foldl (fun a e => put a e.1 e.2) b, ?_⟩
  show dimensionalize dimGyre b = _
  unfold dimensionalize
  rw [hes]
  rfl

/-- The contents of a GYRE file of a polytrope: complex quantities, real ones, labels. -/
def PolyFile (d : Dict V) : Prop := ∀ k v, (k, v) ∈ d →
  (∃ c ∈ ["omega", "freq", "l_i", "lambda", "y_1", "y_2", "y_3", "y_4", "xi_r", "xi_h", "eul_phi", "deul_phi"], k = c.toList ∧
    ((∃ z, v = .pair z) ∨ ∃ zs, v = .pairs zs)) ∨
  (∃ c ∈ ["x", "Gamma_1", "Omega_rot", "M_star", "R_star", "G"], k = c.toList ∧ ((∃ x, v = .sc x) ∨ ∃ xs, v = .ar xs)) ∨
  ∃ c ∈ ["l", "label", "m", "n", "n_g", "n_p", "n_pg", "freq_frame", "freq_units"], k = c.toList

/-- C125: every polytrope file of the documented kind is loaded. -/
theorem C125_polytrope_loads (gS gC mass radius : ℝ) (sys : Str) (d : Dict V) (hd : (d.map (·.1)).Nodup) (h : PolyFile d) :
    ∃ d', loadPolyOsc gS gC sys mass radius d = some d' := by
  have hc1 : ∀ c ∈ ["omega", "freq", "l_i", "lambda", "y_1", "y_2", "y_3", "y_4", "xi_r", "xi_h", "eul_phi", "deul_phi"],
      c.toList ∈ reImPoly.complex := by decide +kernel
  have hc2 : ∀ c ∈ ["x", "Gamma_1", "Omega_rot", "M_star", "R_star", "G"], c.toList ∉ reImPoly.complex := by decide +kernel
  have hc3 : ∀ c ∈ ["l", "label", "m", "n", "n_g", "n_p", "n_pg", "freq_frame", "freq_units"], c.toList ∈ reImPoly.avoid := by
    decide +kernel
  have step : ∀ (d : Dict V) (k : String) (x : ℝ), k ∈ ["M_star", "R_star", "G"] → (d.map (·.1)).Nodup → PolyFile d →
      PolyFile (put d k.toList (.sc x)) := by
    intro d k x hk hd h k' v hkv
    have h1 := get_of_mem (nodup_put hd _ _) hkv
    rw [get_put] at h1
    split_ifs at h1 with hq
    · cases h1
      have hm : ∀ c ∈ ["M_star", "R_star", "G"], c ∈ ["x", "Gamma_1", "Omega_rot", "M_star", "R_star", "G"] := by decide
      exact .inr (.inl ⟨k, hm k hk, hq.symm, .inl ⟨x, rfl⟩⟩)
    · exact h k' v (get_mem h1)
  unfold loadPolyOsc dimensionalize
  set b := put (put (put d "G".toList (.sc (gFor gS gC sys))) "M_star".toList (.sc mass)) "R_star".toList (.sc radius)
  have hb : PolyFile b := step _ "R_star" _ (by decide) (nodup_put (nodup_put hd _ _) _ _)
    (step _ "M_star" _ (by decide) (nodup_put hd _ _) (step _ "G" _ (by decide) hd h))
  have hall : ∀ k v, (k, v) ∈ b → ∃ o, dimOne reImPoly b k v = some o := by
    intro k v hkv
    have hn : get reImPoly.facs (upper k) = none := rfl
    have key : (∃ w, dimVal reImPoly k v (.sc 1) = some w) → ∃ o, dimOne reImPoly b k v = some o := by
      intro hw
      refine dimOne_total ?_ ?_
      · rintro u (⟨_, rfl⟩ | ⟨f, hf, _⟩)
        · exact hw
        · rw [hn] at hf; cases hf
      · intro f hf; rw [hn] at hf; cases hf
    rcases hb k v hkv with ⟨c, hc, rfl, hv⟩ | ⟨c, hc, rfl, hv⟩ | ⟨c, hc, rfl⟩
    · apply key
      unfold dimVal
      rw [if_pos (hc1 c hc)]
      rcases hv with ⟨z, rfl⟩ | ⟨zs, rfl⟩
      exacts [⟨_, rfl⟩, ⟨_, rfl⟩]
    · apply key
      unfold dimVal
      rw [if_neg (hc2 c hc)]
      rcases hv with ⟨z, rfl⟩ | ⟨zs, rfl⟩
      exacts [⟨_, rfl⟩, ⟨_, rfl⟩]
    · exact ⟨none, by unfold dimOne; rw [if_pos (hc3 c hc)]⟩
  obtain ⟨es, hes⟩ := dimAll_total b hall
  exact ⟨_, by rw [hes]; rfl⟩

/-- Non-vacuity: a file with two points. -/
example : GyreFile 2 [("M_star".toList, .sc 2), ("R_star".toList, .sc 3), ("L_star".toList, .sc 1), ("l".toList, .sc 1),
    ("omega".toList, .pair (2, 0)), ("P".toList, .ar [3, 4]), ("rho".toList, .ar [3, 1]), ("T".toList, .ar [1, 4]),
    ("xi_r".toList, .pairs [(1, 0), (0, 1)]), ("eul_P".toList, .pairs [(1, 2), (0, 1)])] := by
  refine ⟨⟨2, 3, 1, rfl, rfl, rfl⟩, ?_, ?_⟩
  · intro k hk
    simp only [List.mem_cons, List.not_mem_nil, or_false] at hk
    rcases hk with rfl | rfl | rfl
    exacts [⟨_, rfl, rfl⟩, ⟨_, rfl, rfl⟩, ⟨_, rfl, rfl⟩]
  · intro k v h
    simp only [List.mem_cons, List.not_mem_nil, or_false, Prod.mk.injEq] at h
    rcases h with ⟨rfl, rfl⟩ | ⟨rfl, rfl⟩ | ⟨rfl, rfl⟩ | ⟨rfl, rfl⟩ | ⟨rfl, rfl⟩ | ⟨rfl, rfl⟩ | ⟨rfl, rfl⟩ | ⟨rfl, rfl⟩ | ⟨rfl, rfl⟩ |
      ⟨rfl, rfl⟩
    · exact .inr (.inr (.inl ⟨"M_star", by decide, rfl, .inl ⟨_, rfl⟩⟩))
    · exact .inr (.inr (.inl ⟨"R_star", by decide, rfl, .inl ⟨_, rfl⟩⟩))
    · exact .inr (.inr (.inl ⟨"L_star", by decide, rfl, .inl ⟨_, rfl⟩⟩))
    · exact .inr (.inr (.inr ⟨"l", by decide, rfl⟩))
    · exact .inl ⟨"omega", by decide, rfl, .inl ⟨_, rfl⟩⟩
    · exact .inr (.inr (.inl ⟨"P", by decide, rfl, .inr ⟨_, rfl⟩⟩))
    · exact .inr (.inr (.inl ⟨"rho", by decide, rfl, .inr ⟨_, rfl⟩⟩))
    · exact .inr (.inr (.inl ⟨"T", by decide, rfl, .inr ⟨_, rfl⟩⟩))
    · exact .inl ⟨"xi_r", by decide, rfl, .inr ⟨_, rfl⟩⟩
    · exact .inr (.inl ⟨"eul_P", by decide, rfl, _, rfl, rfl⟩)

end

end Verif.Load
