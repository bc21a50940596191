import Verif.Load.Basic
import Mathlib.Data.List.GetD
/-!
# C125–C127: units of loaded data
-/
namespace Verif.Load
open Verif.Inlist (Str)

noncomputable section

/-! ### Unit conversion -/

theorem unitConvert_keys {t : Table} {sys : Str} : ∀ {d e : Dict V}, unitConvert t sys d = some e →
    e.map (·.1) = d.map (·.1) ∧ ∀ k ∈ d.map (·.1), k ∈ t.map (·.1) := by
  intro d
  induction d with
  | nil => intro e h; cases h; simp
  | cons x d ih =>
    intro e h
    obtain ⟨k, v⟩ := x
    unfold unitConvert at h
    obtain ⟨o, ho, h⟩ := Option.bind_eq_some_iff.1 h
    obtain ⟨w, hw, h⟩ := Option.bind_eq_some_iff.1 h
    obtain ⟨r, hr, h⟩ := Option.bind_eq_some_iff.1 h
    have := Option.some.inj h
    subst this
    obtain ⟨i1, i2⟩ := ih hr
    refine ⟨by simp [i1], ?_⟩
    intro q hq
    rcases List.mem_cons.1 hq with g | g
    · subst g
      by_contra hc
      rw [get_none.2 hc] at ho
      cases ho
    · exact i2 q g

/-- In every system but `'SI'` nothing is changed; only unknown names raise. -/
theorem unitConvert_other {t : Table} {sys : Str} (hs : sys ≠ "SI".toList) : ∀ {d : Dict V}, (∀ k ∈ d.map (·.1), k ∈ t.map (·.1)) →
    unitConvert t sys d = some d := by
  intro d
  induction d with
  | nil => intro _; rfl
  | cons x d ih =>
    intro h
    obtain ⟨k, v⟩ := x
    have hk : get t k ≠ none := fun q => get_none.1 q (h k (by simp))
    obtain ⟨o, ho⟩ := Option.ne_none_iff_exists'.1 hk
    unfold unitConvert
    have ff : factorFor sys o = none := if_neg hs
    rw [ih (fun q hq => h q (List.mem_cons_of_mem _ hq)), ho]
    simp only [Option.bind_eq_bind, Option.bind_some, ff]
    rfl

theorem unitConvert_other_iff {t : Table} {sys : Str} (hs : sys ≠ "SI".toList) {d e : Dict V} :
    unitConvert t sys d = some e ↔ e = d ∧ ∀ k ∈ d.map (·.1), k ∈ t.map (·.1) := by
  constructor
  · intro h
    have hk := (unitConvert_keys h).2
    rw [unitConvert_other hs hk] at h
    exact ⟨(Option.some.inj h).symm, hk⟩
  · rintro ⟨rfl, h⟩
    exact unitConvert_other hs h

/-! ### The names of the tables -/

theorem detail_nodim : ∀ k ∈ "G".toList :: detailTable.map (·.1), ∀ k' ∈ "G".toList :: detailTable.map (·.1),
    k' ≠ k ++ "_dim".toList := by decide +kernel

theorem G_not_detail : "G".toList ∉ detailTable.map (·.1) := by decide +kernel

/-- A raw dictionary with the constant, in cgs units. -/
theorem detail_pre {gS gC : ℝ} {sys : Str} {d d' : Dict V} (h : loadDetail gS gC sys d = some d') :
    (∀ k ∈ d.map (·.1), k ∈ detailTable.map (·.1)) ∧ ∃ e, unitConvert detailTable sys d = some e ∧
      e.map (·.1) = d.map (·.1) ∧ dimensionalize dimGyre (put e "G".toList (.sc (gFor gS gC sys))) = some d' := by
  unfold loadDetail at h
  obtain ⟨e, he, h⟩ := Option.bind_eq_some_iff.1 h
  exact ⟨(unitConvert_keys he).2, e, he, (unitConvert_keys he).1, h⟩

theorem noDim_detail {e : Dict V} (x : V) (he : ∀ k ∈ e.map (·.1), k ∈ detailTable.map (·.1)) : NoDim (put e "G".toList x) := by
  have hall : ∀ k ∈ (put e "G".toList x).map (·.1), k ∈ "G".toList :: detailTable.map (·.1) := by
    intro k hk
    rw [keys_put] at hk
    split_ifs at hk
    · exact List.mem_cons_of_mem _ (he k hk)
    · rcases List.mem_append.1 hk with g | g
      · exact List.mem_cons_of_mem _ (he k g)
      · rw [List.mem_singleton] at g
        exact g ▸ List.mem_cons_self
  intro a ha b hb
  exact detail_nodim _ (hall _ (List.mem_map_of_mem (f := (·.1)) ha)) _ (hall _ (List.mem_map_of_mem (f := (·.1)) hb))

theorem mem_put_of_mem {α : Type} {d : Dict α} {k k' : Str} {v w : α} (h : (k, v) ∈ d) (hk : k ≠ k') : (k, v) ∈ put d k' w := by
  unfold put
  split_ifs with hc
  · refine List.mem_map.2 ⟨(k, v), h, ?_⟩
    have : (k == k') = false := by simpa using hk
    simp [this]
  · exact List.mem_append_left _ h

theorem mem_put_new {α : Type} {d : Dict α} (hd : (d.map (·.1)).Nodup) (k : Str) (v : α) : (k, v) ∈ put d k v :=
  get_mem (by rw [get_put, if_pos rfl])

/-- The three kinds of names. -/
theorem detail_kinds {gS gC : ℝ} {d d' : Dict V} (hd : (d.map (·.1)).Nodup) (h : loadDetail gS gC "CGS".toList d = some d') :
    let b := put d "G".toList (.sc gC)
    (∀ k v, (k, v) ∈ b → k ∈ dimGyre.avoid → get d' k = some v) ∧
    (∀ k v, (k, v) ∈ b → k ∉ dimGyre.avoid → get dimGyre.facs (upper k) = none →
      ∃ w, dimVal dimGyre k v (.sc 1) = some w ∧ get d' k = some w) ∧
    (∀ k v f, (k, v) ∈ b → k ∉ dimGyre.avoid → get dimGyre.facs (upper k) = some f →
      get d' k = some v ∧ ∃ u w, f.eval b = some u ∧ dimVal dimGyre k v u = some w ∧
        get d' (k ++ "_dim".toList) = some w) ∧
    (∀ n, get d' n ≠ none → (∃ v, (n, v) ∈ b) ∨
      ∃ k v f, (k, v) ∈ b ∧ k ∉ dimGyre.avoid ∧ get dimGyre.facs (upper k) = some f ∧ n = k ++ "_dim".toList) := by
  obtain ⟨hk, e, he, _, h2⟩ := detail_pre h
  have hs : "CGS".toList ≠ "SI".toList := by decide
  have hg : gFor gS gC "CGS".toList = gC := by
    unfold gFor
    rw [if_neg (by decide)]
  obtain ⟨rfl, _⟩ := (unitConvert_other_iff hs).1 he
  rw [hg] at h2
  exact dim_get (nodup_put hd _ _) (noDim_detail _ hk) h2

/-! ### Values in units -/

theorem vals_length_range (l : List ℂ) (f : ℕ → ℂ) (g : ℂ → ℂ) (h : ∀ i (hi : i < l.length), f i = g l[i]) :
    l.map g = (List.range l.length).map f := by
  apply List.ext_getElem
  · simp
  · intro i h1 h2
    simp only [List.getElem_map, List.getElem_range]
    exact (h i (by simpa using h1)).symm

theorem inUnits_scalar {v w : V} {u : ℝ} (h : vals w = (vals v).map (· * (u : ℂ))) : InUnits w v [(u : ℂ)] := by
  unfold InUnits
  rw [h]
  apply vals_length_range
  intro i hi
  rw [List.getD_eq_getElem _ _ hi]
  rfl

theorem toC_eq (z : ℝ × ℝ) (f : ℝ) : toC z f = (⟨z.1, z.2⟩ : ℂ) * (f : ℂ) := by
  apply Complex.ext <;> simp [toC]

theorem reIm_sc {v w : V} {u : ℝ} (h : reIm v (.sc u) = some w) : vals w = (vals v).map (· * (u : ℂ)) ∧ ∃ zs, w = .cx zs := by
  cases v with
  | pair z => cases h; exact ⟨by simp [vals, toC_eq], _, rfl⟩
  | pairs zs =>
    cases h
    refine ⟨?_, _, rfl⟩
    simp only [vals, List.map_map]
    exact List.map_congr_left fun z _ => toC_eq z u
  | _ => cases h

theorem vmul_sc {v w : V} {u : ℝ} (h : vmul v (.sc u) = some w) : vals w = (vals v).map (· * (u : ℂ)) := by
  cases v with
  | sc a => cases h; simp [vals]
  | ar as =>
    cases h
    simp only [vals, List.map_map]
    exact List.map_congr_left fun a _ => by simp
  | cx zs => cases h; simp [vals]
  | _ => cases h

theorem dimVal_sc {c : DimClass} {k : Str} {v w : V} {u : ℝ} (h : dimVal c k v (.sc u) = some w) :
    vals w = (vals v).map (· * (u : ℂ)) := by
  unfold dimVal at h
  split_ifs at h
  · exact (reIm_sc h).1
  · exact vmul_sc h

theorem vmul_one {v w : V} (h : vmul v (.sc 1) = some w) : w = v := by
  cases v with
  | sc a => cases h; simp
  | ar as => cases h; simp
  | cx zs => cases h; simp
  | _ => cases h

theorem reIm_unit {v w : V} {u : V} (h : reIm v u = some w) (hu : (∃ x, u = .sc x) ∨ ∃ xs, u = .ar xs) :
    InUnits w v (vals u) ∧ ∃ zs, w = .cx zs := by
  rcases hu with ⟨x, rfl⟩ | ⟨xs, rfl⟩
  · obtain ⟨h1, h2⟩ := reIm_sc h
    exact ⟨inUnits_scalar h1, h2⟩
  · cases v with
    | pair z =>
      match xs, h with
      | [f], h =>
        cases h
        refine ⟨?_, _, rfl⟩
        exact inUnits_scalar (by simp [vals, toC_eq])
    | pairs zs =>
      simp only [reIm] at h
      by_cases hl : zs.length = xs.length
      · rw [if_pos hl] at h
        cases h
        refine ⟨?_, _, rfl⟩
        unfold InUnits
        apply List.ext_getElem
        · simp [vals, hl]
        · intro i h1 h2
          have hi : i < zs.length := by simpa [vals] using h2
          have hx : i < xs.length := hl ▸ hi
          simp only [vals, List.getElem_zipWith, List.getElem_map, List.getElem_range, toC_eq]
          rw [List.getD_eq_getElem _ _ (by simpa using hi), List.getElem_map]
          congr 1
          unfold unitAt
          split_ifs with h1
          · have : i = 0 := by simp at h1; omega
            subst this
            rw [List.getD_eq_getElem _ _ (by simpa using hx), List.getElem_map]
          · rw [List.getD_eq_getElem _ _ (by simpa using hx), List.getElem_map]
      · rw [if_neg hl] at h
        match xs, h with
        | [f], h =>
          cases h
          refine ⟨?_, _, rfl⟩
          apply inUnits_scalar
          simp only [vals, List.map_map]
          exact List.map_congr_left fun z _ => toC_eq z f
    | _ => cases h

/-! ### C125 -/

theorem num_eq {d : Dict V} {k : String} {x : ℝ} (h : get d k.toList = some (.sc x)) : num d k = some x := by
  unfold num
  rw [h]

theorem scalarUnits_keys (s : Star) : ∀ e ∈ scalarUnits s, ∀ k ∈ e.1, k.toList ∉ dimGyre.avoid ∧ k.toList ≠ "G".toList ∧
    ∃ f, get dimGyre.facs (upper k.toList) = some f ∧
      ∀ b : Dict V, get b "G".toList = some (.sc s.G) → s.Of b → f.eval b = some (.sc e.2) := by
  have hr : ∀ b : Dict V, get b "G".toList = some (.sc s.G) → s.Of b →
      (Fac.radius.eval b = some (.sc s.R) ∧ Fac.potential.eval b = some (.sc (s.G * s.M / s.R)) ∧
       Fac.gravity.eval b = some (.sc (s.G * s.M / s.R ^ 2)) ∧
       Fac.frequency.eval b = some (.sc (Real.sqrt (s.G * s.M / s.R ^ 3))) ∧
       Fac.inertia.eval b = some (.sc (s.M * s.R ^ 2)) ∧ Fac.energy.eval b = some (.sc (s.G * s.M ^ 2 / s.R))) := by
    rintro b hG ⟨hM, hR⟩
    refine ⟨hR, ?_, ?_, ?_, ?_, ?_⟩ <;>
    · unfold Fac.eval
      simp only [num_eq hM, num_eq hR]
      first | rfl | (rw [num_eq hG]; rfl)
  intro e he
  simp only [scalarUnits, List.mem_cons, List.not_mem_nil, or_false] at he
  have hk : ∀ (f : Fac) (l : List String), (∀ k ∈ l, k.toList ∉ dimGyre.avoid ∧ k.toList ≠ "G".toList ∧
      get dimGyre.facs (upper k.toList) = some f) → ∀ u : ℝ,
      (∀ b : Dict V, get b "G".toList = some (.sc s.G) → s.Of b → f.eval b = some (.sc u)) →
      ∀ k ∈ l, k.toList ∉ dimGyre.avoid ∧ k.toList ≠ "G".toList ∧ ∃ f, get dimGyre.facs (upper k.toList) = some f ∧
        ∀ b : Dict V, get b "G".toList = some (.sc s.G) → s.Of b → f.eval b = some (.sc u) :=
    fun f l hl u hu k hk => ⟨(hl k hk).1, (hl k hk).2.1, f, (hl k hk).2.2, hu⟩
  rcases he with rfl | rfl | rfl | rfl | rfl | rfl
  · exact hk .radius ["xi_r", "xi_h", "xi_r_ref", "xi_h_ref"] (by decide +kernel) _ fun b h1 h2 => (hr b h1 h2).1
  · exact hk .potential ["eul_phi", "eul_phi_ref"] (by decide +kernel) _ fun b h1 h2 => (hr b h1 h2).2.1
  · exact hk .gravity ["deul_phi", "deul_phi_ref"] (by decide +kernel) _ fun b h1 h2 => (hr b h1 h2).2.2.1
  · exact hk .frequency ["Omega_rot", "Delta_p", "Delta_g"] (by decide +kernel) _ fun b h1 h2 => (hr b h1 h2).2.2.2.1
  · exact hk .inertia ["E", "E_p", "E_g", "dE_dx"] (by decide +kernel) _ fun b h1 h2 => (hr b h1 h2).2.2.2.2.1
  · exact hk .energy ["H", "W", "W_eps", "tau_ss", "tau_tr", "dW_dx", "dW_eps_dx", "dtau_ss_dx", "dtau_tr_dx"] (by decide +kernel) _ fun b h1 h2 => (hr b h1 h2).2.2.2.2.2

/-- C125: in a loaded GYRE file every quantity stored in units of stellar parameters is there in cgs units, too, under its name
with `_dim`. -/
theorem C125_scalar_units (gS gC : ℝ) (d d' : Dict V) (hd : (d.map (·.1)).Nodup) (h : loadDetail gS gC "CGS".toList d = some d')
    (s : Star) (hs : s.Of d) (hG : s.G = gC) (e : List String × ℝ) (he : e ∈ scalarUnits s) (k : String) (hk : k ∈ e.1) (v : V)
    (hv : get d k.toList = some v) :
    ∃ w, get d' (k.toList ++ "_dim".toList) = some w ∧ InUnits w v [(e.2 : ℂ)] := by
  obtain ⟨h1, h2, f, hf, hev⟩ := scalarUnits_keys s e he k hk
  have hmem := mem_put_of_mem (w := V.sc gC) (get_mem hv) h2
  have hb : s.Of (put d "G".toList (.sc gC)) := by
    unfold Star.Of
    rw [get_put, get_put, if_neg (by decide), if_neg (by decide)]
    exact hs
  obtain ⟨_, u, w, hu, hw, hg⟩ := (detail_kinds hd h).2.2.1 _ v f hmem h1 hf
  rw [hev _ (by rw [get_put, if_pos rfl, hG]) hb] at hu
  cases hu
  exact ⟨w, hg, inUnits_scalar (dimVal_sc hw)⟩

theorem profileUnits_keys : ∀ e ∈ profileUnits, e.1.toList ∉ dimGyre.avoid ∧ e.1.toList ≠ "G".toList ∧ e.1.toList ∈ dimGyre.complex ∧
    e.2.toList ≠ "G".toList ∧ ∃ f, get dimGyre.facs (upper e.1.toList) = some f ∧ ∀ b : Dict V, f.eval b = get b e.2.toList := by
  intro e he
  have hk : ∀ (a b : String) (f : Fac), (a.toList ∉ dimGyre.avoid ∧ a.toList ≠ "G".toList ∧ a.toList ∈ dimGyre.complex ∧
      b.toList ≠ "G".toList ∧ get dimGyre.facs (upper a.toList) = some f) → (∀ d : Dict V, f.eval d = get d b.toList) →
      (a.toList ∉ dimGyre.avoid ∧ a.toList ≠ "G".toList ∧ a.toList ∈ dimGyre.complex ∧
    b.toList ≠ "G".toList ∧ ∃ f, get dimGyre.facs (upper a.toList) = some f ∧ ∀ d : Dict V, f.eval d = get d b.toList) :=
    fun a b f h hf => ⟨h.1, h.2.1, h.2.2.1, h.2.2.2.1, f, h.2.2.2.2, hf⟩
  simp only [profileUnits, List.mem_cons, List.not_mem_nil, or_false] at he
  rcases he with rfl | rfl | rfl | rfl | rfl | rfl | rfl | rfl
  · exact hk _ _ .pressure (by decide +kernel) fun _ => rfl
  · exact hk _ _ .pressure (by decide +kernel) fun _ => rfl
  · exact hk _ _ .density (by decide +kernel) fun _ => rfl
  · exact hk _ _ .density (by decide +kernel) fun _ => rfl
  · exact hk _ _ .temperature (by decide +kernel) fun _ => rfl
  · exact hk _ _ .temperature (by decide +kernel) fun _ => rfl
  · exact hk _ _ .luminosity (by decide +kernel) fun _ => rfl
  · exact hk _ _ .luminosity (by decide +kernel) fun _ => rfl

/-- C125: pressure, density, temperature and luminosity perturbations are multiplied by the profile, point by point. -/
theorem C125_profile_units (gS gC : ℝ) (d d' : Dict V) (hd : (d.map (·.1)).Nodup)
    (h : loadDetail gS gC "CGS".toList d = some d') (e : String × String) (he : e ∈ profileUnits) (v : V)
    (hv : get d e.1.toList = some v) :
    ∃ u w, get d e.2.toList = some u ∧ get d' (e.1.toList ++ "_dim".toList) = some w ∧ InUnits w v (vals u) := by
  obtain ⟨h1, h2, h3, h4, f, hf, hev⟩ := profileUnits_keys e he
  have hmem := mem_put_of_mem (w := V.sc gC) (get_mem hv) h2
  obtain ⟨_, u, w, hu, hw, hg⟩ := (detail_kinds hd h).2.2.1 _ v f hmem h1 hf
  rw [hev, get_put, if_neg h4.symm] at hu
  refine ⟨u, w, hu, hg, ?_⟩
  unfold dimVal at hw
  rw [if_pos h3] at hw
  refine (reIm_unit hw ?_).1
  cases u with
  | sc x => exact Or.inl ⟨x, rfl⟩
  | ar xs => exact Or.inr ⟨xs, rfl⟩
  | pair z => cases v <;> cases hw
  | pairs z => cases v <;> cases hw
  | cx z => cases v <;> cases hw
  | st z => cases v <;> cases hw

/-- Two values with the same numbers; a compound value may have become a complex array. -/
def SameNumbers (w v : V) : Prop := w = v ∨ (∃ zs, w = .cx zs ∧ vals v = zs)

/-- C125: what was read stays, as the same numbers, and nothing is there but what was read, `G` and the `_dim` quantities of what
was read. -/
theorem C125_kept (gS gC : ℝ) (d d' : Dict V) (hd : (d.map (·.1)).Nodup) (h : loadDetail gS gC "CGS".toList d = some d') :
    (∀ k v, get d k = some v → ∃ w, get d' k = some w ∧ SameNumbers w v) ∧ get d' "G".toList = some (.sc gC) ∧
    ∀ n, get d' n ≠ none → n = "G".toList ∨ (∃ v, get d n = some v) ∨ ∃ k v, get d k = some v ∧ n = k ++ "_dim".toList := by
  obtain ⟨k1, k2, k3, k4⟩ := detail_kinds hd h
  have one : ∀ k v, (k, v) ∈ put d "G".toList (.sc gC) → ∃ w, get d' k = some w ∧ SameNumbers w v := by
    intro k v hkv
    by_cases ha : k ∈ dimGyre.avoid
    · exact ⟨v, k1 k v hkv ha, Or.inl rfl⟩
    · cases hf : get dimGyre.facs (upper k) with
      | none =>
        obtain ⟨w, hw, hg⟩ := k2 k v hkv ha hf
        refine ⟨w, hg, ?_⟩
        unfold dimVal at hw
        split_ifs at hw
        · obtain ⟨q, zs, rfl⟩ := reIm_sc hw
          refine Or.inr ⟨zs, rfl, ?_⟩
          simpa [vals] using q.symm
        · exact Or.inl (vmul_one hw)
      | some f => exact ⟨v, (k3 k v f hkv ha hf).1, Or.inl rfl⟩
  have hnG : ∀ k v, get d k = some v → k ≠ "G".toList := by
    intro k v hkv q
    have := (detail_pre h).1 k (List.mem_map_of_mem (f := (·.1)) (get_mem hkv))
    rw [q] at this
    exact G_not_detail this
  refine ⟨fun k v hkv => one k v (mem_put_of_mem (get_mem hkv) (hnG k v hkv)), ?_, ?_⟩
  · obtain ⟨w, hw, hv⟩ := k2 "G".toList (.sc gC) (mem_put_new hd _ _) (by decide +kernel) (by decide +kernel)
    unfold dimVal at hw
    rw [if_neg (by decide +kernel)] at hw
    rw [hv, vmul_one hw]
  · intro n hn
    have back : ∀ m v, (m, v) ∈ put d "G".toList (.sc gC) → m = "G".toList ∨ ∃ v, get d m = some v := by
      intro m v hm
      have := get_of_mem (nodup_put hd _ _) hm
      rw [get_put] at this
      by_cases q : "G".toList = m
      · exact Or.inl q.symm
      · rw [if_neg q] at this
        exact Or.inr ⟨v, this⟩
    rcases k4 n hn with ⟨v, hv⟩ | ⟨k, v, f, hkv, ha, hf, rfl⟩
    · rcases back n v hv with q | q
      · exact Or.inl q
      · exact Or.inr (Or.inl q)
    · rcases back k v hkv with q | ⟨v', q⟩
      · subst q
        have : get dimGyre.facs (upper "G".toList) = none := by decide +kernel
        rw [this] at hf
        cases hf
      · exact Or.inr (Or.inr ⟨k, v', q, rfl⟩)

end

end Verif.Load
