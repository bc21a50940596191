import Verif.Kernels.Radial
/-! # Property C105: the kernels put together give the energy density of the coupling -/
namespace Verif.Kernels
open Finset Equiv NumInt Coupling
noncomputable section

/-- A value that the radial kernel data hold: term, legend, shell, value. -/
def Spec.ShownRad (d : List (String × RadEntry)) (label : String) (key : Term) (i : ℕ) (v : ℝ) : Prop :=
  ∃ e, (label, e) ∈ d ∧ ∃ (k : ℕ) (row : List ℝ), e.legend[k]? = some key ∧ e.kernel[k]? = some row ∧ row[i]? = some v

/-- A value that the angular kernel data hold, multiplied by what its entry declares: term, legend, latitude,
value. -/
def Spec.ShownAng (μ : ℕ → ℝ) (d : List (String × AngEntry)) (label : String) (key : Term) (j : ℕ) (v : ℝ) : Prop :=
  ∃ e, (label, e) ∈ d ∧ ∃ (k : ℕ) (row : List ℝ) (w : ℝ), e.legend[k]? = some key ∧ e.kernel[k]? = some row ∧
    row[j]? = some w ∧ v = e.factor * (if e.mulMu then μ j else 1) * w / (if e.divSin then √(1 - μ j ^ 2) else 1)

/-- A radial term, with the order of its functions, and the angular terms that go with it, each with the order of
its functions and a correction at every latitude. -/
structure Spec.Product where
  rad : String
  r : Term
  sym : Bool := true
  ang : List (String × Term × (ℕ → ℝ))

/-- The distributions over the modes. -/
def Spec.Product.perms (p : Spec.Product) : Finset (Perm (Fin 3)) := if p.sym then univ else {1}

/-- The sum of products of radial and angular values. -/
def Spec.combine (ps : List Spec.Product) (R A : String → Term → ℝ) (j : ℕ) : ℝ :=
  (ps.map fun p => ∑ π ∈ p.perms, R p.rad (Coupling.Spec.distribute p.r π) *
    (p.ang.map fun a => a.2.2 j * A a.1 (Coupling.Spec.distribute a.2.1 π)).sum).sum

/-- The radial functions of the modes by name, and the angular ones. -/
def Spec.radFn (M : Fin 3 → Coupling.Spec.Mode) (b : String) (k : Fin 3) : ℕ → ℝ :=
  if b = "_z_1" then (M k).z else if b = "_rad_der_x_z_1" then (M k).dz else if b = "_z_2_over_c_1_omega" then (M k).y
  else if b = "_rad_der_x_z_2_c_1_omega" then (M k).dy else (M k).div
def Spec.angFn (μ : ℕ → ℝ) (M : Fin 3 → Coupling.Spec.Mode) (b : String) (k : Fin 3) : ℕ → ℝ :=
  if b = "hr" then (M k).Hr else if b = "ht" then (M k).Ht else if b = "hp" then (M k).Hp
  else if b = "mhr" then fun j => (M k).m * (M k).Hr j
  else if b = "theta_der_hr_theta" then (M k).dHr else if b = "theta_der_ht_theta" then (M k).dHt
  else if b = "theta_der_hp_theta" then (M k).dHp
  else if b = "theta_phi" then fun j => (M k).m * (M k).Ht j - μ j * (M k).Hp j
  else fun j => (μ j * (M k).Ht j - (M k).m * (M k).Hp j) / √(1 - μ j ^ 2)

/-- The kernel data of contribution `nr`, the angular values scaled as their entries declare, combine at shell `i`
and latitude `j` to `v`. -/
def Spec.Combined (o : RadObj) (μ : ℕ → ℝ) (nr : ℤ) (ps : List Spec.Product) (i j : ℕ) (v : ℝ) : Prop :=
  ∃ dr da, radCall o nr = some (some dr) ∧ angCall o.base nr = some (some da) ∧ ∃ R A : String → Term → ℝ,
    (∀ p ∈ ps, ∀ π ∈ p.perms, Spec.ShownRad dr p.rad (Coupling.Spec.distribute p.r π) i (R p.rad (Coupling.Spec.distribute p.r π)) ∧
      ∀ a ∈ p.ang, Spec.ShownAng μ da a.1 (Coupling.Spec.distribute a.2.1 π) j (A a.1 (Coupling.Spec.distribute a.2.1 π))) ∧
    v = Spec.combine ps R A j

/-- The products of the four contributions. -/
def Spec.products1 : List Spec.Product :=
  [{ rad := "term_1", r := ("_rad_der_x_z_1", "_rad_der_x_z_1", "_rad_diverg"), ang := [("term_1", ("hr", "hr", "hr"), 1)] },
   { rad := "term_2", r := ("_z_2_over_c_1_omega", "_z_2_over_c_1_omega", "_rad_diverg"),
     ang := [("term_2", ("theta_der_ht_theta", "theta_der_ht_theta", "hr"), 1), ("term_3", ("phi_phi", "phi_phi", "hr"), 1),
       ("term_4", ("theta_phi", "theta_der_hp_theta", "hr"), 1)] },
   { rad := "term_3", r := ("_z_1", "_z_1", "_rad_diverg"), ang := [("term_1", ("hr", "hr", "hr"), 1)] },
   { rad := "term_4", r := ("_z_2_over_c_1_omega", "_z_1", "_rad_diverg"),
     ang := [("term_5", ("theta_der_ht_theta", "hr", "hr"), 1), ("term_6", ("phi_phi", "hr", "hr"), 1)] },
   { rad := "term_5", r := ("_z_1", "_rad_der_x_z_2_c_1_omega", "_rad_diverg"),
     ang := [("term_7", ("theta_der_hr_theta", "ht", "hr"), 1), ("term_8", ("mhr", "hp", "hr"), 1)] },
   { rad := "term_6", r := ("_rad_diverg", "_z_2_over_c_1_omega", "_rad_der_x_z_2_c_1_omega"),
     ang := [("term_9", ("hr", "ht", "ht"), 1), ("term_10", ("hr", "hp", "hp"), 1)] }]
def Spec.products2 : List Spec.Product :=
  [{ rad := "term_1_gam_min", r := ("_rad_diverg", "_rad_diverg", "_rad_diverg"), sym := false,
     ang := [("term_1", ("hr", "hr", "hr"), 1)] },
   { rad := "term_1_der_gam", r := ("_rad_diverg", "_rad_diverg", "_rad_diverg"), sym := false,
     ang := [("term_1", ("hr", "hr", "hr"), 1)] }]
/-- `c` gives the corrections of the angular terms. -/
def Spec.products3 (c : ℕ → String → ℕ → ℝ) : List Spec.Product :=
  [{ rad := "term_1", r := ("_rad_der_x_z_1", "_z_2_over_c_1_omega", "_rad_der_x_z_2_c_1_omega"),
     ang := [("term_1", ("hr", "ht", "ht"), c 1 "term_1"), ("term_2", ("hr", "hp", "hp"), c 1 "term_2")] },
   { rad := "term_2", r := ("_rad_der_x_z_1", "_z_1", "_rad_der_x_z_2_c_1_omega"),
     ang := [("term_3", ("hr", "theta_der_hr_theta", "ht"), c 2 "term_3"), ("term_4", ("hr", "mhr", "hp"), c 2 "term_4")] },
   { rad := "term_3", r := ("_z_1", "_z_2_over_c_1_omega", "_rad_der_x_z_2_c_1_omega"),
     ang := [("term_1", ("hr", "ht", "ht"), c 3 "term_1"), ("term_2", ("hr", "hp", "hp"), c 3 "term_2"),
       ("term_5", ("theta_der_hr_theta", "theta_der_ht_theta", "ht"), c 3 "term_5"),
       ("term_6", ("mhr", "phi_phi", "hp"), c 3 "term_6"), ("term_7", ("mhr", "theta_der_hp_theta", "ht"), c 3 "term_7"),
       ("term_8", ("theta_der_hr_theta", "theta_phi", "hp"), c 3 "term_8")] },
   { rad := "term_4", r := ("_z_2_over_c_1_omega", "_z_2_over_c_1_omega", "_rad_der_x_z_2_c_1_omega"),
     ang := [("term_9", ("ht", "theta_der_ht_theta", "ht"), c 4 "term_9"), ("term_10", ("hp", "phi_phi", "hp"), c 4 "term_10"),
       ("term_11", ("hp", "theta_der_hp_theta", "ht"), c 4 "term_11"), ("term_12", ("theta_phi", "ht", "hp"), c 4 "term_12")] },
   { rad := "term_5", r := ("_z_1", "_z_1", "_rad_der_x_z_2_c_1_omega"),
     ang := [("term_13", ("theta_der_hr_theta", "hr", "ht"), c 5 "term_13"), ("term_14", ("mhr", "hr", "hp"), c 5 "term_14")] },
   { rad := "term_6", r := ("_z_2_over_c_1_omega", "_z_2_over_c_1_omega", "_z_2_over_c_1_omega"),
     ang := [("term_15", ("theta_der_ht_theta", "theta_phi", "theta_der_hp_theta"), c 6 "term_15"),
       ("term_16", ("theta_der_hp_theta", "theta_phi", "phi_phi"), c 6 "term_16")] },
   { rad := "term_7", r := ("_z_1", "_z_2_over_c_1_omega", "_z_2_over_c_1_omega"),
     ang := [("term_17", ("hr", "theta_phi", "theta_der_hp_theta"), c 7 "term_17")] },
   { rad := "term_8", r := ("_z_1", "_z_2_over_c_1_omega", "_z_2_over_c_1_omega"),
     ang := [("term_18", ("hr", "phi_phi", "phi_phi"), c 8 "term_18"),
       ("term_19", ("hr", "theta_der_ht_theta", "theta_der_ht_theta"), c 8 "term_19")] },
   { rad := "term_9", r := ("_z_1", "_z_1", "_z_2_over_c_1_omega"),
     ang := [("term_20", ("hr", "hr", "theta_der_ht_theta"), c 9 "term_20"), ("term_21", ("hr", "hr", "phi_phi"), c 9 "term_21")] },
   { rad := "term_10", r := ("_rad_der_x_z_1", "_rad_der_x_z_1", "_rad_der_x_z_1"), sym := false,
     ang := [("term_22", ("hr", "hr", "hr"), c 10 "term_22")] },
   { rad := "term_11", r := ("_z_1", "_z_1", "_z_1"), sym := false, ang := [("term_22", ("hr", "hr", "hr"), c 11 "term_22")] },
   { rad := "term_12", r := ("_z_2_over_c_1_omega", "_z_2_over_c_1_omega", "_z_2_over_c_1_omega"), sym := false,
     ang := [("term_23", ("phi_phi", "phi_phi", "phi_phi"), c 12 "term_23"),
       ("term_24", ("theta_der_ht_theta", "theta_der_ht_theta", "theta_der_ht_theta"), c 12 "term_24")] }]
def Spec.products4 : List Spec.Product :=
  [{ rad := "term_1", r := ("_z_1", "_z_2_over_c_1_omega", "_z_2_over_c_1_omega"),
     ang := [("term_1", ("hr", "ht", "ht"), 1), ("term_2", ("hr", "hp", "hp"), 1)] },
   { rad := "term_2", r := ("_z_1", "_z_2_over_c_1_omega", "_z_2_over_c_1_omega"),
     ang := [("term_1", ("hr", "ht", "ht"), 1), ("term_2", ("hr", "hp", "hp"), 1)] },
   { rad := "term_3", r := ("_z_1", "_z_1", "_z_1"), sym := false, ang := [("term_3", ("hr", "hr", "hr"), 1)] }]

/-! ### The values -/

/-- Value of the radial kernel. -/
def rval (nr : ℤ) (S : Coupling.Spec.Star) (E : ℝ) (M : Fin 3 → Coupling.Spec.Mode) (i : ℕ) (label : String) (key : Term) : ℝ :=
  match (radLoads nr).find? fun l => l.label == label with
  | some l => Spec.product (Spec.radFn M) key i * l.factor * (S.x i * S.R) ^ 3 / E *
      (l.structural.map fun s => Spec.structural S s i).prod
  | none => 0
/-- Declared value of the angular kernel. -/
def aval (nr : ℤ) (μ : ℕ → ℝ) (M : Fin 3 → Coupling.Spec.Mode) (j : ℕ) (label : String) (key : Term) : ℝ :=
  match (angLoads nr).find? fun l => l.label == label with
  | some l => l.factor * (if l.mulMu then μ j else 1) * Spec.product (Spec.angFn μ M) key j /
      (if l.divSin then √(1 - μ j ^ 2) else 1)
  | none => 0

/-- The names of a product fit the loads. -/
def Fits (t : Term) (sym : Bool) (lt : Term) (lsym : Bool) : Prop :=
  if sym then lsym = true ∧ t ∈ keys lt else (if lsym then t ∈ keys lt else t = lt)

theorem fits_mem (t lt : Term) (sym lsym : Bool) (h : Fits t sym lt lsym) (π : Perm (Fin 3)) (hπ : sym = false → π = 1) :
    Coupling.Spec.distribute t π ∈ (if lsym then keys lt else [lt]) := by
  unfold Fits at h
  cases sym with
  | true =>
    simp only [if_true] at h
    rw [h.1, if_pos rfl, mem_keys]
    obtain ⟨σ, rfl⟩ := (mem_keys _ _).1 h.2
    exact ⟨σ * π, act_act lt σ π⟩
  | false =>
    rw [hπ rfl]
    have h1 : Coupling.Spec.distribute t 1 = t := rfl
    rw [h1]
    cases lsym with
    | true => simpa using h
    | false => simpa using h

theorem shown_of {o : RadObj} {n N : ℕ} {S : Coupling.Spec.Star} {μ : ℕ → ℝ} {M : Fin 3 → Coupling.Spec.Mode}
    (hr : Spec.RadSamples o n S (Spec.radFn M)) (ha : Spec.AngSamples o.base N μ (Spec.angFn μ M)) (nr : ℤ)
    (hn : nr = 1 ∨ nr = 2 ∨ nr = 3 ∨ nr = 4) (i j : ℕ) (hi : i < n) (hj : j < N) (ps : List Spec.Product)
    (hps : ∀ p ∈ ps, (∃ l, ((radLoads nr).find? fun l => l.label == p.rad) = some l ∧ Fits p.r p.sym l.t l.sym) ∧
      ∀ a ∈ p.ang, ∃ l, ((angLoads nr).find? fun l => l.label == a.1) = some l ∧ Fits a.2.1 p.sym l.t l.sym) (v : ℝ)
    (hv : v = Spec.combine ps (rval nr S o.energy M i) (aval nr μ M j) j) : Spec.Combined o μ nr ps i j v := by
  refine ⟨_, _, radCall_eq hr nr hn, angCall_eq ha nr hn, rval nr S o.energy M i, aval nr μ M j, ?_, hv⟩
  intro p hp π hπ
  have hπ' : p.sym = false → π = 1 := by
    intro h; unfold Spec.Product.perms at hπ; rw [h] at hπ; simpa using hπ
  constructor
  · obtain ⟨l, hl, hf⟩ := (hps p hp).1
    have hmem := List.mem_of_find?_eq_some hl
    have hlab : l.label = p.rad := by simpa using List.find?_some hl
    obtain ⟨k, hk⟩ := List.mem_iff_getElem?.1 (fits_mem _ _ _ _ hf π hπ')
    refine ⟨radEntry n S o.energy (Spec.radFn M) l, List.mem_map.2 ⟨l, hmem, by rw [hlab]⟩, k, tab n fun i =>
      Spec.product (Spec.radFn M) (Coupling.Spec.distribute p.r π) i * l.factor * (S.x i * S.R) ^ 3 / o.energy *
        (l.structural.map fun s => Spec.structural S s i).prod, hk, ?_, ?_⟩
    · change (List.map _ (if l.sym then keys l.t else [l.t]))[k]? = _
      rw [List.getElem?_map, hk]; rfl
    · simp only [rval, hl, tab, List.getElem?_map, List.getElem?_range hi, Option.map_some]
  · intro a ha'
    obtain ⟨l, hl, hf⟩ := (hps p hp).2 a ha'
    have hmem := List.mem_of_find?_eq_some hl
    have hlab : l.label = a.1 := by simpa using List.find?_some hl
    obtain ⟨k, hk⟩ := List.mem_iff_getElem?.1 (fits_mem _ _ _ _ hf π hπ')
    refine ⟨angEntry N (Spec.angFn μ M) l, List.mem_map.2 ⟨l, hmem, by rw [hlab]⟩, k,
      tab N (Spec.product (Spec.angFn μ M) (Coupling.Spec.distribute a.2.1 π)), Spec.product (Spec.angFn μ M)
      (Coupling.Spec.distribute a.2.1 π) j, hk, ?_, ?_, ?_⟩
    · change (List.map _ (if l.sym then keys l.t else [l.t]))[k]? = _
      rw [List.getElem?_map, hk]; rfl
    · simp only [tab, List.getElem?_map, List.getElem?_range hj, Option.map_some]
    · simp only [aval, hl, angEntry]
      rfl

theorem radFn_rv (M : Fin 3 → Coupling.Spec.Mode) (b : String) (k : Fin 3) : Spec.radFn M b k = rv (M k) b := rfl
theorem angFn_av (μ : ℕ → ℝ) (M : Fin 3 → Coupling.Spec.Mode) (b : String) (k : Fin 3) : Spec.angFn μ M b k = av μ (M k) b := rfl
theorem dist_act (t : Term) (π : Perm (Fin 3)) : Coupling.Spec.distribute t π = act t π := rfl

theorem perms_sum_true (p : Spec.Product) (h : p.sym = true) (F : Perm (Fin 3) → ℝ) :
    ∑ π ∈ p.perms, F π = (six.map F).sum := by
  rw [Spec.Product.perms, if_pos h, sum_six]
theorem perms_sum_false (p : Spec.Product) (h : p.sym = false) (F : Perm (Fin 3) → ℝ) : ∑ π ∈ p.perms, F π = F 1 := by
  simp [Spec.Product.perms, h]

end
end Verif.Kernels
