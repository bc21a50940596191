import Verif.ProfRun.KernFig
/-! # The legend texts of the kernel figures -/
namespace Verif.ProfRun
noncomputable section
open Inlist (Str)
open Coupling (Term)
open Kernels NumInt
open Coupling (radialNames angularNames)

/-- The symbols of the angular functions. -/
def Spec.angSymbols : List (String × String) :=
  [("hr", r"H_r"), ("ht", r"H_\theta"), ("hp", r"H_\phi"), ("mhr", r"m\,H_r"), ("theta_der_hr_theta", r"\partial\,H_r"),
   ("theta_der_ht_theta", r"\partial\,H_\theta"), ("theta_der_hp_theta", r"\partial\,H_\phi"), ("phi_phi", r"H_\phi^\phi"),
   ("theta_phi", r"H_\phi^\theta")]

/-- The symbols of the radial functions and of the structure profiles. -/
def Spec.radSymbols : List (String × String) :=
  [("_z_1", r"z_1"), ("_rad_diverg", r"H"), ("_rad_der_x_z_1", r"\dfrac{\partial(r\,z_1)}{\partial r}"),
   ("_z_2_over_c_1_omega", r"\dfrac{z_2}{c_1\,\bar{\omega}^2}"),
   ("_rad_der_x_z_2_c_1_omega", r"\dfrac{\partial}{\partial r}\,(r\,\dfrac{z_2}{c_1\,\bar{\omega}^2})"),
   ("pressure", r"P"), ("_gam_min", r"(\Gamma_1 - 1)"), ("_gam_min_sq", r"(\Gamma_1 - 1)^2"),
   ("der_gamma_1_ad", r"\left(\dfrac{\partial \Gamma_1}{\partial \ln \rho}\right)_S"), ("density", r"\rho"),
   ("_r3", r"r^3"), ("_r2", r"r^2"), ("radial_coordinate", r"r"), ("d3gravpot", r"\dfrac{\partial^3 \Phi}{\partial r^3}"),
   ("d2gravpot", r"\dfrac{\partial^2 \Phi}{\partial r^2}"), ("dgravpot", r"\dfrac{\partial \Phi}{\partial r}")]

/-- The symbol of a name. -/
def Spec.symbol (table : List (String × String)) (s : String) : Str := ((table.lookup s).getD "").toList

/-- `a, b, c`. -/
def Spec.list (a b c : Str) : Str := a ++ ", ".toList ++ b ++ ", ".toList ++ c

/-- The symbols of a distribution of three functions over the three modes. -/
def Spec.names (table : List (String × String)) (key : Term) : Str :=
  Spec.list (Spec.symbol table key.1) (Spec.symbol table key.2.1) (Spec.symbol table key.2.2)

theorem triple_sym (plain : String → Str) (specific : String → Str → Str) (t : Term) :
    triple plain specific true t = Spec.list (plain t.1) (plain t.2.1) (plain t.2.2) := by
  simp [triple, joinWith, Spec.list, List.intercalate, List.intersperse]

theorem triple_spec (plain : String → Str) (specific : String → Str → Str) (t : Term) :
    triple plain specific false t = Spec.list (specific t.1 ['A']) (specific t.2.1 ['B']) (specific t.2.2 ['C']) := by
  simp [triple, joinWith, Spec.list, List.intercalate, List.intersperse]

theorem angText_eq : ∀ s ∈ angularNames, angText s = Spec.symbol Spec.angSymbols s := by
  simp only [angularNames, List.forall_mem_cons, List.not_mem_nil, false_imp_iff, implies_true, and_true]
  decide +kernel

theorem radText_eq : ∀ s ∈ radialNames ++ structNames, radText s = Spec.symbol Spec.radSymbols s := by
  simp only [radialNames, structNames, List.cons_append, List.nil_append, List.forall_mem_cons, List.not_mem_nil, false_imp_iff,
    implies_true, and_true]
  decide

/-- A set of symbols can be told apart when they are written one after the other with commas. -/
def Apart (table : List (String × String)) (names : List String) : Prop :=
  (∀ a ∈ names, ∀ b ∈ names, Spec.symbol table a ++ ", ".toList <+: Spec.symbol table b ++ ", ".toList → a = b) ∧
    ∀ a ∈ names, ∀ b ∈ names, Spec.symbol table a = Spec.symbol table b → a = b

/-- The same as a computation. -/
def apart (table : List (String × String)) (names : List String) : Bool :=
  names.all fun a => names.all fun b => a == b || (!(Spec.symbol table a ++ ", ".toList).isPrefixOf (Spec.symbol table b ++ ", ".toList) &&
    !(Spec.symbol table a == Spec.symbol table b))

theorem apart_of (table : List (String × String)) (names : List String) (h : apart table names = true) : Apart table names := by
  simp only [apart, List.all_eq_true, Bool.or_eq_true, beq_iff_eq, Bool.and_eq_true, Bool.not_eq_true', beq_eq_false_iff_ne] at h
  refine ⟨fun a ha b hb hp => ?_, fun a ha b hb hp => ?_⟩
  · rcases h a ha b hb with h | h
    · exact h
    · rw [← List.isPrefixOf_iff_prefix, h.1] at hp
      cases hp
  · rcases h a ha b hb with h | h
    · exact h
    · exact (h.2 hp).elim

theorem ang_apart : Apart Spec.angSymbols angularNames := apart_of _ _ (by decide +kernel)

theorem rad_apart : Apart Spec.radSymbols radialNames := apart_of _ _ (by decide +kernel)

theorem names_inj {table : List (String × String)} {names : List String} (h : Apart table names) (k k' : Term)
    (hk : All (· ∈ names) k) (hk' : All (· ∈ names) k') (he : Spec.names table k = Spec.names table k') : k = k' := by
  obtain ⟨a, b, c⟩ := k
  obtain ⟨a', b', c'⟩ := k'
  have step : ∀ u ∈ names, ∀ v ∈ names, ∀ x y : Str, Spec.symbol table u ++ ", ".toList ++ x = Spec.symbol table v ++ ", ".toList ++ y →
      u = v ∧ x = y := by
    intro u hu v hv x y hxy
    have e : u = v := by
      have h1 : Spec.symbol table u ++ ", ".toList <+: Spec.symbol table v ++ ", ".toList ++ y := ⟨x, hxy⟩
      have h2 : Spec.symbol table v ++ ", ".toList <+: Spec.symbol table v ++ ", ".toList ++ y := ⟨y, rfl⟩
      rcases List.prefix_or_prefix_of_prefix h1 h2 with h3 | h3
      · exact h.1 u hu v hv h3
      · exact (h.1 v hv u hu h3).symm
    subst e
    exact ⟨rfl, List.append_cancel_left hxy⟩
  simp only [Spec.names, Spec.list] at he
  have he1 : Spec.symbol table a ++ ", ".toList ++ (Spec.symbol table b ++ ", ".toList ++ Spec.symbol table c) =
      Spec.symbol table a' ++ ", ".toList ++ (Spec.symbol table b' ++ ", ".toList ++ Spec.symbol table c') := by
    simpa only [List.append_assoc] using he
  obtain ⟨rfl, he2⟩ := step a hk.1 a' hk'.1 _ _ he1
  obtain ⟨rfl, he3⟩ := step b hk.2.1 b' hk'.2.1 _ _ he2
  rw [h.2 c hk.2.2 c' hk'.2.2 he3]

/-! ### Curves of an entry -/

theorem plotRows_legend (x : List ℝ) (leg : List Term) (lab : Term → Str) (g : Term → List ℝ) (hg : ∀ k, (g k).length = x.length) :
    plotRows x (leg.map g) (leg.map lab) = some (leg.map fun k => ⟨lab k, x.zip (g k)⟩) := by
  unfold plotRows
  rw [if_pos (by simp [hg])]
  by_cases h : leg.length = 1
  · obtain ⟨k, rfl⟩ := List.length_eq_one_iff.1 h
    simp
  · rw [if_neg (by simpa using h), if_pos (by simp)]
    rw [List.zip_map', List.map_map]
    rfl

/-- A curve over a sampled axis. -/
def Spec.points (n : ℕ) (x y : ℕ → ℝ) : List (ℝ × ℝ) := (List.range n).map fun i => (x i, y i)

theorem zip_tab (n : ℕ) (x y : ℕ → ℝ) : (tab n x).zip (tab n y) = Spec.points n x y := by
  simp only [tab, Spec.points, List.zip_map']

/-! ### Angular entries -/

/-- The legend text of a symmetrised angular entry: the announced multiplier and the symbols in square brackets. -/
def Spec.angAnnounced (repr : ℝ → Str) (factor : ℝ) (div : Bool) (inner : Str) : Str :=
  let num := (if factor = 1 then [] else if factor = -1 then r"-\,".toList else repr factor ++ r"\,".toList) ++
    ('[' :: inner ++ [']'])
  "$".toList ++ (if div then r"\dfrac{".toList ++ num ++ r"}{\sqrt{1 - \mu^2}}".toList else num) ++ "$".toList

theorem close_one : isClose 1 1 = true := by unfold isClose; norm_num
theorem close_m1 : isClose (-1) 1 = false ∧ isClose (-1) (-1) = true := by unfold isClose; norm_num
theorem close_m2 : isClose (-2) 1 = false ∧ isClose (-2) (-1) = false := by unfold isClose; norm_num

theorem ang_loads (nr : ℤ) : ∀ l ∈ angLoads nr, l.mulMu = false ∧ All (· ∈ angularNames) l.t ∧
    (l.sym = true → l.factor = 1 ∨ l.factor = -1 ∨ l.factor = -2 ∧ l.divSin = true) ∧
    (l.sym = false → l.factor = 1 ∧ l.divSin = false ∧
      l.t ∈ [("hr", "hr", "hr"), ("phi_phi", "phi_phi", "phi_phi"),
        ("theta_der_ht_theta", "theta_der_ht_theta", "theta_der_ht_theta")]) := by
  intro l hl
  refine ⟨?_, ?_, ?_, ?_⟩
  · revert l
    unfold angLoads
    split_ifs <;> simp [ang1, ang2, ang3, ang4]
  · revert l
    unfold angLoads
    split_ifs
    · exact ang_names ang1 (by simp)
    · exact ang_names ang2 (by simp)
    · exact ang_names ang3 (by simp)
    · exact ang_names ang4 (by simp)
  · revert l
    unfold angLoads
    split_ifs <;> simp [ang1, ang2, ang3, ang4]
  · revert l
    unfold angLoads
    split_ifs <;> simp [ang1, ang2, ang3, ang4]

/-- The legend text of the only row of an entry that is not symmetrised. -/
def Spec.angPlain (key : Term) : Str :=
  let s (n : String) (m : String) : Str := r"\left(".toList ++ Spec.symbol Spec.angSymbols n ++ (r"\right)_{" ++ m ++ "}").toList
  "[$".toList ++ Spec.list (s key.1 "A") (s key.2.1 "B") (s key.2.2 "C") ++ "$]".toList

/-- The legend text of a row of an entry. -/
def Spec.angText (repr : ℝ → Str) (sym : Bool) (factor : ℝ) (div : Bool) (key : Term) : Str :=
  if sym then Spec.angAnnounced repr factor div (Spec.names Spec.angSymbols key) else Spec.angPlain key

theorem angLabel_sym (repr : ℝ → Str) (factor : ℝ) (div : Bool) (p : Str)
    (h : factor = 1 ∨ factor = -1 ∨ factor = -2 ∧ div = true) :
    angLabel repr false div factor true p = Spec.angAnnounced repr factor div p := by
  have n1 : ¬ ((-1 : ℝ) = 1) := by norm_num
  have n2 : ¬ ((-2 : ℝ) = 1) := by norm_num
  have n3 : ¬ ((-2 : ℝ) = -1) := by norm_num
  have hd : "$".toList = ['$'] := by decide +kernel
  have hm : r"$-\,".toList = '$' :: r"-\,".toList := by decide +kernel
  have hf : r"$\dfrac{".toList = '$' :: r"\dfrac{".toList := by decide +kernel
  have he : r"}{\sqrt{1 - \mu^2}}$".toList = r"}{\sqrt{1 - \mu^2}}".toList ++ ['$'] := by decide +kernel
  unfold angLabel Spec.angAnnounced
  rw [hd, hm, hf, he]
  generalize r"\dfrac{".toList = A
  generalize r"}{\sqrt{1 - \mu^2}}".toList = B
  generalize r"-\,".toList = C
  generalize r"\,".toList = D
  rcases h with rfl | rfl | ⟨rfl, rfl⟩
  · cases div <;> simp only [close_one, if_true, if_false, Bool.false_eq_true, List.append_assoc, List.cons_append, List.nil_append]
  · cases div <;> simp only [close_m1, n1, if_true, if_false, Bool.false_eq_true, List.append_assoc, List.cons_append, List.nil_append]
  · simp only [close_m2, n2, n3, if_true, if_false, Bool.false_eq_true, List.append_assoc, List.cons_append, List.nil_append]

theorem angLabel_plain (repr : ℝ → Str) (p : Str) : angLabel repr false false 1 false p = '$' :: p ++ ['$'] := by
  unfold angLabel
  generalize r"$\dfrac{".toList = A
  generalize r"}{\sqrt{1 - \mu^2}}$".toList = B
  generalize r"$-\,".toList = C
  generalize r"\,".toList = D
  dsimp only
  rw [close_one, if_pos rfl, if_neg (by decide)]

theorem angPlain_eq (key : Term) (hk : key ∈ [("hr", "hr", "hr"), ("phi_phi", "phi_phi", "phi_phi"),
        ("theta_der_ht_theta", "theta_der_ht_theta", "theta_der_ht_theta")]) :
    '[' :: ('$' :: triple angText angTextOf false key ++ ['$']) ++ [']'] = Spec.angPlain key := by
  rw [triple_spec]
  revert key
  simp only [List.forall_mem_cons, List.not_mem_nil, false_imp_iff, implies_true, and_true]
  decide +kernel

theorem names_eq (key : Term) (h : All (· ∈ angularNames) key) :
    triple angText angTextOf true key = Spec.names Spec.angSymbols key := by
  rw [triple_sym, Spec.names, angText_eq _ h.1, angText_eq _ h.2.1, angText_eq _ h.2.2]

theorem angCurves_eq (repr : ℝ → Str) (N : ℕ) (μ : ℕ → ℝ) (f : String → Fin 3 → ℕ → ℝ) (nr : ℤ) (l : AngLoad) (hl : l ∈ angLoads nr)
    (single : Bool) (hs : single = true → l.sym = false) :
    angCurves repr (tab N μ) single (angEntry N f l) =
      some ((angEntry N f l).legend.map fun key => ⟨Spec.angText repr l.sym l.factor l.divSin key, Spec.points N μ (Kernels.Spec.product f key)⟩, []) := by
  obtain ⟨h1, h2, h3, h4⟩ := ang_loads nr l hl
  have hlab : (if single then [singleAngLabel (angEntry N f l).symmetric (angLegend repr (angEntry N f l))]
      else (angLegend repr (angEntry N f l)).map fun s => if (angEntry N f l).symmetric then s else '[' :: s ++ [']']) =
      (angEntry N f l).legend.map (Spec.angText repr l.sym l.factor l.divSin) := by
    by_cases hsym : l.sym = true
    · have : single = false := by by_contra hc; simp only [Bool.not_eq_false] at hc; simpa [hsym] using hs hc
      rw [this]
      simp only [Bool.false_eq_true, if_false, angLegend, angEntry, hsym, if_true, List.map_map]
      refine List.map_congr_left fun key hk => ?_
      simp only [Function.comp, Spec.angText, hsym, if_true, h1]
      rw [names_eq key (all_keys _ _ _ h2 hk), angLabel_sym _ _ _ _ (h3 hsym)]
    · have hsym : l.sym = false := by simpa using hsym
      obtain ⟨h5, h6, h7⟩ := h4 hsym
      cases single <;>
      simp only [Bool.false_eq_true, if_false, if_true, angLegend, angEntry, hsym, List.map_map, List.map_cons, List.map_nil, h1, h5, h6,
        angLabel_plain, singleAngLabel, Function.comp, Spec.angText, List.headD_cons] <;>
      rw [angPlain_eq _ h7]
  unfold angCurves
  dsimp only
  rw [hlab]
  have := plotRows_legend (tab N μ) (angEntry N f l).legend (Spec.angText repr l.sym l.factor l.divSin)
    (fun key => tab N (Kernels.Spec.product f key)) (fun k => by simp [tab])
  rw [show (angEntry N f l).kernel = (angEntry N f l).legend.map fun key => tab N (Kernels.Spec.product f key) from rfl, this]
  simp only [zip_tab, Option.map_some]

/-- In a symmetrised entry the legend text tells the functions of the three modes. -/
theorem angText_inj (repr : ℝ → Str) (l : AngLoad) (hs : l.sym = true) (k k' : Term) (hk : All (· ∈ angularNames) k)
    (hk' : All (· ∈ angularNames) k') (he : Spec.angText repr l.sym l.factor l.divSin k = Spec.angText repr l.sym l.factor l.divSin k') : k = k' := by
  apply names_inj ang_apart k k' hk hk'
  simp only [Spec.angText, hs, if_true, Spec.angAnnounced] at he
  split at he <;> simpa using he

/-! ### Radial entries -/

/-- The symbols with the mode. -/
def Spec.radPlain (n m : String) : Str :=
  let l : List (String × String) :=
    [("_rad_diverg", r"(H)_{"), ("_z_1", r"(z_{1})_{"), ("_z_2_over_c_1_omega", r"\left(\dfrac{z_2}{c_1\,\bar{\omega}^2}\right)_{"),
     ("_rad_der_x_z_1", r"\left(\dfrac{\partial(r\,z_1)}{\partial r}\right)_{")]
  Spec.symbol l n ++ (m ++ "}").toList

/-- The legend text of a row. -/
def Spec.radText (sym : Bool) (key : Term) : Str :=
  "[$".toList ++ (if sym then Spec.names Spec.radSymbols key
    else Spec.list (Spec.radPlain key.1 "A") (Spec.radPlain key.2.1 "B") (Spec.radPlain key.2.2 "C")) ++ "$]".toList

/-- The title of a panel: the structure profiles and `r³/ε`. -/
def Spec.radTitle (multipliers : List String) : Str :=
  "$".toList ++ List.intercalate r"\,".toList (multipliers.map (Spec.symbol Spec.radSymbols)) ++ "$".toList ++
    r"$\,\left(\dfrac{{r^3}}{{\epsilon}}\right)$".toList

theorem rad_loads (nr : ℤ) : ∀ l ∈ radLoads nr, All (· ∈ radialNames) l.t ∧ (∀ s ∈ l.structural, s ∈ structNames) ∧
    (l.sym = false → l.t ∈ [("_rad_diverg", "_rad_diverg", "_rad_diverg"), ("_z_1", "_z_1", "_z_1"),
      ("_z_2_over_c_1_omega", "_z_2_over_c_1_omega", "_z_2_over_c_1_omega"), ("_rad_der_x_z_1", "_rad_der_x_z_1", "_rad_der_x_z_1")]) := by
  have h := rad_names
  simp only [List.forall_mem_cons, List.not_mem_nil, false_imp_iff, implies_true, and_true] at h
  obtain ⟨h1, h2, h3, h4⟩ := h
  intro l hl
  rw [← and_assoc]
  refine ⟨?_, ?_⟩
  · revert l
    unfold radLoads
    split_ifs
    · exact h1
    · exact h2
    · exact h3
    · exact h4
  · revert l
    unfold radLoads
    split_ifs <;> simp [rad1, rad2, rad3, rad4]

theorem radLegend_eq (l : RadLoad) (nr : ℤ) (hl : l ∈ radLoads nr) (n : ℕ) (S : Coupling.Spec.Star) (E : ℝ) (f : String → Fin 3 → ℕ → ℝ) :
    (radLegend (radEntry n S E f l)).map (fun s => '[' :: s ++ [']']) = (radEntry n S E f l).legend.map (Spec.radText l.sym) := by
  obtain ⟨h2, -, h4⟩ := rad_loads nr l hl
  rw [radLegend, List.map_map]
  refine List.map_congr_left fun key hk => ?_
  by_cases hsym : l.sym = true
  · simp only [radEntry, hsym, if_true] at hk
    have ha := all_keys _ _ _ h2 hk
    have hm : ∀ s ∈ radialNames, s ∈ radialNames ++ structNames := fun s hs => List.mem_append_left _ hs
    simp only [Function.comp, radEntry, hsym, Spec.radText, if_true]
    rw [triple_sym, radText_eq _ (hm _ ha.1), radText_eq _ (hm _ ha.2.1), radText_eq _ (hm _ ha.2.2)]
    rw [Spec.names]
    simp
  · have hsym : l.sym = false := by simpa using hsym
    simp only [radEntry, hsym, Bool.false_eq_true, if_false, List.mem_singleton] at hk
    subst hk
    have h5 := h4 hsym
    simp only [Function.comp, radEntry, hsym, Spec.radText, Bool.false_eq_true, if_false]
    rw [triple_spec]
    generalize l.t = key at h5
    revert key
    simp only [List.forall_mem_cons, List.not_mem_nil, false_imp_iff, implies_true, and_true]
    decide +kernel

theorem radTitle_eq (l : RadLoad) (nr : ℤ) (hl : l ∈ radLoads nr) (n : ℕ) (S : Coupling.Spec.Star) (E : ℝ) (f : String → Fin 3 → ℕ → ℝ) :
    radTitle (radEntry n S E f l) ++ energyText = Spec.radTitle l.structural := by
  obtain ⟨-, h3, -⟩ := rad_loads nr l hl
  have h5 : l.structural.map radText = l.structural.map (Spec.symbol Spec.radSymbols) :=
    List.map_congr_left fun s hs => radText_eq s (List.mem_append_right _ (h3 s hs))
  have hd : "$".toList = ['$'] := by decide +kernel
  have h6 : (radEntry n S E f l).multipliers = l.structural := rfl
  unfold radTitle Spec.radTitle energyText joinWith
  rw [h6, h5, hd]
  generalize r"$\,\left(\dfrac{{r^3}}{{\epsilon}}\right)$".toList = A
  generalize r"\,".toList = B
  simp only [List.cons_append, List.nil_append]

/-- The value of a radial kernel. -/
def Spec.radValue (S : Coupling.Spec.Star) (E : ℝ) (f : String → Fin 3 → ℕ → ℝ) (l : RadLoad) (key : Term) (i : ℕ) : ℝ :=
  Kernels.Spec.product f key i * l.factor * (S.x i * S.R) ^ 3 / E * (l.structural.map fun s => Kernels.Spec.structural S s i).prod

theorem radCurves_multi (n : ℕ) (S : Coupling.Spec.Star) (E : ℝ) (f : String → Fin 3 → ℕ → ℝ) (nr : ℤ) (l : RadLoad)
    (hl : l ∈ radLoads nr) : radCurves energyText (tab n S.x) false (radEntry n S E f l) =
      some ((radEntry n S E f l).legend.map fun key => ⟨Spec.radText l.sym key, Spec.points n S.x (Spec.radValue S E f l key)⟩,
        Spec.radTitle l.structural) := by
  unfold radCurves
  dsimp only
  rw [if_neg (by simp), radLegend_eq l nr hl, radTitle_eq l nr hl]
  have := plotRows_legend (tab n S.x) (radEntry n S E f l).legend (Spec.radText l.sym)
    (fun key => tab n (Spec.radValue S E f l key)) (fun k => by simp [tab])
  rw [show (radEntry n S E f l).kernel = (radEntry n S E f l).legend.map fun key => tab n (Spec.radValue S E f l key) from rfl,
    this]
  simp only [zip_tab, Option.map_some]

theorem radText_inj (k k' : Term) (hk : All (· ∈ radialNames) k)
    (hk' : All (· ∈ radialNames) k') (he : Spec.radText true k = Spec.radText true k') : k = k' := by
  apply names_inj rad_apart k k' hk hk'
  simpa [Spec.radText] using he

end
end Verif.ProfRun
