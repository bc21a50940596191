import Verif.ProfRun.Legends
import Verif.Kernels.Wrong
/-! # C153: the figures of the radial and angular kernels -/
namespace Verif.ProfRun
noncomputable section
open Inlist (Str)
open Coupling (Term)
open Kernels NumInt
open Coupling (radialNames angularNames)

/-- The numbers of panels of the angular figures of the contributions, and the names of the files. -/
def Spec.angPanels (nr : ℤ) : List ℕ :=
  if nr = 1 then [2, 2, 2, 2, 2] else if nr = 2 then [1] else if nr = 3 then [3, 3, 3, 3, 3, 3, 3, 3] else [3]

def Spec.angFiles (nr : ℤ) : List String :=
  if nr = 1 then ["cc_contribution_1_angular_kernels_nr_1", "cc_contribution_1_angular_kernels_nr_2",
    "cc_contribution_1_angular_kernels_nr_3", "cc_contribution_1_angular_kernels_nr_4", "cc_contribution_1_angular_kernels_nr_5"]
  else if nr = 2 then ["cc_contribution_2_radial_kernels"]
  else if nr = 3 then ["cc_contribution_3_angular_kernels_nr_1", "cc_contribution_3_angular_kernels_nr_2",
    "cc_contribution_3_angular_kernels_nr_3", "cc_contribution_3_angular_kernels_nr_4", "cc_contribution_3_angular_kernels_nr_5",
    "cc_contribution_3_angular_kernels_nr_6", "cc_contribution_3_angular_kernels_nr_7", "cc_contribution_3_angular_kernels_nr_8"]
  else ["cc_contribution_4_angular_kernels_nr_1"]

/-- The same of the radial figures. -/
def Spec.radPanels (nr : ℤ) : List ℕ :=
  if nr = 1 then [3, 3] else if nr = 2 then [1] else if nr = 3 then [3, 3, 3, 3] else [3]

def Spec.radFiles (nr : ℤ) : List String :=
  if nr = 1 then ["cc_contribution_1_radial_kernels_nr_1", "cc_contribution_1_radial_kernels_nr_2"]
  else if nr = 2 then ["cc_contribution_2_radial_kernels"]
  else if nr = 3 then ["cc_contribution_3_radial_kernels_nr_1", "cc_contribution_3_radial_kernels_nr_2",
    "cc_contribution_3_radial_kernels_nr_3", "cc_contribution_3_radial_kernels_nr_4"]
  else ["cc_contribution_4_radial_kernels_nr_1"]

theorem bases {kind : String} {nr : ℕ} {single : Bool} {cols : List ℕ} {figs : List Figure} {panels : List Panel}
    (h : Laid kind nr single cols figs panels) :
    figs.map (fun f => (f.subdir, f.base, f.ext)) =
      (List.range cols.length).map fun i => ((kind ++ "_kernels").toList, kernelBase kind nr single i, "png".toList) := by
  have hl : figs.length = cols.length := by rw [← h.cols, List.length_map]
  apply List.ext_getElem?
  intro i
  rw [List.getElem?_map, List.getElem?_map]
  by_cases hi : i < figs.length
  · obtain ⟨h1, h2, h3⟩ := h.names i _ (List.getElem?_eq_getElem hi)
    rw [List.getElem?_eq_getElem hi, List.getElem?_range (hl ▸ hi)]
    simp only [Option.map_some, h1, h2, h3]
  · rw [List.getElem?_eq_none (not_lt.1 hi), List.getElem?_eq_none (by simpa [← hl] using hi)]
    rfl

theorem ang_laid (repr : ℝ → Str) (o : Coupling.Obj) (N : ℕ) (μ : ℕ → ℝ) (f : String → Fin 3 → ℕ → ℝ) (h : Kernels.Spec.AngSamples o N μ f)
    (nr : ℤ) (hn : nr = 1 ∨ nr = 2 ∨ nr = 3 ∨ nr = 4) :
    ∃ figs, angFigures repr o nr = some figs ∧ Laid "angular" nr.toNat (angCols nr).2 (angCols nr).1 figs
      ((angLoads nr).map fun l => { curves := (angEntry N f l).legend.map fun key =>
        ⟨Spec.angText repr l.sym l.factor l.divSin key, Spec.points N μ (Kernels.Spec.product f key)⟩ }) := by
  have hs : ∀ l ∈ angLoads nr, (angCols nr).2 = true → l.sym = false := by
    rcases hn with rfl | rfl | rfl | rfl <;> simp [angCols, angLoads, ang2]
  have hm : (((angLoads nr).map fun l => (l.label, angEntry N f l)).mapM fun p => angCurves repr o.mu (angCols nr).2 p.2) =
      some ((angLoads nr).map fun l => ((angEntry N f l).legend.map fun key =>
        ⟨Spec.angText repr l.sym l.factor l.divSin key, Spec.points N μ (Kernels.Spec.product f key)⟩, [])) := by
    rw [List.mapM_map]
    refine mapM_const _ _ _ fun l hl => ?_
    simp only [Function.comp]
    rw [h.mu]
    exact angCurves_eq repr N μ f nr l hl _ (hs l hl)
  unfold angFigures
  rw [angCall_eq h nr hn]
  simp only [Option.bind_eq_bind, Option.bind_some]
  rw [hm]
  simp only [Option.bind_some]
  by_cases h2 : nr = 2
  · subst h2
    obtain ⟨figs, h3, h4⟩ := kernelFigures_single "angular" (2 : ℤ).toNat o.mu none (by simp)
      ((angLoads 2).map fun l => ((angEntry N f l).legend.map fun key =>
        ⟨Spec.angText repr l.sym l.factor l.divSin key, Spec.points N μ (Kernels.Spec.product f key)⟩, []))
    refine ⟨figs, h3, ?_⟩
    exact h4
  · have hc : (angCols nr).2 = false ∧ (angCols nr).1.sum = (angLoads nr).length := by
      rcases hn with rfl | rfl | rfl | rfl
      · exact ⟨rfl, rfl⟩
      · exact (h2 rfl).elim
      · exact ⟨rfl, rfl⟩
      · exact ⟨rfl, rfl⟩
    rw [hc.1]
    obtain ⟨figs, h3, h4⟩ := kernelFigures_multi "angular" nr.toNat o.mu none (by simp) (angCols nr).1
      ((angLoads nr).map fun l => ((angEntry N f l).legend.map fun key =>
        ⟨Spec.angText repr l.sym l.factor l.divSin key, Spec.points N μ (Kernels.Spec.product f key)⟩, [])) (by rw [List.length_map]; exact hc.2)
    refine ⟨figs, h3, ?_⟩
    rw [List.map_map] at h4
    exact h4

/-- **C153 (partial: the announced multiplier is not applied).** For each contribution and all sampled angular functions the figures of
the angular kernels can be made; there are five figures of two panels, one of one, eight of three and one of three.  The panels
show the terms in order: one curve for every distribution of the functions of the term over the modes, with the product of these
functions over μ, and a legend that names the functions in the order of the modes. -/
theorem C153_angular_partial (repr : ℝ → Str) (o : Coupling.Obj) (N : ℕ) (μ : ℕ → ℝ) (f : String → Fin 3 → ℕ → ℝ)
    (h : Kernels.Spec.AngSamples o N μ f) (nr : ℤ) (hn : nr = 1 ∨ nr = 2 ∨ nr = 3 ∨ nr = 4) :
    ∃ figs d, angFigures repr o nr = some figs ∧ angCall o nr = some (some d) ∧
      figs.map (fun f => f.panels.length) = Spec.angPanels nr ∧
      figs.map (fun f => (f.subdir, f.base, f.ext)) =
        (Spec.angFiles nr).map (fun s => ("angular_kernels".toList, s.toList, "png".toList)) ∧
      (figs.flatMap fun f => f.panels) = d.map fun p => { curves := p.2.legend.map fun key =>
        ⟨Spec.angText repr p.2.symmetric p.2.factor p.2.divSin key, Spec.points N μ (Kernels.Spec.product f key)⟩ } := by
  obtain ⟨figs, h1, h2⟩ := ang_laid repr o N μ f h nr hn
  refine ⟨figs, _, h1, angCall_eq h nr hn, ?_, ?_, ?_⟩
  · rw [h2.cols]
    rcases hn with rfl | rfl | rfl | rfl <;> rfl
  · rw [bases h2]
    rcases hn with rfl | rfl | rfl | rfl <;> decide +kernel
  · rw [h2.panels, List.map_map]
    rfl

/-- **C153.** The legends of the curves in one panel of an angular figure are different, and tell the functions of the three modes. -/
theorem C153_angular_legends (repr : ℝ → Str) (o : Coupling.Obj) (N : ℕ) (μ : ℕ → ℝ) (f : String → Fin 3 → ℕ → ℝ)
    (h : Kernels.Spec.AngSamples o N μ f) (nr : ℤ) (hn : nr = 1 ∨ nr = 2 ∨ nr = 3 ∨ nr = 4) :
    ∃ figs, angFigures repr o nr = some figs ∧ ∀ fig ∈ figs, ∀ p ∈ fig.panels, (p.curves.map fun c => c.label).Nodup := by
  obtain ⟨figs, h1, h2⟩ := ang_laid repr o N μ f h nr hn
  refine ⟨figs, h1, fun fig hf p hp => ?_⟩
  have : p ∈ figs.flatMap fun f => f.panels := List.mem_flatMap.2 ⟨fig, hf, hp⟩
  rw [h2.panels] at this
  obtain ⟨l, hl, rfl⟩ := List.mem_map.1 this
  simp only [List.map_map, angEntry]
  by_cases hs : l.sym = true
  · simp only [hs, if_true]
    refine List.Nodup.map_on (fun a ha b hb hab => ?_) (keys_nodup l.t)
    have ht := (ang_loads nr l hl).2.1
    refine angText_inj repr l hs a b (all_keys _ _ _ ht ha) (all_keys _ _ _ ht hb) ?_
    rw [hs]
    exact hab
  · simp [hs]

/-- **C153 (refutation).** The legend of an angular kernel announces a multiplier that the curve does not have: those of the fourth term
of the first contribution announce `-2/√(1 - μ²)`, and the curves show the bare products. -/
theorem C153_angular_multiplier_wrong (repr : ℝ → Str) (o : Coupling.Obj) (N : ℕ) (μ : ℕ → ℝ) (f : String → Fin 3 → ℕ → ℝ)
    (h : Kernels.Spec.AngSamples o N μ f) : ∃ figs P, angFigures repr o 1 = some figs ∧
      (figs.flatMap fun f => f.panels)[3]? = some P ∧ P.curves.length = 6 ∧ ∀ c ∈ P.curves, ∃ key,
        c.label = r"$\dfrac{".toList ++ (repr (-2) ++ r"\,".toList ++ "[".toList ++ Spec.names Spec.angSymbols key ++ "]".toList) ++
          r"}{\sqrt{1 - \mu^2}}$".toList ∧ c.points = Spec.points N μ (Kernels.Spec.product f key) := by
  obtain ⟨figs, h1, h2⟩ := ang_laid repr o N μ f h 1 (by simp)
  refine ⟨figs, _, h1, by rw [h2.panels]; rfl, ?_, ?_⟩
  · rw [List.length_map]
    show (keys ("theta_phi", "theta_der_hp_theta", "hr")).length = 6
    decide +kernel
  · intro c hc
    obtain ⟨key, -, rfl⟩ := List.mem_map.1 hc
    refine ⟨key, ?_, rfl⟩
    dsimp only [Spec.angText]
    have n2 : ¬ ((-2 : ℝ) = 1) := by norm_num
    have n3 : ¬ ((-2 : ℝ) = -1) := by norm_num
    unfold Spec.angAnnounced
    dsimp only
    rw [if_pos rfl, if_pos rfl, if_neg n2, if_neg n3]
    have hd : "$".toList = ['$'] := by decide +kernel
    have ho : "[".toList = ['['] := by decide +kernel
    have hc : "]".toList = [']'] := by decide +kernel
    have hf : r"$\dfrac{".toList = '$' :: r"\dfrac{".toList := by decide +kernel
    have he : r"}{\sqrt{1 - \mu^2}}$".toList = r"}{\sqrt{1 - \mu^2}}".toList ++ ['$'] := by decide +kernel
    rw [hd, hf, he, ho, hc]
    generalize r"\dfrac{".toList = A
    generalize r"}{\sqrt{1 - \mu^2}}".toList = B
    generalize r"\,".toList = D
    simp only [List.append_assoc, List.cons_append, List.nil_append]

/-! ### Radial kernels -/

theorem rad_laid (o : RadObj) (n : ℕ) (S : Coupling.Spec.Star) (f : String → Fin 3 → ℕ → ℝ) (h : Kernels.Spec.RadSamples o n S f)
    (tar : List Bool) (ht : tar.length = n) (nr : ℤ) (hn : nr = 1 ∨ nr = 3 ∨ nr = 4) :
    ∃ figs, radFigures o tar nr = some figs ∧ Laid "radial" nr.toNat false (radCols nr).1 figs
      ((radLoads nr).map fun l => { curves := (radEntry n S o.energy f l).legend.map fun key =>
        ⟨Spec.radText l.sym key, Spec.points n S.x (Spec.radValue S o.energy f l key)⟩, title := Spec.radTitle l.structural, shade := some tar }) := by
  have hc : (radCols nr).2 = false ∧ (radCols nr).1.sum = (radLoads nr).length := by
    rcases hn with rfl | rfl | rfl <;> exact ⟨rfl, rfl⟩
  have hm : (((radLoads nr).map fun l => (l.label, radEntry n S o.energy f l)).mapM fun p => radCurves energyText o.base.x false p.2) =
      some ((radLoads nr).map fun l => ((radEntry n S o.energy f l).legend.map fun key =>
        ⟨Spec.radText l.sym key, Spec.points n S.x (Spec.radValue S o.energy f l key)⟩, Spec.radTitle l.structural)) := by
    rw [List.mapM_map]
    refine mapM_const _ _ _ fun l hl => ?_
    simp only [Function.comp]
    rw [h.x]
    exact radCurves_multi n S o.energy f nr l hl
  unfold radFigures
  rw [radCall_eq h nr (by tauto)]
  simp only [Option.bind_eq_bind, Option.bind_some]
  rw [hc.1, hm]
  simp only [Option.bind_some]
  obtain ⟨figs, h3, h4⟩ := kernelFigures_multi "radial" nr.toNat o.base.x (some tar)
    (fun v hv => by cases hv; rw [h.x, ht, tab, List.length_map, List.length_range]) (radCols nr).1
    ((radLoads nr).map fun l => ((radEntry n S o.energy f l).legend.map fun key =>
        ⟨Spec.radText l.sym key, Spec.points n S.x (Spec.radValue S o.energy f l key)⟩, Spec.radTitle l.structural))
    (by rw [List.length_map]; exact hc.2)
  refine ⟨figs, h3, ?_⟩
  rw [List.map_map] at h4
  exact h4

/-- **C153 (partial: the legends and titles do not tell the number each kernel is multiplied with).** For the contributions 1, 3 and 4,
all sampled profiles and a validity mask with one entry per shell the figures of the radial kernels can be made; there are two, four and
one figures of three panels, shaded by the mask.  The panels show the terms in order; for every distribution of the functions of the
term over the modes a curve over the radius: the product of the functions named in its legend, of the structure profiles named in the
title and of `r³/ε`, times a number that depends on nothing but the term. -/
theorem C153_radial_partial : ∃ c : ℤ → String → ℝ, ∀ (o : RadObj) (n : ℕ) (S : Coupling.Spec.Star) (f : String → Fin 3 → ℕ → ℝ),
    Kernels.Spec.RadSamples o n S f → ∀ (tar : List Bool), tar.length = n → ∀ nr : ℤ, nr = 1 ∨ nr = 3 ∨ nr = 4 →
    ∃ figs d, radFigures o tar nr = some figs ∧ radCall o nr = some (some d) ∧ (∀ p ∈ d, c nr p.1 ≠ 0) ∧
      figs.map (fun f => f.panels.length) = Spec.radPanels nr ∧
      figs.map (fun f => (f.subdir, f.base, f.ext)) =
        (Spec.radFiles nr).map (fun s => ("radial_kernels".toList, s.toList, "png".toList)) ∧
      (figs.flatMap fun f => f.panels) = d.map fun p =>
        { curves := p.2.legend.map fun key => ⟨Spec.radText p.2.symmetric key, Spec.points n S.x fun i =>
            c nr p.1 * Kernels.Spec.product f key i * ((S.x i * S.R) ^ 3 / o.energy) *
              (p.2.multipliers.map fun s => Kernels.Spec.structural S s i).prod⟩
          title := Spec.radTitle p.2.multipliers, shade := some tar } := by
  refine ⟨fun nr s => (((radLoads nr).find? fun l => l.label == s).map (·.factor)).getD 0, ?_⟩
  intro o n S f h tar ht nr hn
  obtain ⟨figs, h1, h2⟩ := rad_laid o n S f h tar ht nr hn
  have hc : ∀ l ∈ radLoads nr, (((radLoads nr).find? fun l' => l'.label == l.label).map (·.factor)).getD 0 = l.factor ∧ l.factor ≠ 0 := by
    rcases hn with rfl | rfl | rfl <;> simp [radLoads, rad1, rad3, rad4, List.find?_cons]
  refine ⟨figs, _, h1, radCall_eq h nr (by tauto), ?_, ?_, ?_, ?_⟩
  · intro p hp
    obtain ⟨l, hl, rfl⟩ := List.mem_map.1 hp
    dsimp only
    rw [(hc l hl).1]
    exact (hc l hl).2
  · rw [h2.cols]
    rcases hn with rfl | rfl | rfl <;> rfl
  · rw [bases h2]
    rcases hn with rfl | rfl | rfl <;> decide +kernel
  · rw [h2.panels, List.map_map]
    refine List.map_congr_left fun l hl => ?_
    dsimp only [Function.comp]
    rw [(hc l hl).1]
    refine congrArg₂ (fun a b => (⟨a, b, some tar⟩ : Panel)) (List.map_congr_left fun key _ => ?_) rfl
    refine congrArg₂ Curve.mk rfl ?_
    refine congrArg (Spec.points n S.x) (funext fun i => ?_)
    simp only [Spec.radValue, radEntry]
    ring

/-- **C153.** The legends of the curves in one panel of these figures are different. -/
theorem C153_radial_legends (o : RadObj) (n : ℕ) (S : Coupling.Spec.Star) (f : String → Fin 3 → ℕ → ℝ)
    (h : Kernels.Spec.RadSamples o n S f) (tar : List Bool) (ht : tar.length = n) (nr : ℤ) (hn : nr = 1 ∨ nr = 3 ∨ nr = 4) :
    ∃ figs, radFigures o tar nr = some figs ∧ ∀ fig ∈ figs, ∀ p ∈ fig.panels, (p.curves.map fun c => c.label).Nodup := by
  obtain ⟨figs, h1, h2⟩ := rad_laid o n S f h tar ht nr hn
  refine ⟨figs, h1, fun fig hf p hp => ?_⟩
  have : p ∈ figs.flatMap fun f => f.panels := List.mem_flatMap.2 ⟨fig, hf, hp⟩
  rw [h2.panels] at this
  obtain ⟨l, hl, rfl⟩ := List.mem_map.1 this
  simp only [List.map_map, radEntry]
  by_cases hs : l.sym = true
  · simp only [hs, if_true]
    refine List.Nodup.map_on (fun a ha b hb hab => ?_) (keys_nodup l.t)
    have ht := (rad_loads nr l hl).1
    exact radText_inj a b (all_keys _ _ _ ht ha) (all_keys _ _ _ ht hb) hab
  · simp [hs]

/-- **C153.** A validity mask that does not have one entry per shell makes the radial figures fail. -/
theorem C153_mask (o : RadObj) (n : ℕ) (S : Coupling.Spec.Star) (f : String → Fin 3 → ℕ → ℝ) (h : Kernels.Spec.RadSamples o n S f)
    (tar : List Bool) (ht : tar.length ≠ n) (nr : ℤ) (hn : nr = 1 ∨ nr = 2 ∨ nr = 3 ∨ nr = 4) : radFigures o tar nr = none := by
  have hx : o.base.x.length = n := by rw [h.x, tab, List.length_map, List.length_range]
  have hk : ∀ (nr : ℕ) (cols : List ℕ) (single : Bool) (e : List (List Curve × Str)), cols ≠ [] →
      kernelFigures "radial" nr o.base.x (some tar) cols single e = none := by
    intro nr cols single e hne
    obtain ⟨c, cs, rfl⟩ := List.exists_cons_of_ne_nil hne
    unfold kernelFigures
    rw [List.mapM_cons]
    have : emptyFig o.base.x (some tar) c = none := by
      unfold emptyFig
      dsimp only
      rw [if_neg (by rw [hx]; exact ht)]
    rw [this]
    rfl
  unfold radFigures
  rw [radCall_eq h nr hn]
  simp only [Option.bind_eq_bind, Option.bind_some]
  rw [Option.bind_eq_none_iff]
  intro e _
  exact hk _ _ _ _ (by rcases hn with rfl | rfl | rfl | rfl <;> simp [radCols])

/-- **C153 (refutation).** Two panels of the third contribution, of its seventh and eighth term, have the same title and the same
legends, but the curves of the first are minus two times those of the second. -/
theorem C153_radial_factor_wrong (o : RadObj) (n : ℕ) (S : Coupling.Spec.Star) (f : String → Fin 3 → ℕ → ℝ)
    (h : Kernels.Spec.RadSamples o n S f) (tar : List Bool) (ht : tar.length = n) :
    ∃ figs P Q, radFigures o tar 3 = some figs ∧ (figs.flatMap fun f => f.panels)[6]? = some P ∧
      (figs.flatMap fun f => f.panels)[7]? = some Q ∧ P.title = Q.title ∧ P.curves.length = 3 ∧
      P.curves = Q.curves.map fun c => { c with points := c.points.map fun p => (p.1, -2 * p.2) } := by
  obtain ⟨figs, h1, h2⟩ := rad_laid o n S f h tar ht 3 (by simp)
  have e6 := congrArg (fun l => l[6]?) h2.panels
  have e7 := congrArg (fun l => l[7]?) h2.panels
  rw [List.getElem?_map] at e6 e7
  refine ⟨figs, _, _, h1, e6, e7, rfl, ?_, ?_⟩
  · rw [List.length_map]
    show (keys ("_z_1", "_z_2_over_c_1_omega", "_z_2_over_c_1_omega")).length = 3
    decide +kernel
  · rw [List.map_map]
    refine List.map_congr_left fun key _ => ?_
    refine congrArg₂ Curve.mk rfl ?_
    simp only [Spec.points, List.map_map]
    refine List.map_congr_left fun i _ => ?_
    simp only [Function.comp, Spec.radValue]
    refine congrArg (fun v => (S.x i, v)) ?_
    ring

/-- **C153.** The figure of the second contribution has one panel with one curve for each of its two parts, whose legends name the
structure profiles and the functions; they are different. -/
theorem C153_radial_second (o : RadObj) (n : ℕ) (S : Coupling.Spec.Star) (f : String → Fin 3 → ℕ → ℝ)
    (h : Kernels.Spec.RadSamples o n S f) (tar : List Bool) (ht : tar.length = n) :
    ∃ figs p, radFigures o tar 2 = some figs ∧ figs.map (fun f => (f.subdir, f.base, f.ext, f.panels)) =
        [("radial_kernels".toList, "cc_contribution_2_radial_kernels".toList, "png".toList, [p])] ∧ p.shade = some tar ∧
      p.curves.map (fun c => c.points) = [
        Spec.points n S.x fun i => (f "_rad_diverg" 0 i * f "_rad_diverg" 1 i * f "_rad_diverg" 2 i) * ((S.x i * S.R) ^ 3 / o.energy) *
          (S.P i * (S.Γ i - 1) ^ 2),
        Spec.points n S.x fun i => (f "_rad_diverg" 0 i * f "_rad_diverg" 1 i * f "_rad_diverg" 2 i) * ((S.x i * S.R) ^ 3 / o.energy) *
          (S.P i * S.Γ' i)] ∧
      p.curves.map (fun c => c.label) = [
        r"$P\,(\Gamma_1 - 1)^2$$\,\,$[$(H)_{A}, (H)_{B}, (H)_{C}$]$\,\left(\dfrac{{r^3}}{{\epsilon}}\right)$".toList,
        (r"$P\,\left(\dfrac{\partial \Gamma_1}{\partial \ln \rho}\right)_S$$\,\,$[$(H)_{A}, (H)_{B}, (H)_{C}$]" ++
          r"$\,\left(\dfrac{{r^3}}{{\epsilon}}\right)$").toList] := by
  have hx : o.base.x = tab n S.x := h.x
  have hc : ∀ l ∈ radLoads 2, radCurves energyText o.base.x true (radEntry n S o.energy f l) =
      some ([⟨radTitle (radEntry n S o.energy f l) ++ r"$\,\,$[".toList ++ (radLegend (radEntry n S o.energy f l)).headD [] ++
        "]".toList ++ energyText, Spec.points n S.x (Spec.radValue S o.energy f l l.t)⟩], []) := by
    intro l hl
    have hs : l.sym = false := by revert l; simp [radLoads, rad2]
    unfold radCurves
    dsimp only
    rw [if_pos rfl, hx]
    have := plotRows_legend (tab n S.x) [l.t] (fun _ => radTitle (radEntry n S o.energy f l) ++ r"$\,\,$[".toList ++
      (radLegend (radEntry n S o.energy f l)).headD [] ++ "]".toList ++ energyText)
      (fun key => tab n (Spec.radValue S o.energy f l key)) (fun k => by simp [tab])
    rw [show (radEntry n S o.energy f l).kernel = [l.t].map fun key => tab n (Spec.radValue S o.energy f l key) by
      simp only [radEntry, hs]; rfl]
    simp only [List.map_cons, List.map_nil] at this ⊢
    rw [this]
    simp only [zip_tab, Option.map_some, List.map_cons, List.map_nil]
  have hm : (((radLoads 2).map fun l => (l.label, radEntry n S o.energy f l)).mapM fun p => radCurves energyText o.base.x true p.2) =
      some ((radLoads 2).map fun l => ([⟨radTitle (radEntry n S o.energy f l) ++ r"$\,\,$[".toList ++
        (radLegend (radEntry n S o.energy f l)).headD [] ++ "]".toList ++ energyText,
        Spec.points n S.x (Spec.radValue S o.energy f l l.t)⟩], [])) := by
    rw [List.mapM_map]
    exact mapM_const _ _ _ fun l hl => hc l hl
  obtain ⟨figs, h3, h4⟩ := kernelFigures_single "radial" (2 : ℤ).toNat o.base.x (some tar)
    (fun v hv => by cases hv; rw [h.x, ht, tab, List.length_map, List.length_range]) 
      ((radLoads 2).map fun l => ([⟨radTitle (radEntry n S o.energy f l) ++ r"$\,\,$[".toList ++
        (radLegend (radEntry n S o.energy f l)).headD [] ++ "]".toList ++ energyText,
        Spec.points n S.x (Spec.radValue S o.energy f l l.t)⟩], []))
  have hl1 : figs.length = 1 := by
    have := congrArg List.length h4.cols
    simpa using this
  obtain ⟨fig, rfl⟩ := List.length_eq_one_iff.1 hl1
  have hp := h4.panels
  obtain ⟨n1, n2, n3⟩ := h4.names 0 fig rfl
  simp only [List.flatMap_cons, List.flatMap_nil, List.append_nil] at hp
  obtain ⟨P, hP1, hP2⟩ : ∃ P, fig.panels = [P] ∧ P = _ := ⟨_, hp, rfl⟩
  refine ⟨[fig], P, ?_, ?_, ?_, ?_, ?_⟩
  rotate_left
  · simp only [List.map_cons, List.map_nil, hP1, n1, n2, n3]
    refine congrArg (fun a => [a]) ?_
    refine congrArg₂ Prod.mk (by decide +kernel) (congrArg₂ Prod.mk (by decide +kernel) rfl)
  · rw [hP2]
  · rw [hP2]
    rw [List.map_map, List.map_flatten, List.map_map]
    rw [show radLoads 2 = rad2 from rfl]
    simp only [rad2]
    simp only [List.map_cons, List.map_nil, Function.comp, List.flatten_cons, List.flatten_nil, List.cons_append, List.nil_append,
      List.cons.injEq, and_true]
    constructor <;>
    · refine congrArg (Spec.points n S.x) (funext fun i => ?_)
      simp only [Spec.radValue, Kernels.Spec.product, List.map_cons, List.map_nil, List.prod_cons, List.prod_nil, mul_one]
      show _ = _
      simp only [Kernels.Spec.structural]
      ring
  · rw [hP2]
    rw [List.map_map, List.map_flatten, List.map_map]
    rw [show radLoads 2 = rad2 from rfl]
    simp only [rad2]
    simp only [List.map_cons, List.map_nil, Function.comp, List.flatten_cons, List.flatten_nil, List.cons_append, List.nil_append,
      List.cons.injEq, and_true]
    constructor <;>
    · simp only [radTitle, radLegend, radEntry, List.map_cons, List.map_nil, List.headD_cons, Bool.false_eq_true, if_false]
      decide +kernel
  · unfold radFigures
    rw [radCall_eq h 2 (by simp)]
    simp only [Option.bind_eq_bind, Option.bind_some]
    rw [show (radCols 2).2 = true from rfl, hm]
    simp only [Option.bind_some]
    exact h3

/-- Non-vacuity: sampled profiles of a star with different pressure and density in two shells, on two latitudes; the kernels that are
compared in the refutations do not vanish. -/
example : ∃ (o : RadObj) (S : Coupling.Spec.Star) (f : String → Fin 3 → ℕ → ℝ), Kernels.Spec.RadSamples o 2 S f ∧
    Spec.radValue S o.energy f ⟨"term_8", ("_z_1", "_z_2_over_c_1_omega", "_z_2_over_c_1_omega"), true, ["pressure"], 1⟩ ("_z_1", "_z_2_over_c_1_omega", "_z_2_over_c_1_omega") 1 ≠ 0 :=
  ⟨{ base := { attr := fun _ => some (tab 2 fun _ => 1), mu := tab 2 fun j => j / 2, x := tab 2 fun i => i + 1, mList := [], conj := .none,
               PNormed := [], rhoNormed := [], Gamma1 := tab 2 fun _ => 2, rhoGammaDer := none, dgrav := tab 2 fun _ => 1,
               dgrav2 := tab 2 fun _ => 1, dgrav3 := tab 2 fun _ => 1, normP := 1, normRho := 1, R := 1 },
     P := some (tab 2 fun i => 2 - i), rho := some (tab 2 fun i => 3 - i), gammaDer := some (tab 2 fun _ => 0), energy := 1 },
   { x := fun i => i + 1, R := 1, Γ := fun _ => 2, Γ' := fun _ => 0, P := fun i => 2 - i, ρ := fun i => 3 - i, g := fun _ => 1,
     g' := fun _ => 1, g'' := fun _ => 1 }, fun _ _ _ => 1,
   ⟨rfl, rfl, rfl, rfl, rfl, rfl, rfl, rfl, ⟨fun _ => 0, rfl, fun i => by simp⟩, fun _ _ _ => rfl⟩, by
     simp [Spec.radValue, Kernels.Spec.product, Kernels.Spec.structural]; norm_num⟩

/-- **C153.** The text of a function belonging to one mode, in the legend of a term that is not symmetrised, is its symbol in
parentheses with the letter of the mode as index, for every angular function but `ht`. -/
theorem C153_mode_texts_partial (mode : Str) : ∀ s ∈ angularNames, s ≠ "ht" →
    angTextOf s mode = r"\left(".toList ++ Spec.symbol Spec.angSymbols s ++ (r"\right)_{".toList ++ (mode ++ "}".toList)) := by
  have key : ∀ (t : String) (s : Str), t.toList = s →
      r"\left(".toList ++ t.toList ++ r"\right)_{".toList ++ mode ++ "}".toList =
        r"\left(".toList ++ s ++ (r"\right)_{".toList ++ (mode ++ "}".toList)) := by
    rintro t _ rfl
    simp only [List.append_assoc]
  simp only [angularNames, List.forall_mem_cons, List.not_mem_nil, false_imp_iff, implies_true, and_true]
  refine ⟨?_, ?_, ?_, ?_, ?_, ?_, ?_, ?_, ?_⟩ <;> intro h <;>
    first | exact absurd rfl h | exact key _ _ (by decide +kernel)

/-- **C153 (refutation).** For `ht` one parenthesis more is opened than closed. -/
theorem C153_mode_text_wrong (mode : Str) (h : '(' ∉ mode) (h' : ')' ∉ mode) :
    (angTextOf "ht" mode).count '(' = (angTextOf "ht" mode).count ')' + 1 := by
  have e : angTextOf "ht" mode = r"\left(".toList ++ r"(H_\theta".toList ++ r"\right)_{".toList ++ mode ++ "}".toList := rfl
  have c : (r"\left(".toList ++ r"(H_\theta".toList ++ r"\right)_{".toList).count '(' = 2 ∧
      (r"\left(".toList ++ r"(H_\theta".toList ++ r"\right)_{".toList).count ')' = 1 ∧
      "}".toList.count '(' = 0 ∧ "}".toList.count ')' = 0 := by decide +kernel
  rw [e]
  generalize r"\left(".toList ++ r"(H_\theta".toList ++ r"\right)_{".toList = A at c ⊢
  simp only [List.count_append, c.1, c.2.1, c.2.2.1, c.2.2.2, List.count_eq_zero.2 h, List.count_eq_zero.2 h']

/-- Non-vacuity: the three letters used. -/
example : '(' ∉ "B".toList ∧ ')' ∉ "B".toList := by decide

end
end Verif.ProfRun
