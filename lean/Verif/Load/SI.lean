import Verif.Load.Units
/-!
# C126, C127: the two unit systems
-/
namespace Verif.Load
open Verif.Inlist (Str)

noncomputable section

example : ∃ d', loadDetail 1 1 "CGS".toList [("M_star".toList, .sc 2), ("R_star".toList, .sc 3), ("xi_r".toList, .pairs [(1, 2)]),
    ("l".toList, .sc 2)] = some d' := ⟨_, rfl⟩

/-! ### Scaling -/

/-- The dimension the program gives to a name: as `dimOf`, but the entropy perturbation counts as a length. -/
def codeDim (k : Str) : Dim := if k ∈ entropyNames then (0, 1) else dimOf k

/-- Ratio between the systems that the program realises. -/
def rat (k : Str) : ℝ := siRatio (codeDim k)

def scaleD (d : Dict V) : Dict V := d.map fun e => (e.1, scaleV (rat e.1) e.2)

theorem siRatio_add (a b : Dim) : siRatio (a + b) = siRatio a * siRatio b := by
  unfold siRatio
  have h1 : (1 / 1000 : ℝ) ≠ 0 := by norm_num
  have h2 : (1 / 100 : ℝ) ≠ 0 := by norm_num
  rw [Prod.fst_add, Prod.snd_add, zpow_add₀ h1, zpow_add₀ h2]
  ring

theorem siRatio_zero : siRatio (0, 0) = 1 := by simp [siRatio]

theorem scaleV_one (v : V) : scaleV 1 v = v := by cases v <;> simp [scaleV]

theorem get_scaleD (d : Dict V) (k : Str) : get (scaleD d) k = (get d k).map (scaleV (rat k)) := by
  induction d with
  | nil => rfl
  | cons e d ih =>
    unfold scaleD at ih ⊢
    rw [List.map_cons, get_cons, get_cons, ih]
    by_cases h : e.1 = k
    · simp [h]
    · simp [h]

/-- Ratio for a factor. -/
def facDim : Fac → Dim
  | .radius => (0, 1)
  | .potential => (0, 2)
  | .gravity => (0, 1)
  | .pressure => (1, -1)
  | .density => (1, -3)
  | .temperature => (0, 0)
  | .frequency => (0, 0)
  | .luminosity => (1, 2)
  | .inertia => (1, 2)
  | .energy => (1, 2)

theorem codeDim_G : codeDim "G".toList = (-1, 3) := by decide +kernel
theorem codeDim_M : codeDim "M_star".toList = (1, 0) := by decide +kernel
theorem codeDim_R : codeDim "R_star".toList = (0, 1) := by decide +kernel
theorem codeDim_L : codeDim "L_star".toList = (1, 2) := by decide +kernel
theorem codeDim_P : codeDim "P".toList = (1, -1) := by decide +kernel
theorem codeDim_rho : codeDim "rho".toList = (1, -3) := by decide +kernel
theorem codeDim_T : codeDim "T".toList = (0, 0) := by decide +kernel

theorem num_scaleD (d : Dict V) (k : String) : num (scaleD d) k = (num d k).map (· * rat k.toList) := by
  unfold num
  rw [get_scaleD]
  cases get d k.toList with
  | none => rfl
  | some v => cases v <;> rfl

theorem rat_G : rat "G".toList = 1 / 1000 := by unfold rat; rw [codeDim_G]; norm_num [siRatio, zpow_neg]
theorem rat_M : rat "M_star".toList = 1 / 1000 := by unfold rat; rw [codeDim_M]; norm_num [siRatio]
theorem rat_R : rat "R_star".toList = 1 / 100 := by unfold rat; rw [codeDim_R]; norm_num [siRatio]

theorem eval_scaleD (d : Dict V) (f : Fac) : f.eval (scaleD d) = (f.eval d).map (scaleV (siRatio (facDim f))) := by
  have hG := num_scaleD d "G"
  have hM := num_scaleD d "M_star"
  have hR := num_scaleD d "R_star"
  rw [rat_G] at hG
  rw [rat_M] at hM
  rw [rat_R] at hR
  cases f with
  | radius => unfold Fac.eval; dsimp only; rw [get_scaleD]; unfold rat; rw [codeDim_R]; rfl
  | pressure => unfold Fac.eval; dsimp only; rw [get_scaleD]; unfold rat; rw [codeDim_P]; rfl
  | density => unfold Fac.eval; dsimp only; rw [get_scaleD]; unfold rat; rw [codeDim_rho]; rfl
  | temperature => unfold Fac.eval; dsimp only; rw [get_scaleD]; unfold rat; rw [codeDim_T]; rfl
  | luminosity => unfold Fac.eval; dsimp only; rw [get_scaleD]; unfold rat; rw [codeDim_L]; rfl
  | potential =>
    unfold Fac.eval; dsimp only; rw [hG, hM, hR]
    cases num d "G" <;> cases num d "M_star" <;> cases num d "R_star" <;> try rfl
    rename_i g m r
    simp only [Option.map_some, Option.bind_eq_bind, Option.bind_some, Option.pure_def, scaleV, facDim, siRatio]
    congr 2
    norm_num
    ring
  | gravity =>
    unfold Fac.eval; dsimp only; rw [hG, hM, hR]
    cases num d "G" <;> cases num d "M_star" <;> cases num d "R_star" <;> try rfl
    rename_i g m r
    simp only [Option.map_some, Option.bind_eq_bind, Option.bind_some, Option.pure_def, scaleV, facDim, siRatio]
    congr 2
    norm_num
    ring
  | frequency =>
    unfold Fac.eval; dsimp only; rw [hG, hM, hR]
    cases num d "G" <;> cases num d "M_star" <;> cases num d "R_star" <;> try rfl
    rename_i g m r
    simp only [Option.map_some, Option.bind_eq_bind, Option.bind_some, Option.pure_def, scaleV, facDim, siRatio_zero, mul_one]
    congr 3
    ring
  | inertia =>
    unfold Fac.eval; dsimp only; rw [hM, hR]
    cases num d "M_star" <;> cases num d "R_star" <;> try rfl
    rename_i m r
    simp only [Option.map_some, Option.bind_eq_bind, Option.bind_some, Option.pure_def, scaleV, facDim, siRatio]
    congr 2
    norm_num
    ring
  | energy =>
    unfold Fac.eval; dsimp only; rw [hG, hM, hR]
    cases num d "G" <;> cases num d "M_star" <;> cases num d "R_star" <;> try rfl
    rename_i g m r
    simp only [Option.map_some, Option.bind_eq_bind, Option.bind_some, Option.pure_def, scaleV, facDim, siRatio]
    congr 2
    norm_num
    ring

theorem bcast_scale {α β : Type} (f : α → β → γ) (g : γ → γ) (p : α → α) (q : β → β) (h : ∀ x y, f (p x) (q y) = g (f x y))
    (xs : List α) (ys : List β) : bcast f (xs.map p) (ys.map q) = (bcast f xs ys).map (List.map g) := by
  unfold bcast
  rw [List.length_map, List.length_map]
  by_cases hl : xs.length = ys.length
  · rw [if_pos hl, if_pos hl, Option.map_some]
    congr 1
    rw [List.zipWith_map, List.map_zipWith]
    simp only [h]
  · rw [if_neg hl, if_neg hl]
    match xs, ys with
    | [x], [y] => exact absurd rfl hl
    | [], [] => exact absurd rfl hl
    | [], [y] => simp
    | [], y :: y' :: ys => rfl
    | [x], [] => simp
    | [x], y :: y' :: ys => simp [h, Function.comp_def]
    | x :: x' :: xs, [] => rfl
    | x :: x' :: xs, [y] => simp [h, Function.comp_def]
    | x :: x' :: xs, y :: y' :: ys => rfl

theorem vmul_scale (a b : ℝ) (v u : V) : vmul (scaleV a v) (scaleV b u) = (vmul v u).map (scaleV (a * b)) := by
  cases v with
  | sc x =>
    cases u with
    | sc y => simp only [scaleV, vmul, Option.map_some]; congr 2; ring
    | ar ys =>
      simp only [scaleV, vmul, Option.map_some, List.map_map]
      congr 2
      refine List.map_congr_left fun y _ => ?_
      simp only [Function.comp]
      ring
    | _ => rfl
  | ar xs =>
    cases u with
    | sc y =>
      simp only [scaleV, vmul, Option.map_some, List.map_map]
      congr 2
      refine List.map_congr_left fun y _ => ?_
      simp only [Function.comp]
      ring
    | ar ys =>
      simp only [scaleV, vmul]
      rw [bcast_scale _ (· * (a * b)) _ _ (fun x y => by ring)]
      cases bcast (fun x1 x2 : ℝ => x1 * x2) xs ys <;> rfl
    | _ => rfl
  | cx zs =>
    cases u with
    | sc y =>
      simp only [scaleV, vmul, Option.map_some, List.map_map]
      congr 2
      refine List.map_congr_left fun y _ => ?_
      simp only [Function.comp]
      push_cast
      ring
    | ar ys =>
      simp only [scaleV, vmul]
      rw [bcast_scale _ (· * ((a * b : ℝ) : ℂ)) _ _ (fun x y => by push_cast; ring)]
      cases bcast (fun (z : ℂ) (b : ℝ) => z * (b : ℂ)) zs ys <;> rfl
    | _ => rfl
  | pair z => cases u <;> rfl
  | pairs z => cases u <;> rfl
  | st z => cases u <;> rfl

theorem toC_scale (a b : ℝ) (z : ℝ × ℝ) (f : ℝ) : toC (z.1 * a, z.2 * a) (f * b) = toC z f * ((a * b : ℝ) : ℂ) := by
  apply Complex.ext
  · simp [toC]; ring
  · simp [toC]; ring

theorem reIm_scale (a b : ℝ) (v u : V) : reIm (scaleV a v) (scaleV b u) = (reIm v u).map (scaleV (a * b)) := by
  cases v with
  | pair z =>
    cases u with
    | sc f => simp only [scaleV, reIm, Option.map_some, toC_scale, List.map_cons, List.map_nil]
    | ar fs =>
      match fs with
      | [] => rfl
      | [f] => simp only [scaleV, reIm, Option.map_some, toC_scale, List.map_cons, List.map_nil]
      | _ :: _ :: _ => rfl
    | _ => rfl
  | pairs zs =>
    cases u with
    | sc f =>
      simp only [scaleV, reIm, Option.map_some, List.map_map]
      congr 2
      exact List.map_congr_left fun z _ => toC_scale a b z f
    | ar fs =>
      simp only [scaleV, reIm, List.length_map]
      by_cases hl : zs.length = fs.length
      · rw [if_pos hl, if_pos hl, Option.map_some, List.zipWith_map]
        simp only [scaleV, List.map_zipWith, toC_scale]
      · rw [if_neg hl, if_neg hl]
        match fs with
        | [] => rfl
        | [f] =>
          simp only [Option.map_some, scaleV, List.map_cons, List.map_nil, List.map_map]
          congr 2
          exact List.map_congr_left fun z _ => toC_scale a b z f
        | _ :: _ :: _ => rfl
    | _ => rfl
  | sc z => cases u <;> rfl
  | ar z => cases u <;> rfl
  | cx z => cases u <;> rfl
  | st z => cases u <;> rfl

theorem codeDim_table : ∀ k ∈ "G".toList :: detailTable.map (·.1), ∀ f, get dimGyre.facs (upper k) = some f →
    codeDim (k ++ "_dim".toList) = codeDim k + facDim f := by
  have : ∀ k ∈ "G".toList :: detailTable.map (·.1), (get dimGyre.facs (upper k)).all
      (fun f => decide (codeDim (k ++ "_dim".toList) = codeDim k + facDim f)) = true := by decide +kernel
  intro k hk f hf
  have h := this k hk
  rw [hf] at h
  simpa using h

theorem dimOne_scale {k : Str} (hk : k ∈ "G".toList :: detailTable.map (·.1)) (d : Dict V) (v : V) :
    dimOne dimGyre (scaleD d) k (scaleV (rat k) v) =
      (dimOne dimGyre d k v).map (Option.map fun x => (x.1, scaleV (rat x.1) x.2)) := by
  unfold dimOne
  by_cases ha : k ∈ dimGyre.avoid
  · rw [if_pos ha, if_pos ha]; rfl
  · rw [if_neg ha, if_neg ha]
    have hval : ∀ (b : ℝ) (u : V), dimVal dimGyre k (scaleV (rat k) v) (scaleV b u) = (dimVal dimGyre k v u).map (scaleV (rat k * b)) := by
      intro b u
      unfold dimVal
      split_ifs
      · exact reIm_scale _ _ _ _
      · exact vmul_scale _ _ _ _
    unfold dimFac
    cases hf : get dimGyre.facs (upper k) with
    | none =>
      dsimp only
      simp only [Option.bind_some]
      have := hval 1 (.sc 1)
      rw [scaleV_one] at this
      rw [this]
      cases dimVal dimGyre k v (.sc 1) <;> simp
    | some f =>
      dsimp only
      rw [eval_scaleD]
      cases f.eval d with
      | none => rfl
      | some u =>
        simp only [Option.map_some, Option.bind_some]
        rw [hval]
        have hr : rat (k ++ "_dim".toList) = rat k * siRatio (facDim f) := by
          unfold rat
          rw [codeDim_table k hk f hf, siRatio_add]
        cases dimVal dimGyre k v u with
        | none => rfl
        | some w => simp only [Option.map_some]; rw [hr]

theorem dimAll_scale (d : Dict V) : ∀ r : Dict V, (∀ k ∈ r.map (·.1), k ∈ "G".toList :: detailTable.map (·.1)) →
    dimAll dimGyre (scaleD d) (scaleD r) = (dimAll dimGyre d r).map scaleD := by
  intro r
  induction r with
  | nil => intro _; rfl
  | cons e r ih =>
    intro hr
    obtain ⟨k, v⟩ := e
    have h1 := ih fun q hq => hr q (List.mem_cons_of_mem _ hq)
    have h2 := dimOne_scale (hr k List.mem_cons_self) d v
    have e1 : scaleD ((k, v) :: r) = (k, scaleV (rat k) v) :: scaleD r := rfl
    rw [e1]
    unfold dimAll
    rw [h1, h2]
    cases dimOne dimGyre d k v with
    | none => rfl
    | some o =>
      cases dimAll dimGyre d r with
      | none => cases o <;> rfl
      | some es => cases o <;> rfl

theorem put_scaleD (d : Dict V) (k : Str) (v : V) : put (scaleD d) k (scaleV (rat k) v) = scaleD (put d k v) := by
  unfold put
  have hany : (scaleD d).any (fun e => e.1 == k) = d.any (fun e => e.1 == k) := by
    unfold scaleD
    rw [List.any_map]
    rfl
  rw [hany]
  split_ifs
  · unfold scaleD
    rw [List.map_map, List.map_map]
    refine List.map_congr_left fun e _ => ?_
    simp only [Function.comp]
    by_cases h : e.1 = k
    · simp [h]
    · simp [h]
  · unfold scaleD
    rw [List.map_append]
    rfl

theorem foldl_scaleD (es : List (Str × V)) : ∀ d : Dict V,
    (scaleD es).foldl (fun a e => put a e.1 e.2) (scaleD d) = scaleD (es.foldl (fun a e => put a e.1 e.2) d) := by
  induction es with
  | nil => intro d; rfl
  | cons e es ih =>
    intro d
    have e1 : scaleD (e :: es) = (e.1, scaleV (rat e.1) e.2) :: scaleD es := rfl
    rw [e1, List.foldl_cons, List.foldl_cons, put_scaleD, ih]

theorem dimensionalize_scale (d : Dict V) (h : ∀ k ∈ d.map (·.1), k ∈ "G".toList :: detailTable.map (·.1)) :
    dimensionalize dimGyre (scaleD d) = (dimensionalize dimGyre d).map scaleD := by
  unfold dimensionalize
  rw [dimAll_scale d d h]
  cases dimAll dimGyre d d with
  | none => rfl
  | some es => simp only [Option.map_some, foldl_scaleD]

/-! ### Unit conversion -/

/-- Values that can be multiplied by a number. -/
def mulable : V → Bool
  | .sc _ => true
  | .ar _ => true
  | .cx _ => true
  | _ => false

theorem vmul_num (v : V) (q : ℝ) : vmul v (.sc q) = if mulable v then some (scaleV q v) else none := by
  cases v <;> rfl

theorem table_dims : ∀ e ∈ detailTable, match e.2 with
    | none => codeDim e.1 = (0, 0)
    | some q => (q : ℝ) = siRatio (codeDim e.1) := by
  have h1 : ∀ e ∈ detailTable, e.2 = none → codeDim e.1 = (0, 0) := by decide +kernel
  have h2 : ∀ e ∈ detailTable, ∀ q, e.2 = some q → (e.1, q) ∈
      ([("M_star".toList, 1/1000), ("R_star".toList, 1/100), ("L_star".toList, 1/10000000),
        ("M_r".toList, 1/1000), ("P".toList, 1/10), ("rho".toList, 1000)] : List (Str × ℚ)) := by
    have : ∀ e ∈ detailTable, e.2.all (fun q => decide ((e.1, q) ∈
      ([("M_star".toList, 1/1000), ("R_star".toList, 1/100), ("L_star".toList, 1/10000000),
        ("M_r".toList, 1/1000), ("P".toList, 1/10), ("rho".toList, 1000)] : List (Str × ℚ)))) = true := by decide +kernel
    intro e he q hq
    have h := this e he
    rw [hq] at h
    simpa only [Option.all_some, decide_eq_true_eq] using h
  intro e he
  cases ho : e.2 with
  | none => exact h1 e he ho
  | some q =>
    dsimp only
    have := h2 e he q ho
    generalize e.1 = k at this
    simp only [List.mem_cons, List.not_mem_nil, or_false, Prod.mk.injEq] at this
    have hMr : codeDim "M_r".toList = (1, 0) := by decide +kernel
    rcases this with ⟨rfl, rfl⟩ | ⟨rfl, rfl⟩ | ⟨rfl, rfl⟩ | ⟨rfl, rfl⟩ | ⟨rfl, rfl⟩ | ⟨rfl, rfl⟩
    · rw [codeDim_M]; norm_num [siRatio]
    · rw [codeDim_R]; norm_num [siRatio]
    · rw [codeDim_L]; norm_num [siRatio]
    · rw [hMr]; norm_num [siRatio]
    · rw [codeDim_P]; norm_num [siRatio, zpow_neg]
    · rw [codeDim_rho]; norm_num [siRatio, zpow_neg]

/-- Entries with a factor hold numbers. -/
def Good (d : Dict V) : Prop := ∀ e ∈ d, (∃ q, get detailTable e.1 = some (some q)) → mulable e.2 = true

theorem unitConvert_si : ∀ {d : Dict V}, (∀ k ∈ d.map (·.1), k ∈ detailTable.map (·.1)) →
    (Good d → unitConvert detailTable "SI".toList d = some (scaleD d)) ∧
    (¬ Good d → unitConvert detailTable "SI".toList d = none) := by
  classical
  intro d
  induction d with
  | nil => intro _; exact ⟨fun _ => rfl, fun h => absurd (fun e he => by cases he) h⟩
  | cons e d ih =>
    intro hk
    obtain ⟨k, v⟩ := e
    obtain ⟨i1, i2⟩ := ih fun q hq => hk q (List.mem_cons_of_mem _ hq)
    have hne : get detailTable k ≠ none := fun q => get_none.1 q (hk k List.mem_cons_self)
    obtain ⟨o, ho⟩ := Option.ne_none_iff_exists'.1 hne
    have hdim := table_dims (k, o) (get_mem ho)
    have ff : factorFor "SI".toList o = o := if_pos rfl
    have hconv : convertOne o v = if (∃ q, o = some q) → mulable v = true then some (scaleV (rat k) v) else none := by
      cases o with
      | none =>
        rw [if_pos (by rintro ⟨q, hq⟩; cases hq)]
        unfold convertOne rat
        dsimp only at hdim ⊢
        rw [hdim, siRatio_zero, scaleV_one]
      | some q =>
        unfold convertOne
        dsimp only at hdim ⊢
        rw [vmul_num, hdim]
        by_cases hm : mulable v = true
        · rw [if_pos hm, if_pos (fun _ => hm)]; rfl
        · rw [if_neg hm, if_neg (fun h => hm (h ⟨q, rfl⟩))]
    have hgood : Good ((k, v) :: d) ↔ ((∃ q, o = some q) → mulable v = true) ∧ Good d := by
      unfold Good
      constructor
      · intro h
        refine ⟨fun ⟨q, hq⟩ => h (k, v) List.mem_cons_self ⟨q, by rw [ho, hq]⟩, fun e he => h e (List.mem_cons_of_mem _ he)⟩
      · rintro ⟨h1, h2⟩ e he ⟨q, hq⟩
        rcases List.mem_cons.1 he with g | g
        · subst g
          dsimp only at hq
          rw [ho] at hq
          exact h1 ⟨q, Option.some.inj hq⟩
        · exact h2 e g ⟨q, hq⟩
    have hun : unitConvert detailTable "SI".toList ((k, v) :: d) = (convertOne o v).bind fun w =>
        (unitConvert detailTable "SI".toList d).bind fun r => some ((k, w) :: r) := by
      conv_lhs => unfold unitConvert
      rw [ho]
      simp only [Option.bind_eq_bind, Option.bind_some, ff]
      rfl
    rw [hgood, hun, hconv]
    constructor
    · rintro ⟨h1, h2⟩
      rw [if_pos h1, i1 h2]
      rfl
    · intro h
      by_cases h1 : (∃ q, o = some q) → mulable v = true
      · rw [if_pos h1, i2 (fun h2 => h ⟨h1, h2⟩)]
        rfl
      · rw [if_neg h1]
        rfl

theorem factor_keys : ∀ e ∈ detailTable, e.2.isSome → e.1 ∉ dimGyre.avoid ∧ e.1 ∉ dimGyre.complex ∧
    get dimGyre.facs (upper e.1) = none ∧ e.1 ≠ "G".toList := by decide +kernel

theorem bad_fails {d : Dict V} (x : V) (h : ¬ Good d) : dimensionalize dimGyre (put d "G".toList x) = none := by
  unfold Good at h
  push Not at h
  obtain ⟨e, he, ⟨q, hq⟩, hm⟩ := h
  obtain ⟨h1, h2, h3, h4⟩ := factor_keys (e.1, some q) (get_mem hq) rfl
  unfold dimensionalize
  cases hes : dimAll dimGyre (put d "G".toList x) (put d "G".toList x) with
  | none => rfl
  | some es =>
    exfalso
    have := (dimAll_some hes).1 e (mem_put_of_mem (k := e.1) (v := e.2) he h4)
    unfold dimOne at this
    rw [if_neg h1] at this
    unfold dimFac at this
    rw [h3] at this
    unfold dimVal at this
    simp only [Option.bind_some] at this
    rw [if_neg h2, vmul_num, if_neg hm] at this
    cases this

theorem load_si (gS gC : ℝ) (hg : gS = gC / 1000) (d : Dict V) :
    loadDetail gS gC "SI".toList d = (loadDetail gS gC "CGS".toList d).map scaleD := by
  have hs : "CGS".toList ≠ "SI".toList := by decide
  have g1 : gFor gS gC "CGS".toList = gC := by unfold gFor; rw [if_neg (by decide)]
  have g2 : gFor gS gC "SI".toList = gS := by unfold gFor; rw [if_pos (by decide)]
  by_cases hk : ∀ k ∈ d.map (·.1), k ∈ detailTable.map (·.1)
  · have e1 : loadDetail gS gC "CGS".toList d = dimensionalize dimGyre (put d "G".toList (.sc gC)) := by
      unfold loadDetail
      rw [unitConvert_other hs hk, g1]
      rfl
    rw [e1]
    unfold loadDetail
    rw [g2]
    by_cases hgood : Good d
    · rw [(unitConvert_si hk).1 hgood]
      have e2 : V.sc gS = scaleV (rat "G".toList) (.sc gC) := by
        rw [rat_G, hg]
        simp only [scaleV]
        congr 1
        ring
      show dimensionalize dimGyre (put (scaleD d) "G".toList (.sc gS)) = _
      rw [e2, put_scaleD]
      apply dimensionalize_scale
      intro k hkk
      rw [keys_put] at hkk
      split_ifs at hkk
      · exact List.mem_cons_of_mem _ (hk k hkk)
      · rcases List.mem_append.1 hkk with g | g
        · exact List.mem_cons_of_mem _ (hk k g)
        · rw [List.mem_singleton] at g
          exact g ▸ List.mem_cons_self
    · rw [(unitConvert_si hk).2 hgood, bad_fails _ hgood]
      rfl
  · have e1 : ∀ sys, unitConvert detailTable sys d = none := by
      intro sys
      cases h : unitConvert detailTable sys d with
      | none => rfl
      | some e => exact absurd (unitConvert_keys h).2 hk
    unfold loadDetail
    rw [e1, e1]
    rfl

/-- C126: loading in SI units succeeds exactly when loading in cgs units does, and every quantity but the entropy perturbation is
the same physical quantity. -/
theorem C126_same_quantity_partial (gS gC : ℝ) (hg : gS = gC / 1000) (d : Dict V) :
    (loadDetail gS gC "SI".toList d = none ↔ loadDetail gS gC "CGS".toList d = none) ∧
    ∀ dC dS, loadDetail gS gC "CGS".toList d = some dC → loadDetail gS gC "SI".toList d = some dS →
      ∀ k, k ∉ entropyNames → get dS k = (get dC k).map (scaleV (siRatio (dimOf k))) := by
  rw [load_si gS gC hg]
  refine ⟨by rw [Option.map_eq_none_iff], ?_⟩
  intro dC dS h1 h2 k hk
  rw [h1] at h2
  have := Option.some.inj h2
  subst this
  rw [get_scaleD]
  unfold rat codeDim
  rw [if_neg hk]

/-- C126 is refuted for the perturbation of the specific entropy, which is multiplied by the radius: its SI value is a hundredth,
not a ten-thousandth, of the cgs value. -/
theorem C126_entropy_wrong (gS gC : ℝ) (hg : gS = gC / 1000) (d dC dS : Dict V) (h1 : loadDetail gS gC "CGS".toList d = some dC)
    (h2 : loadDetail gS gC "SI".toList d = some dS) (k : Str) (hk : k ∈ entropyNames) :
    get dS k = (get dC k).map (scaleV (1 / 100)) ∧ siRatio (dimOf k) = 1 / 10000 := by
  rw [load_si gS gC hg, h1] at h2
  have := Option.some.inj h2
  subst this
  constructor
  · rw [get_scaleD]
    unfold rat codeDim
    rw [if_pos hk]
    have : siRatio (0, 1) = 1 / 100 := by norm_num [siRatio]
    rw [this]
  · have h3 : ∀ k ∈ entropyNames, dimOf k = (0, 2) := by decide +kernel
    rw [h3 k hk]
    norm_num [siRatio]

/-- A file to which the last theorem applies with a perturbation that is not zero. -/
example : ∃ dC, loadDetail (1 / 1000) 1 "CGS".toList [("R_star".toList, .sc 3), ("lag_S".toList, .pairs [(1, 0)])] = some dC ∧
    get dC "lag_S_dim".toList = some (.cx [toC (1, 0) 3]) := ⟨_, rfl, rfl⟩

/-! ### C127 -/

/-- C127: a name of the unit system that is `'SI'` in no spelling means cgs units, for the mode files and the profile. -/
theorem C127_other_names_partial (gS gC : ℝ) (sys : Str) (h : lower sys ≠ "si".toList) (d : Dict V) :
    loadDetail gS gC sys d = loadDetail gS gC "CGS".toList d ∧ loadMesa sys d = loadMesa "CGS".toList d := by
  have hs : sys ≠ "SI".toList := by
    rintro rfl
    exact h (by decide)
  have hc : "CGS".toList ≠ "SI".toList := by decide
  have hu : ∀ t, unitConvert t sys d = unitConvert t "CGS".toList d := by
    intro t
    cases h1 : unitConvert t "CGS".toList d with
    | none =>
      cases h2 : unitConvert t sys d with
      | none => rfl
      | some e =>
        rw [unitConvert_other hc ((unitConvert_other_iff hs).1 h2).2] at h1
        cases h1
    | some e =>
      obtain ⟨rfl, h3⟩ := (unitConvert_other_iff hc).1 h1
      exact unitConvert_other hs h3
  refine ⟨?_, hu _⟩
  unfold loadDetail
  rw [hu]
  have g1 : gFor gS gC "CGS".toList = gC := by unfold gFor; rw [if_neg (by decide)]
  have g2 : gFor gS gC sys = gC := by unfold gFor; rw [if_neg h]
  rw [g1, g2]

example : lower "cgs".toList ≠ "si".toList ∧ lower "imperial".toList ≠ "si".toList := by decide

/-- C127 is refuted for `'si'` (and `'Si'`, `'sI'`): the gravitational constant is the SI one and everything else is in cgs units;
the gravitational potential is a thousandth of its cgs value, the displacement is the cgs value. -/
theorem C127_lower_case_wrong (gS gC : ℝ) (hg : gS = gC / 1000) (sys : Str) (h1 : lower sys = "si".toList) (h2 : sys ≠ "SI".toList)
    (m r : ℝ) (z p : ℝ × ℝ) :
    ∃ d', loadDetail gS gC sys [("M_star".toList, .sc m), ("R_star".toList, .sc r), ("xi_r".toList, .pairs [z]),
        ("eul_phi".toList, .pairs [p])] = some d' ∧
      get d' "R_star".toList = some (.sc (r * 1)) ∧
      get d' "xi_r_dim".toList = some (.cx [toC z r]) ∧
      get d' "eul_phi_dim".toList = some (.cx [toC p (gC / 1000 * m / r)]) := by
  have hk : unitConvert detailTable sys [("M_star".toList, .sc m), ("R_star".toList, .sc r), ("xi_r".toList, .pairs [z]),
        ("eul_phi".toList, .pairs [p])] = some [("M_star".toList, .sc m), ("R_star".toList, .sc r), ("xi_r".toList, .pairs [z]),
        ("eul_phi".toList, .pairs [p])] := by
    apply unitConvert_other h2
    show ∀ k ∈ ["M_star".toList, "R_star".toList, "xi_r".toList, "eul_phi".toList], k ∈ detailTable.map (·.1)
    decide +kernel
  have g : gFor gS gC sys = gC / 1000 := by unfold gFor; rw [if_pos h1, hg]
  unfold loadDetail
  rw [hk, g]
  exact ⟨_, rfl, rfl, rfl, rfl⟩

example : lower "si".toList = "si".toList ∧ "si".toList ≠ "SI".toList := by decide

/-- What is loaded of a MESA profile: all of it, and a column is changed only if there is a factor for it. -/
theorem mesa_get {sys : Str} : ∀ {d e : Dict V}, loadMesa sys d = some e → ∀ k v, get d k = some v →
    ∃ o w, get mesaTable k = some o ∧ convertOne (factorFor sys o) v = some w ∧ get e k = some w := by
  intro d
  unfold loadMesa
  induction d with
  | nil => intro e h k v hk; cases hk
  | cons x d ih =>
    intro e h k v hk
    obtain ⟨kx, vx⟩ := x
    unfold unitConvert at h
    obtain ⟨o, ho, h⟩ := Option.bind_eq_some_iff.1 h
    obtain ⟨w, hw, h⟩ := Option.bind_eq_some_iff.1 h
    obtain ⟨r, hr, h⟩ := Option.bind_eq_some_iff.1 h
    have := Option.some.inj h
    subst this
    rw [get_cons] at hk ⊢
    by_cases hkk : kx = k
    · rw [if_pos hkk] at hk
      dsimp only at hk
      subst hkk
      cases hk
      exact ⟨o, w, ho, hw, by rw [if_pos rfl]⟩
    · rw [if_neg hkk] at hk ⊢
      exact ih hr k v hk

/-- C127 is refuted for MESA profiles: in SI units the pressure is converted, but the sound speed, the velocity, the opacity, the
density, the sides of the equation of hydrostatic equilibrium and the nuclear energy rate keep their cgs numbers. -/
theorem C127_mesa_wrong (d e : Dict V) (h : loadMesa "SI".toList d = some e) :
    (∀ p, get d "pressure".toList = some (.ar p) → get e "pressure".toList = some (.ar (p.map (· * (1 / 10))))) ∧
    ∀ k ∈ strs ["csound", "velocity", "opacity", "logRho", "hyeq_lhs", "hyeq_rhs", "eps_nuc"], ∀ v, get d k = some v → get e k = some v := by
  constructor
  · intro p hp
    obtain ⟨o, w, ho, hw, he⟩ := mesa_get h _ _ hp
    have h1 : get mesaTable "pressure".toList = some (some (1 / 10)) := by decide +kernel
    rw [h1] at ho
    cases ho
    rw [show factorFor "SI".toList (some (1 / 10)) = some (1 / 10) from if_pos rfl] at hw
    cases hw
    rw [he]
    norm_num
  · intro k hk v hv
    obtain ⟨o, w, ho, hw, he⟩ := mesa_get h _ _ hv
    have h1 : ∀ k ∈ strs ["csound", "velocity", "opacity", "logRho", "hyeq_lhs", "hyeq_rhs", "eps_nuc"],
        get mesaTable k = some none := by decide +kernel
    rw [h1 k hk] at ho
    cases ho
    rw [show factorFor "SI".toList none = none from if_pos rfl] at hw
    cases hw
    exact he

example : ∃ e, loadMesa "SI".toList [("pressure".toList, .ar [10, 20]), ("csound".toList, .ar [1, 2])] = some e ∧
    get e "csound".toList = some (.ar [1, 2]) := ⟨_, rfl, rfl⟩

/-- C127 is refuted for polytropes: mass and radius are the numbers given, cgs ones from every caller and by default, while the
gravitational constant is the SI one. The dynamical frequency squared, which is the same in both systems, differs by the factor of the
constant. -/
theorem C127_polytrope_wrong (gS gC : ℝ) (hg : gS = gC / 1000) (m r : ℝ) (sys : Str) (h : lower sys = "si".toList) (d : Dict V) :
    get (loadPolyModel gS gC sys d) "G".toList = some (.sc (gC / 1000)) ∧
    ∃ dS dC, loadPolyOsc gS gC sys m r [("Gamma_1".toList, .sc 1)] = some dS ∧
      loadPolyOsc gS gC "CGS".toList m r [("Gamma_1".toList, .sc 1)] = some dC ∧
      (∀ k, k ≠ "G".toList → get dS k = get dC k) ∧
      get dS "G".toList = some (.sc (gC / 1000)) ∧ get dC "G".toList = some (.sc gC) := by
  have g : gFor gS gC sys = gC / 1000 := by unfold gFor; rw [if_pos h, hg]
  have g1 : gFor gS gC "CGS".toList = gC := by unfold gFor; rw [if_neg (by decide)]
  constructor
  · unfold loadPolyModel
    rw [get_put, if_pos rfl, g]
  · have key : ∀ (x : ℝ) s, gFor gS gC s = x → loadPolyOsc gS gC s m r [("Gamma_1".toList, .sc 1)] =
        some [("Gamma_1".toList, .sc (1 * 1)), ("G".toList, .sc (x * 1)), ("M_star".toList, .sc (m * 1)), ("R_star".toList, .sc (r * 1))] := by
      intro x s hx
      unfold loadPolyOsc
      rw [hx]
      rfl
    refine ⟨_, _, key _ _ g, key _ _ g1, ?_, ?_, ?_⟩
    · intro k hk
      rw [get_cons, get_cons, get_cons, get_cons, get_nil, get_cons, get_cons, get_cons, get_cons, get_nil]
      dsimp only
      by_cases h1 : "Gamma_1".toList = k
      · rw [if_pos h1, if_pos h1]
      · rw [if_neg h1, if_neg h1, if_neg hk.symm, if_neg hk.symm]
    · show some (V.sc (gC / 1000 * 1)) = _
      rw [mul_one]
    · show some (V.sc (gC * 1)) = _
      rw [mul_one]

end

end Verif.Load
