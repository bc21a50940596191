import Verif.ProfRun.Terms
import Verif.ProfRun.Names
import Verif.Grid.Model
/-!
# C154, C155: what a profile run does as a whole

`QuadraticCouplingCoefficientProfile.compute_mode_triad_profile` (`aesolver/aesolver/solver/quadratic_profile.py` 318-712, below:
qp) after `compute_coupling_one_triad` of its base class, which is `Grid.oneTriad`.

Simplifications: loading and computing of the data of the triad do not fail, the check of hyperbolicity does not raise an error, and
`savefig` succeeds.  The numbers that are printed are those of `Tar.printed` (C102) and are not repeated here, except for the
stationary solution they are taken from.
-/
namespace Verif.ProfRun
noncomputable section
open Inlist (Str)
open Kernels (RadObj)

/-- What the run obtains from the coupling object: the quantities of the masks, the five profiles, and the objects the kernels are
taken from. -/
structure Data where
  tar : Tar.Inp
  prof : Fin 5 → List ℝ
  ang : Coupling.Obj
  rad : RadObj

/-- The errors: an attribute of None or a missing attribute, `PhysicsError`, or another error. -/
inductive Failure
  | attribute | physics (e : Tar.PhysErr) | other
deriving DecidableEq

/-- The files that were written, the stationary solution that was printed (with the flag of the check of hyperbolicity), and the
error. -/
structure Outcome where
  saved : List (Str × Str × Str) := []
  stat : Option Grid.StatInfo := none
  error : Option Failure := none

/-- The file of a figure. -/
def file (f : Figure) : Str × Str × Str := (f.subdir, f.base, f.ext)

/-- The figures of the kernels (qp 520-698): first all figures of the angular kernels are made, then those of the radial ones; `none`
when one of them cannot be drawn (then an error is raised; the figures made before it are saved, which is not modelled). -/
def kernelRun (repr : ℝ → Str) (D : Data) (valid : List Bool) : Option (List (Str × Str × Str)) := do
  let a ← [1, 2, 3, 4].mapM fun nr : ℤ => angFigures repr D.ang nr
  let b ← [1, 2, 3, 4].mapM fun nr : ℤ => radFigures D.rad valid nr
  pure ((a.flatten ++ b.flatten).map file)

/-- `compute_mode_triad_profile` (qp 318-712): the triad has number 0.  `compute_coupling_coefficient_profile` (qp 100-119) only logs
when there is no coupling object; the quality factors are an attribute of the frequency handler only when non-adiabatic information
was given to it (`frequency_handler.py` 191-247), which is not done for polytropes. -/
def profileRun (repr : ℝ → Str) (W : Grid.World) (cfg : Grid.Config) (S : Grid.State) (r : Req) (D : Data) : Outcome :=
  match Grid.oneTriad W cfg 0 S with
  | none => { error := some .other }
  | some (S1, _) =>
    if S1.coupler.isNone then { error := some .attribute }
    else if cfg.polytrope then { error := some .attribute }
    else match Tar.masking D.tar with
      | .error e => { error := some (.physics e) }
      | .ok m => match Tar.adjust m (D.prof 0) with
        | none => { saved := (figureList { r with terms := false, kernels := false }).take 1, error := some .other }
        | some _ =>
          let first := figureList { r with terms := false, kernels := false }
          match S1.freq.bind fun f => Grid.stationary W true f (S1.hyperInfo 0) none none S1 with
          | none => { saved := first, error := some .other }
          | some st =>
            match (if r.terms then (Tar.adjustAll m [D.prof 1, D.prof 2, D.prof 3, D.prof 4]).map fun _ =>
                [("coupling_coefficient_contributions".toList, "cc_contributions_profile".toList, "png".toList)]
              else some []) with
            | none => { saved := first, stat := some st, error := some .other }
            | some t => match (if r.kernels then kernelRun repr D m.valid else some []) with
              | none => { saved := first ++ t, stat := some st, error := some .other }
              | some k => { saved := first ++ t ++ k, stat := some st }

/-! ### Specification -/

/-- The data of a run: profiles, radial functions and squared buoyancy frequencies on one grid of `n` shells. -/
structure Spec.Fits (D : Data) (n N : ℕ) (μ : ℕ → ℝ) (S : Coupling.Spec.Star) (f g : String → Fin 3 → ℕ → ℝ) : Prop where
  shells : D.tar.n2.length = n
  profiles : ∀ k, (D.prof k).length = n
  angular : Kernels.Spec.AngSamples D.ang N μ f
  radial : Kernels.Spec.RadSamples D.rad n S g

/-- The triad passes the check of the stationary solution, if this is asked for. -/
def Spec.Passes (W : Grid.World) (cfg : Grid.Config) : Prop :=
  cfg.statSolv = true → W.statCheck (W.load 0) (W.freq (W.load 0)) (Grid.twoMode (W.load 0)) = true

/-! ### Proofs -/

theorem valid_length (i : Tar.Inp) (m : Tar.Res) (h : Tar.masking i = .ok m) : m.valid.length = i.n2.length := by
  have h' := h
  unfold Tar.masking Tar.zonesOf at h'
  dsimp only at h'
  have : m.valid = Tar.tarValid i := by
    split_ifs at h' <;> first
      | (obtain rfl := Except.ok.inj h'; rfl)
      | (cases h'; done)
      | (split at h' <;> first | (cases h'; done) | (obtain rfl := Except.ok.inj h'; rfl))
  rw [this, Tar.tarValid_length]

theorem ang_files (repr : ℝ → Str) (o : Coupling.Obj) (N : ℕ) (μ : ℕ → ℝ) (f : String → Fin 3 → ℕ → ℝ)
    (h : Kernels.Spec.AngSamples o N μ f) (nr : ℤ) (hn : nr = 1 ∨ nr = 2 ∨ nr = 3 ∨ nr = 4) :
    ∃ figs, angFigures repr o nr = some figs ∧ figs.map file =
      (Spec.angFiles nr).map (fun s => ("angular_kernels".toList, s.toList, "png".toList)) := by
  obtain ⟨figs, d, h1, -, -, h2, -⟩ := C153_angular_partial repr o N μ f h nr hn
  exact ⟨figs, h1, h2⟩

theorem rad_files (o : RadObj) (n : ℕ) (S : Coupling.Spec.Star) (f : String → Fin 3 → ℕ → ℝ) (h : Kernels.Spec.RadSamples o n S f)
    (tar : List Bool) (ht : tar.length = n) (nr : ℤ) (hn : nr = 1 ∨ nr = 2 ∨ nr = 3 ∨ nr = 4) :
    ∃ figs, radFigures o tar nr = some figs ∧ figs.map file =
      (Spec.radFiles nr).map (fun s => ("radial_kernels".toList, s.toList, "png".toList)) := by
  by_cases h2 : nr = 2
  · obtain ⟨figs, p, h1, h3, -⟩ := C153_radial_second o n S f h tar ht
    refine ⟨figs, h2 ▸ h1, ?_⟩
    have := congrArg (List.map fun q : Str × Str × Str × List Panel => (q.1, q.2.1, q.2.2.1)) h3
    rw [List.map_map] at this
    rw [h2]
    exact this
  · obtain ⟨c, hc⟩ := C153_radial_partial
    obtain ⟨figs, d, h1, -, -, -, h3, -⟩ := hc o n S f h tar ht nr (by tauto)
    exact ⟨figs, h1, h3⟩

theorem kernelRun_eq (repr : ℝ → Str) (D : Data) {n N : ℕ} {μ : ℕ → ℝ} {S : Coupling.Spec.Star} {f g : String → Fin 3 → ℕ → ℝ}
    (h : Spec.Fits D n N μ S f g) (v : List Bool) (hv : v.length = n) :
    kernelRun repr D v = some (kernelFiles "angular" angCols ++ kernelFiles "radial" radCols) := by
  obtain ⟨a1, ha1, ea1⟩ := ang_files repr D.ang N μ f h.angular 1 (by simp)
  obtain ⟨a2, ha2, ea2⟩ := ang_files repr D.ang N μ f h.angular 2 (by simp)
  obtain ⟨a3, ha3, ea3⟩ := ang_files repr D.ang N μ f h.angular 3 (by simp)
  obtain ⟨a4, ha4, ea4⟩ := ang_files repr D.ang N μ f h.angular 4 (by simp)
  obtain ⟨b1, hb1, eb1⟩ := rad_files D.rad n S g h.radial v hv 1 (by simp)
  obtain ⟨b2, hb2, eb2⟩ := rad_files D.rad n S g h.radial v hv 2 (by simp)
  obtain ⟨b3, hb3, eb3⟩ := rad_files D.rad n S g h.radial v hv 3 (by simp)
  obtain ⟨b4, hb4, eb4⟩ := rad_files D.rad n S g h.radial v hv 4 (by simp)
  unfold kernelRun
  simp only [List.mapM_cons, List.mapM_nil, ha1, ha2, ha3, ha4, hb1, hb2, hb3, hb4, Option.bind_eq_bind, Option.bind_some,
    Option.pure_def, List.flatten_cons, List.flatten_nil, List.append_nil, List.map_append, ea1, ea2, ea3, ea4, eb1, eb2, eb3, eb4]
  refine congrArg some ?_
  decide +kernel

theorem oneTriad_some (W : Grid.World) (cfg : Grid.Config) (S : Grid.State) (hp : cfg.polytrope = false) :
    ∃ S1, Grid.oneTriad W cfg 0 S = some (S1, if cfg.statSolv then W.statCheck (W.load 0) (W.freq (W.load 0)) (Grid.twoMode (W.load 0))
        else W.genericCheck (W.load 0)) ∧ S1.freq = some (W.freq (W.load 0)) ∧
      (Spec.Passes W cfg → S1.coupler = some (W.coupler (W.load 0) (W.freq (W.load 0))) ∧
        S1.tk = some (W.coupler (W.load 0) (W.freq (W.load 0))).tk ∧ S1.ek = some (W.coupler (W.load 0) (W.freq (W.load 0))).ek ∧
        S1.surfLum.isSome ∧ S1.xirTerms.isSome) ∧ (¬ Spec.Passes W cfg → S1.coupler = none) := by
  unfold Grid.oneTriad Grid.additionalInfo Grid.computeCoupling Spec.Passes
  simp only [hp, Bool.false_or, if_true, Bool.false_eq_true, if_false]
  cases hs : cfg.statSolv
  · simp only [Bool.false_eq_true, if_false, Bool.not_false, Bool.or_true, if_true, Option.map_some]
    exact ⟨_, rfl, rfl, by simp, by simp⟩
  · cases hc : W.statCheck (W.load 0) (W.freq (W.load 0)) (Grid.twoMode (W.load 0))
    · simp only [if_true, Bool.not_true, Bool.or_false, Bool.false_and, Bool.false_eq_true, if_false, Option.map_some]
      exact ⟨_, rfl, rfl, by simp, by simp⟩
    · simp only [if_true, Bool.not_true, Bool.or_false, Bool.true_and, Option.map_some]
      exact ⟨_, rfl, rfl, by simp, by simp⟩

theorem stationary_some (W : Grid.World) (f : Grid.Freq) (hy : Bool) (S1 : Grid.State) (c : Grid.Coupler) (hc : S1.coupler = some c)
    (ht : S1.tk = some c.tk) (he : S1.ek = some c.ek) (hs : S1.surfLum.isSome) (hx : S1.xirTerms.isSome) :
    ∃ st, Grid.stationary W true f hy none none S1 = some st ∧ st.amps = W.amps f c ∧ st.hyperbolic = hy := by
  obtain ⟨L, hL⟩ := Option.isSome_iff_exists.1 hs
  obtain ⟨X, hX⟩ := Option.isSome_iff_exists.1 hx
  unfold Grid.stationary Grid.discFactors Grid.observerHough Grid.azFactors
  simp only [if_true, hc, ht, he, hL, hX, Option.bind_eq_bind, Option.bind_some, Option.pure_def, Option.map_some]
  exact ⟨_, rfl, rfl, rfl⟩

theorem figureList_split (r : Req) : figureList r = figureList { r with terms := false, kernels := false } ++
    (if r.terms then [("coupling_coefficient_contributions".toList, "cc_contributions_profile".toList, "png".toList)] else []) ++
    (if r.kernels then kernelFiles "angular" angCols ++ kernelFiles "radial" radCols else []) := by
  unfold figureList
  simp only [Bool.false_eq_true, if_false, List.append_nil]

/-- The run for a stellar model, in all cases. -/
theorem run_eq (repr : ℝ → Str) (W : Grid.World) (cfg : Grid.Config) (S : Grid.State) (r : Req) (D : Data) {n N : ℕ} {μ : ℕ → ℝ}
    {T : Coupling.Spec.Star} {f g : String → Fin 3 → ℕ → ℝ} (h : Spec.Fits D n N μ T f g) (hp : cfg.polytrope = false) :
    (¬ Spec.Passes W cfg → profileRun repr W cfg S r D = { error := some .attribute }) ∧
    (Spec.Passes W cfg → ∀ e, Tar.masking D.tar = .error e → profileRun repr W cfg S r D = { error := some (.physics e) }) ∧
    (Spec.Passes W cfg → ∀ m, Tar.masking D.tar = .ok m → ∃ S1 st, Grid.oneTriad W cfg 0 S = some (S1,
        if cfg.statSolv then W.statCheck (W.load 0) (W.freq (W.load 0)) (Grid.twoMode (W.load 0)) else W.genericCheck (W.load 0)) ∧
      S1.freq = some (W.freq (W.load 0)) ∧
      Grid.stationary W true (W.freq (W.load 0)) (S1.hyperInfo 0) none none S1 = some st ∧
      st.amps = W.amps (W.freq (W.load 0)) (W.coupler (W.load 0) (W.freq (W.load 0))) ∧
      profileRun repr W cfg S r D = { saved := figureList r, stat := some st }) := by
  obtain ⟨S1, h1, h2, h3, h4⟩ := oneTriad_some W cfg S hp
  refine ⟨fun hn => ?_, fun hy e he => ?_, fun hy m hm => ?_⟩
  · unfold profileRun
    rw [h1]
    simp only [h4 hn, Option.isNone_none, if_true]
  · obtain ⟨c1, -⟩ := h3 hy
    unfold profileRun
    rw [h1]
    simp only [c1, Option.isNone_some, Bool.false_eq_true, if_false, hp, he]
  · obtain ⟨c1, c2, c3, c4, c5⟩ := h3 hy
    obtain ⟨st, hst, hamp, -⟩ := stationary_some W (W.freq (W.load 0)) (S1.hyperInfo 0) S1 _ c1 c2 c3 c4 c5
    refine ⟨S1, st, h1, h2, hst, hamp, ?_⟩
    obtain ⟨o, ho, -⟩ := Tar.C100_adjusted D.tar m (D.prof 0) hm ((h.profiles 0).trans h.shells.symm)
    have hall : ∃ os, Tar.adjustAll m [D.prof 1, D.prof 2, D.prof 3, D.prof 4] = some os := by
      have hk : ∀ k : Fin 5, ∃ o, Tar.adjust m (D.prof k) = some o := fun k => by
        obtain ⟨o, ho, -⟩ := Tar.C100_adjusted D.tar m (D.prof k) hm ((h.profiles k).trans h.shells.symm)
        exact ⟨o, ho⟩
      obtain ⟨o1, e1⟩ := hk 1
      obtain ⟨o2, e2⟩ := hk 2
      obtain ⟨o3, e3⟩ := hk 3
      obtain ⟨o4, e4⟩ := hk 4
      refine ⟨[o1, o2, o3, o4], ?_⟩
      unfold Tar.adjustAll
      simp only [List.mapM_cons, List.mapM_nil, e1, e2, e3, e4, Option.bind_eq_bind, Option.bind_some, Option.pure_def]
    obtain ⟨os, hos⟩ := hall
    have hk := kernelRun_eq repr D h m.valid ((valid_length _ _ hm).trans h.shells)
    unfold profileRun
    rw [h1]
    simp only [c1, Option.isNone_some, Bool.false_eq_true, if_false, hp, hm, ho, h2, Option.bind_some, hst, hos, hk, Option.map_some]
    rw [figureList_split r]
    cases r.terms <;> cases r.kernels <;> simp

/-- **C154.** Full statement: a profile run writes all requested figures, or stops with an error and writes none, and it stops only
when the triad fails the check of the stationary solution or the masks of the traditional approximation are refused.
Missing because false: runs for polytropes always stop (`C154_polytrope_wrong`). -/
theorem C154_all_or_nothing_partial (repr : ℝ → Str) (W : Grid.World) (cfg : Grid.Config) (S : Grid.State) (r : Req) (D : Data)
    (n N : ℕ) (μ : ℕ → ℝ) (T : Coupling.Spec.Star) (f g : String → Fin 3 → ℕ → ℝ) (h : Spec.Fits D n N μ T f g)
    (hp : cfg.polytrope = false) :
    ((profileRun repr W cfg S r D).saved = figureList r ∧ (profileRun repr W cfg S r D).error = none ∧
        Spec.Passes W cfg ∧ ∃ m, Tar.masking D.tar = .ok m) ∨
    ((profileRun repr W cfg S r D).saved = [] ∧ (profileRun repr W cfg S r D).stat = none ∧
      ((profileRun repr W cfg S r D).error = some .attribute ∧ ¬ Spec.Passes W cfg ∨
        ∃ e, (profileRun repr W cfg S r D).error = some (.physics e) ∧ Spec.Passes W cfg ∧ Tar.masking D.tar = .error e)) := by
  obtain ⟨h1, h2, h3⟩ := run_eq repr W cfg S r D h hp
  by_cases hy : Spec.Passes W cfg
  · cases hm : Tar.masking D.tar with
    | error e =>
      rw [h2 hy e hm]
      exact Or.inr ⟨rfl, rfl, Or.inr ⟨e, rfl, hy, rfl⟩⟩
    | ok m =>
      obtain ⟨S1, st, -, -, -, -, e⟩ := h3 hy m hm
      rw [e]
      exact Or.inl ⟨rfl, rfl, hy, m, rfl⟩
  · rw [h1 hy]
    exact Or.inr ⟨rfl, rfl, Or.inl ⟨rfl, hy⟩⟩

/-- **C154 (refutation).** A run for polytropes never writes a figure. -/
theorem C154_polytrope_wrong (repr : ℝ → Str) (W : Grid.World) (cfg : Grid.Config) (S : Grid.State) (r : Req) (D : Data)
    (hp : cfg.polytrope = true) :
    (profileRun repr W cfg S r D).saved = [] ∧ (profileRun repr W cfg S r D).error = some .attribute := by
  unfold profileRun Grid.oneTriad
  simp only [hp, if_true]
  split <;> simp

/-- **C155.** Full statement: the stationary solution that a profile run prints for a triad is the one that a grid run stores for it.
Missing because false: triads that fail the check (`C155_check_wrong`). -/
theorem C155_same_as_grid_partial (repr : ℝ → Str) (W : Grid.World) (cfg : Grid.Config) (S : Grid.State) (r : Req) (D : Data)
    (n N : ℕ) (μ : ℕ → ℝ) (T : Coupling.Spec.Star) (f g : String → Fin 3 → ℕ → ℝ) (h : Spec.Fits D n N μ T f g)
    (hp : cfg.polytrope = false) (m : Tar.Res) (hm : Tar.masking D.tar = .ok m)
    (hc : (if cfg.statSolv then W.statCheck (W.load 0) (W.freq (W.load 0)) (Grid.twoMode (W.load 0))
      else W.genericCheck (W.load 0)) = true) :
    ∃ st S', (profileRun repr W cfg S r D).stat = some st ∧ Grid.gridStep W cfg S 0 = some S' ∧ S'.statInfo 0 = some (some st) ∧
      st.amps = W.amps (W.freq (W.load 0)) (W.coupler (W.load 0) (W.freq (W.load 0))) := by
  have hy : Spec.Passes W cfg := fun hs => by rwa [if_pos hs] at hc
  obtain ⟨S1, st, a1, a2, a3, a4, a5⟩ := (run_eq repr W cfg S r D h hp).2.2 hy m hm
  rw [hc] at a1
  refine ⟨st, { S1 with statInfo := fun j => if j = 0 then some (some st) else S1.statInfo j }, by rw [a5], ?_, by simp, a4⟩
  unfold Grid.gridStep
  rw [a1]
  simp only [hp, Bool.false_eq_true, if_false, a2, a3]

/-- **C155 (refutation).** Without the check of the stationary solution, a triad that breaks the selection rules gets amplitude zero in a
grid run, and in a profile run the amplitudes of a stationary solution. -/
theorem C155_check_wrong (repr : ℝ → Str) (W : Grid.World) (cfg : Grid.Config) (S : Grid.State) (r : Req) (D : Data)
    (n N : ℕ) (μ : ℕ → ℝ) (T : Coupling.Spec.Star) (f g : String → Fin 3 → ℕ → ℝ) (h : Spec.Fits D n N μ T f g)
    (hp : cfg.polytrope = false) (m : Tar.Res) (hm : Tar.masking D.tar = .ok m) (hs : cfg.statSolv = false)
    (hc : W.genericCheck (W.load 0) = false) :
    ∃ st S' st', (profileRun repr W cfg S r D).stat = some st ∧ Grid.gridStep W cfg S 0 = some S' ∧ S'.statInfo 0 = some (some st') ∧
      st.amps = W.amps (W.freq (W.load 0)) (W.coupler (W.load 0) (W.freq (W.load 0))) ∧ (∀ k, st'.amps k = 0) := by
  have hy : Spec.Passes W cfg := fun h' => by rw [hs] at h'; cases h'
  obtain ⟨S1, st, a1, a2, a3, a4, a5⟩ := (run_eq repr W cfg S r D h hp).2.2 hy m hm
  rw [hs, if_neg Bool.false_ne_true, hc] at a1
  let st' : Grid.StatInfo := ⟨fun _ => 0, fun _ => 0, (W.freq (W.load 0)).drivingRates, (W.freq (W.load 0)).gamma,
    (W.freq (W.load 0)).detuning, none, none, S1.hyperInfo 0, false⟩
  refine ⟨st, { S1 with statInfo := fun j => if j = 0 then some (some st') else S1.statInfo j }, st', by rw [a5], ?_, by simp, a4,
    fun k => rfl⟩
  unfold Grid.gridStep
  rw [a1]
  simp only [hp, Bool.false_eq_true, if_false, a2, Grid.stationary, st']

/-- Non-vacuity: four shells with an invalid core, two latitudes, a triad that passes all checks and one that passes none. -/
example : ∃ (D : Data) (S : Coupling.Spec.Star) (f g : String → Fin 3 → ℕ → ℝ) (W W' : Grid.World) (cfg cfg' : Grid.Config) (m : Tar.Res),
    Spec.Fits D 4 2 (fun j => j / 2) S f g ∧ Tar.masking D.tar = .ok m ∧ cfg.polytrope = false ∧ cfg.statSolv = true ∧
    Spec.Passes W cfg ∧ ¬ Spec.Passes W' cfg ∧ cfg'.polytrope = false ∧ cfg'.statSolv = false ∧ W'.genericCheck (W'.load 0) = false ∧
    W'.amps (W'.freq (W'.load 0)) (W'.coupler (W'.load 0) (W'.freq (W'.load 0))) 0 ≠ 0 := by
  let W (b : Bool) : Grid.World :=
    { load := fun _ => ⟨fun _ => 1, fun _ => 1, fun _ => 1, fun _ => -20, fun _ => 1, fun _ => 1⟩
      freq := fun _ => ⟨fun _ => 1, 1, 1, 1⟩, statCheck := fun _ _ _ => b, genericCheck := fun _ => b
      coupler := fun _ _ => ⟨1, 1, 2, fun _ => 1, fun _ => 1, fun _ => 1, fun _ _ => 1, fun _ => 1, fun _ => 1⟩
      hyper := fun _ _ _ => false, amps := fun _ _ _ => 1 }
  have h1 : ¬ Tar.TarHolds Tar.exInp 0 := by
    rintro ⟨⟨x, hx, _, h⟩, _⟩
    have hx : (0 : ℝ) = x := by simpa [Tar.exInp] using hx
    subst hx
    norm_num at h
    exact absurd h (not_lt.2 (by positivity))
  obtain ⟨m, hm, -⟩ := Tar.masking_good Tar.exInp Tar.ex_slow ⟨1, Tar.ex_tenk _ 1 rfl rfl rfl rfl⟩ ⟨0, by simp [Tar.exInp], h1⟩
  refine ⟨{ tar := Tar.exInp, prof := fun _ => [0, 1, 2, 3],
            ang := { attr := fun _ => some (tab 2 fun _ => 1), mu := tab 2 fun j => j / 2, x := [], mList := [], conj := .none,
                     PNormed := [], rhoNormed := [], Gamma1 := [], rhoGammaDer := none, dgrav := [], dgrav2 := [], dgrav3 := [],
                     normP := 1, normRho := 1, R := 1 },
            rad := { base := { attr := fun _ => some (tab 4 fun _ => 1), mu := [], x := tab 4 fun i => i + 1, mList := [],
                               conj := .none, PNormed := [], rhoNormed := [], Gamma1 := tab 4 fun _ => 2, rhoGammaDer := none,
                               dgrav := tab 4 fun _ => 1, dgrav2 := tab 4 fun _ => 1, dgrav3 := tab 4 fun _ => 1,
                               normP := 1, normRho := 1, R := 1 },
                     P := some (tab 4 fun i => 5 - i), rho := some (tab 4 fun i => 6 - i),
                     gammaDer := some (tab 4 fun _ => 0), energy := 1 } },
    { x := fun i => i + 1, R := 1, Γ := fun _ => 2, Γ' := fun _ => 0, P := fun i => 5 - i, ρ := fun i => 6 - i, g := fun _ => 1,
      g' := fun _ => 1, g'' := fun _ => 1 }, fun _ _ _ => 1, fun _ _ _ => 1, W true, W false, ⟨true, true, false⟩, ⟨true, false, false⟩, m,
    ⟨rfl, fun _ => rfl, ⟨rfl, fun _ _ _ => rfl⟩, ⟨rfl, rfl, rfl, rfl, rfl, rfl, rfl, rfl, ⟨fun _ => 0, rfl, fun i => by simp⟩, fun _ _ _ => rfl⟩⟩,
    hm, rfl, rfl, fun _ => rfl, fun h => ?_, rfl, rfl, rfl, one_ne_zero⟩
  exact Bool.false_ne_true (h rfl)

end
end Verif.ProfRun
