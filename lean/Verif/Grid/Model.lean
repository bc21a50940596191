import Mathlib.Analysis.SpecialFunctions.Complex.Arg
import Mathlib.Analysis.SpecialFunctions.Trigonometric.Arctan
/-!
# Model of the treatment of one triad after the other by the grid solver

`QuadraticAEGridSolver.__call__` (solver/quadratic_grid.py), `QuadraticAESolver.compute_coupling_one_triad` and the
methods it calls (solver/solver_base_classes/quadratic_solver.py), `StatSolve` and `ThreeModeStationary`
(stationary_solving/). The attributes of the solver object that are kept from one triad to the next are the
state. What is computed from the data of one triad by other parts of the code is given by the functions of `World`.
-/
namespace Verif.Grid
noncomputable section
open Classical

/-- The loaded GYRE data of a triad that are used here: surface values of the non-adiabatic luminosity perturbations, of the
adiabatic radial displacements and of the adiabatic radial coordinate, and the mode identification. -/
structure Loaded where
  lagL : Fin 3 → ℂ
  xiR : Fin 3 → ℂ
  x : Fin 3 → ℝ
  n : Fin 3 → ℤ
  l : Fin 3 → ℤ
  m : Fin 3 → ℤ

/-- What is used of the coupling object (`QCCR`): coefficients, normalisation factors, azimuthal orders, Hough functions of
the observer, disc integrals of its Hough functions. -/
structure Coupler where
  cc : ℝ
  normedCc : ℝ
  etaLee : ℝ
  normFactors : Fin 3 → ℝ
  terms : Fin 4 → ℝ
  m : Fin 3 → ℤ
  hough : ℝ → Fin 3 → ℝ
  tk : Fin 3 → ℝ
  ek : Fin 3 → ℝ

/-- What is used of the frequency handler. -/
structure Freq where
  drivingRates : Fin 3 → ℝ
  gamma : ℝ
  detuning : ℝ
  q : ℝ

/-- The parts of the code that work on one triad only: loading of the files, frequency handling, checks, coupling
coefficient, hyperbolicity of the fixed point, amplitudes. -/
structure World where
  load : ℕ → Loaded
  freq : Loaded → Freq
  statCheck : Loaded → Freq → Bool → Bool
  genericCheck : Loaded → Bool
  coupler : Loaded → Freq → Coupler
  hyper : Bool → Freq → ℝ → Bool
  amps : Freq → Coupler → Fin 3 → ℝ

/-- Settings of the solver (only stellar models: for polytropes the last steps are skipped). -/
structure Config where
  adiabatic : Bool
  statSolv : Bool
  polytrope : Bool

/-- An entry of `_coupling_info` (quadratic_solver.py 673-696), without the frequencies. -/
structure CoupleInfo where
  cc : ℝ
  normedCc : ℝ
  etaLee : ℝ
  normFactors : Fin 3 → ℝ
  adiabatic : Bool
  terms : Fin 4 → ℝ

/-- The dictionary of a stationary solution (three_mode_stationary.py 155-188). -/
structure StatInfo where
  amps : Fin 3 → ℝ
  fluxes : Fin 3 → ℝ
  drivingRates : Fin 3 → ℝ
  gamma : ℝ
  detuning : ℝ
  relPhase : Option ℝ
  lumPhase : Option ℝ
  hyperbolic : Bool
  stable : Bool

/-- The attributes of the solver object; `none` before they are set for the first time. -/
structure State where
  loaded : Option Loaded
  freq : Option Freq
  coupler : Option Coupler
  surfLum : Option (Fin 3 → ℂ)
  xirTerms : Option (Fin 3 → ℂ)
  tk : Option (Fin 3 → ℝ)
  ek : Option (Fin 3 → ℝ)
  coupleInfo : ℕ → Option CoupleInfo
  freqInfo : ℕ → Option Freq
  hyperInfo : ℕ → Bool
  /-- `none`: not yet computed; `some none`: None, for polytropes -/
  statInfo : ℕ → Option (Option StatInfo)

/-- `check_two_mode_sum_resonance` (quadratic_solver.py 936-962). -/
def twoMode (d : Loaded) : Bool := decide (d.m 1 = d.m 2) && decide (d.n 1 = d.n 2) && decide (d.l 1 = d.l 2)

/-- A value of a tuple as the factor of an array product, where a flag counts as 0 or 1: the element `-3` of an entry of
`_coupling_info`, which has nine elements, is the flag `adiabatic` (quadratic_solver.py 673-683, 811, 839). -/
def lastThird (c : CoupleInfo) : Fin 3 → ℂ := fun _ => if c.adiabatic then 1 else 0

/-- `_store_mode_coupling_info` (quadratic_solver.py 652-696). -/
def coupleEntry (cfg : Config) : Option Coupler → CoupleInfo
  | some c => ⟨c.cc, c.normedCc, c.etaLee, c.normFactors, cfg.adiabatic, c.terms⟩
  | none => ⟨0, 0, 0, fun _ => 0, cfg.adiabatic, fun _ => 0⟩

/-- `compute_mode_coupling` with `_store_hyperbolicity_info` (quadratic_solver.py 426-601). -/
def computeCoupling (W : World) (cfg : Config) (i : ℕ) (pre two : Bool) (d : Loaded) (f : Freq) (S : State) : State :=
  let c : Option Coupler := if cfg.polytrope || (pre && cfg.statSolv) || !cfg.statSolv then some (W.coupler d f) else none
  let e := coupleEntry cfg c
  let h := if cfg.polytrope then true else match c with
    | some _ => W.hyper two f e.normedCc
    | none => false
  { S with
    coupler := c
    coupleInfo := fun j => if j = i then some e else S.coupleInfo j
    freqInfo := fun j => if j = i then some f else S.freqInfo j
    hyperInfo := fun j => if j = i then h else S.hyperInfo j }

/-- `compute_additional_mode_info` (quadratic_solver.py 729-760): surface luminosity and displacement terms (791-840) and
disc integrals (698-727), which are computed only when there is a coupling object. -/
def additionalInfo (d : Loaded) (i : ℕ) (S : State) : Option State :=
  match S.coupleInfo i with
  | none => none
  | some e =>
    let S1 := { S with
      surfLum := some fun k => d.lagL k * lastThird e k
      xirTerms := some fun k => d.xiR k / (d.x k : ℂ) * lastThird e k }
    match S.coupler with
    | some c => some { S1 with tk := some c.tk, ek := some c.ek }
    | none => some S1

/-- `compute_coupling_one_triad` (quadratic_solver.py 843-933); the flag says whether the pre-check is satisfied. -/
def oneTriad (W : World) (cfg : Config) (i : ℕ) (S : State) : Option (State × Bool) :=
  let d := W.load i
  let f := W.freq d
  let two := twoMode d
  let pre := if cfg.polytrope then true else if cfg.statSolv then W.statCheck d f two else W.genericCheck d
  let S1 := computeCoupling W cfg i pre two d f { S with loaded := some d, freq := some f }
  if cfg.polytrope then some (S1, pre) else (additionalInfo d i S1).map fun S2 => (S2, pre)

/-- The azimuthal angle of the periastron (three_mode_stationary.py 127-131). -/
def azimuth (ω : ℝ) : ℝ := let y := Real.pi / 2 - ω; y - 2 * Real.pi * ⌊y / (2 * Real.pi)⌋

/-- `_disc_multi_factors` (stationary_solve.py 63-68). -/
def discFactors (S : State) : Option (Fin 3 → ℝ) := do
  let tk ← S.tk
  let ek ← S.ek
  let L ← S.surfLum
  let X ← S.xirTerms
  pure fun k => ‖(tk k : ℂ) * L k - (ek k : ℂ) * X k‖

/-- `_compute_azimuthal_factors` (three_mode_stationary.py 291-315); `none` when the array is left uninitialised. -/
def azFactors (peri : Option ℝ) (c : Option Coupler) : Option (Fin 3 → ℝ) :=
  match peri with
  | none => some fun _ => 0
  | some ω => if azimuth ω = 0 then some fun _ => 0 else c.map fun c k => (c.m k : ℝ) * azimuth ω

/-- `_compute_observer_hough` (three_mode_stationary.py 262-289); `none` when the array is left uninitialised. -/
def observerHough (spin : Option ℝ) (c : Option Coupler) : Option (Fin 3 → ℝ) :=
  c.map fun c k => match spin with | none => 1 | some s => c.hough (Real.cos s) k

/-- `ThreeModeStationary(...)()` (three_mode_stationary.py 90-188, 235-315). The coupling coefficient of a coupling object
has been computed, so that it is not None. -/
def stationary (W : World) (pre : Bool) (f : Freq) (hyper : Bool) (spin peri : Option ℝ) (S : State) : Option StatInfo :=
  if pre then do
    let c ← S.coupler
    let D ← discFactors S
    let a := W.amps f c
    let F : Fin 3 → ℝ := fun k => a k * |D k|
    -- angles of real numbers as complex numbers
    let relLum := (D 0 : ℂ).arg - ((D 1 : ℂ).arg + (D 2 : ℂ).arg)
    let rel := Real.arctan (-1 / f.q)
    let H ← observerHough spin S.coupler
    let az ← azFactors peri S.coupler
    pure ⟨a, fun k => F k * H k, f.drivingRates, f.gamma, f.detuning, some rel, some (rel + relLum + (az 0 - (az 1 + az 2))), hyper, true⟩
  else some ⟨fun _ => 0, fun _ => 0, f.drivingRates, f.gamma, f.detuning, none, none, hyper, false⟩

/-- `_call_grid_computations` (quadratic_grid.py 90-116): the default None for the angles of the observer. -/
def gridStep (W : World) (cfg : Config) (S : State) (i : ℕ) : Option State :=
  match oneTriad W cfg i S with
  | none => none
  | some (S1, pre) =>
    if cfg.polytrope then some { S1 with statInfo := fun j => if j = i then some none else S1.statInfo j }
    else match S1.freq with
      | none => none
      | some f => match stationary W pre f (S1.hyperInfo i) none none S1 with
        | none => none
        | some s => some { S1 with statInfo := fun j => if j = i then some (some s) else S1.statInfo j }

/-- The loop over triads (quadratic_grid.py 77-88); `none` when an attribute is read that has not been set. -/
def gridRun (W : World) (cfg : Config) : State → List ℕ → Option State
  | S, [] => some S
  | S, i :: is => match gridStep W cfg S i with
    | none => none
    | some S' => gridRun W cfg S' is

end
end Verif.Grid
