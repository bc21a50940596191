import Verif.Grid.Model
import Mathlib.Tactic.Ring
import Mathlib.Tactic.Linarith
import Mathlib.Tactic.FieldSimp
import Mathlib.Tactic.Positivity
/-! # C74–C76: surface perturbations, luminosity phases, independence of triads -/
namespace Verif.Grid
noncomputable section
open Classical

namespace Spec
/-- The daughters (the second and the third mode) have the same numbers. -/
def sameDaughters (d : Loaded) : Bool := decide (d.l 1 = d.l 2 ∧ d.m 1 = d.m 2 ∧ d.n 1 = d.n 2)
/-- The pre-check of a triad: none for polytropes, with or without the stability condition for stars. -/
def pre (W : World) (cfg : Config) (i : ℕ) : Prop :=
  cfg.polytrope = true ∨ if cfg.statSolv then W.statCheck (W.load i) (W.freq (W.load i)) (sameDaughters (W.load i)) = true
    else W.genericCheck (W.load i) = true
/-- The coupling object of a triad. -/
def coupler (W : World) (i : ℕ) : Coupler := W.coupler (W.load i) (W.freq (W.load i))
/-- The surface perturbations of a mode as they should be: those of GYRE times the normalisation factor of
the mode. -/
def surfLum (d : Loaded) (c : Coupler) (k : Fin 3) : ℂ := d.lagL k * (c.normFactors k : ℂ)
def xirTerm (d : Loaded) (c : Coupler) (k : Fin 3) : ℂ := d.xiR k / (d.x k : ℂ) * (c.normFactors k : ℂ)
/-- The flux variation of a mode with amplitude `a` and surface perturbations `L`, `X`. -/
def flux (c : Coupler) (a : ℝ) (L X : ℂ) (k : Fin 3) : ℝ := a * ‖(c.tk k : ℂ) * L - (c.ek k : ℂ) * X‖
end Spec

/-- The flag of the pre-check. -/
def preOf (W : World) (cfg : Config) (i : ℕ) : Bool :=
  if cfg.polytrope then true else if cfg.statSolv then W.statCheck (W.load i) (W.freq (W.load i)) (twoMode (W.load i)) else W.genericCheck (W.load i)

theorem twoMode_eq : twoMode = Spec.sameDaughters := by
  funext d
  unfold twoMode Spec.sameDaughters
  rw [Bool.eq_iff_iff]
  simp only [Bool.and_eq_true, decide_eq_true_eq]
  tauto

theorem preOf_iff (W : World) (cfg : Config) (i : ℕ) : preOf W cfg i = true ↔ Spec.pre W cfg i := by
  unfold preOf Spec.pre
  rw [twoMode_eq]
  cases cfg.polytrope <;> cases cfg.statSolv <;> simp

/-- The coupling object of a triad, when there is one. -/
def cOf (W : World) (cfg : Config) (i : ℕ) : Option Coupler :=
  if cfg.polytrope || (preOf W cfg i && cfg.statSolv) || !cfg.statSolv then some (Spec.coupler W i) else none

theorem cOf_pre (W : World) (cfg : Config) (i : ℕ) (h : preOf W cfg i = true) : cOf W cfg i = some (Spec.coupler W i) := by
  unfold cOf
  rw [h]
  cases cfg.polytrope <;> cases cfg.statSolv <;> simp

/-- The surface perturbations as computed. -/
def lumOf (W : World) (cfg : Config) (i : ℕ) : Fin 3 → ℂ := fun k => (W.load i).lagL k * if cfg.adiabatic then 1 else 0
def xirOf (W : World) (cfg : Config) (i : ℕ) : Fin 3 → ℂ := fun k =>
  (W.load i).xiR k / ((W.load i).x k : ℂ) * if cfg.adiabatic then 1 else 0

def hyperOf (W : World) (cfg : Config) (i : ℕ) : Bool := if cfg.polytrope then true else match cOf W cfg i with
  | some _ => W.hyper (twoMode (W.load i)) (W.freq (W.load i)) (coupleEntry cfg (cOf W cfg i)).normedCc
  | none => false

theorem entry_adiabatic (cfg : Config) (c : Option Coupler) : (coupleEntry cfg c).adiabatic = cfg.adiabatic := by
  cases c <;> rfl

/-- What one triad leaves in the state. -/
structure Done (W : World) (cfg : Config) (i : ℕ) (S S' : State) : Prop where
  freq : S'.freq = some (W.freq (W.load i))
  coupler : S'.coupler = cOf W cfg i
  info : S'.coupleInfo = fun j => if j = i then some (coupleEntry cfg (cOf W cfg i)) else S.coupleInfo j
  finfo : S'.freqInfo = fun j => if j = i then some (W.freq (W.load i)) else S.freqInfo j
  hyper : S'.hyperInfo = fun j => if j = i then hyperOf W cfg i else S.hyperInfo j
  stat : S'.statInfo = S.statInfo
  lum : cfg.polytrope = false → S'.surfLum = some (lumOf W cfg i)
  xir : cfg.polytrope = false → S'.xirTerms = some (xirOf W cfg i)
  tk : cfg.polytrope = false → ∀ c, cOf W cfg i = some c → S'.tk = some c.tk ∧ S'.ek = some c.ek

theorem oneTriad_done (W : World) (cfg : Config) (i : ℕ) (S : State) :
    ∃ S', oneTriad W cfg i S = some (S', preOf W cfg i) ∧ Done W cfg i S S' := by
  have hl : ∀ d : Fin 3 → ℂ, (fun k => d k * lastThird (coupleEntry cfg (cOf W cfg i)) k) =
      fun k => d k * if cfg.adiabatic then 1 else 0 := by
    intro d; funext k; rw [lastThird, entry_adiabatic]
  cases hp : cfg.polytrope
  · cases hc : cOf W cfg i with
    | none =>
      have hc' := hc
      unfold cOf preOf Spec.coupler at hc
      simp only [hp, Bool.false_eq_true, if_false] at hc
      refine ⟨_, by
        simp only [oneTriad, hp, Bool.false_eq_true, if_false, computeCoupling, hc, additionalInfo, if_true, Option.map_some, preOf]; rfl, ?_⟩
      constructor <;> simp only [hc', hp, hyperOf, Bool.false_eq_true, if_false, lumOf, xirOf, forall_const, reduceCtorEq, false_imp_iff, implies_true]
      · simp only [Option.some.injEq]; rw [← hc', hl]; rfl
      · simp only [Option.some.injEq]; rw [← hc', hl (fun k => (W.load i).xiR k / ((W.load i).x k : ℂ))]; rfl
    | some c =>
      have hc' := hc
      unfold cOf preOf Spec.coupler at hc
      simp only [hp, Bool.false_eq_true, if_false] at hc
      refine ⟨_, by
        simp only [oneTriad, hp, Bool.false_eq_true, if_false, computeCoupling, hc, additionalInfo, if_true, Option.map_some, preOf]; rfl, ?_⟩
      constructor <;> simp only [hc', hp, hyperOf, Bool.false_eq_true, if_false, lumOf, xirOf, forall_const, Option.some.injEq]
      · rw [← hc', hl]; rfl
      · rw [← hc', hl (fun k => (W.load i).xiR k / ((W.load i).x k : ℂ))]; rfl
      · rintro c rfl; exact ⟨rfl, rfl⟩
  · have hc : cOf W cfg i = some (W.coupler (W.load i) (W.freq (W.load i))) := by unfold cOf; simp [hp, Spec.coupler]
    refine ⟨_, by
      simp only [oneTriad, hp, if_true, computeCoupling, Bool.true_or, preOf]; rfl, ?_⟩
    constructor <;> simp [hc, hp, hyperOf]

/-- The stationary solution that is stored for a triad. -/
def statOf (W : World) (cfg : Config) (i : ℕ) : Option StatInfo :=
  if cfg.polytrope then none else
  let f := W.freq (W.load i)
  let c := Spec.coupler W i
  if preOf W cfg i then
    some ⟨W.amps f c, fun k => W.amps f c k * ‖(c.tk k : ℂ) * lumOf W cfg i k - (c.ek k : ℂ) * xirOf W cfg i k‖,
      f.drivingRates, f.gamma, f.detuning, some (Real.arctan (-1 / f.q)), some (Real.arctan (-1 / f.q)), hyperOf W cfg i, true⟩
  else some ⟨fun _ => 0, fun _ => 0, f.drivingRates, f.gamma, f.detuning, none, none, hyperOf W cfg i, false⟩

theorem statOf_neg (W : World) (cfg : Config) (i : ℕ) (hp : cfg.polytrope = false) (h : preOf W cfg i = false) :
    statOf W cfg i = some ⟨fun _ => 0, fun _ => 0, (W.freq (W.load i)).drivingRates, (W.freq (W.load i)).gamma,
      (W.freq (W.load i)).detuning, none, none, hyperOf W cfg i, false⟩ := by
  unfold statOf; simp only [hp, h, Bool.false_eq_true, if_false]

theorem statOf_pos (W : World) (cfg : Config) (i : ℕ) (hp : cfg.polytrope = false) (h : preOf W cfg i = true) :
    statOf W cfg i = some ⟨W.amps (W.freq (W.load i)) (Spec.coupler W i), fun k => W.amps (W.freq (W.load i)) (Spec.coupler W i) k *
        ‖((Spec.coupler W i).tk k : ℂ) * lumOf W cfg i k - ((Spec.coupler W i).ek k : ℂ) * xirOf W cfg i k‖,
      (W.freq (W.load i)).drivingRates, (W.freq (W.load i)).gamma, (W.freq (W.load i)).detuning,
      some (Real.arctan (-1 / (W.freq (W.load i)).q)), some (Real.arctan (-1 / (W.freq (W.load i)).q)), hyperOf W cfg i, true⟩ := by
  unfold statOf; simp only [hp, h, Bool.false_eq_true, if_false, if_true]

theorem arg_norm (z : ℂ) : (((‖z‖ : ℝ) : ℂ)).arg = 0 := Complex.arg_ofReal_of_nonneg (norm_nonneg z)

/-- The stationary solution for any angles of the observer. -/
theorem stationary_eq (W : World) (f : Freq) (hyper : Bool) (spin peri : Option ℝ) (S : State) (c : Coupler) (L X : Fin 3 → ℂ)
    (hc : S.coupler = some c) (htk : S.tk = some c.tk) (hek : S.ek = some c.ek) (hL : S.surfLum = some L) (hX : S.xirTerms = some X) :
    stationary W true f hyper spin peri S = some ⟨W.amps f c,
      fun k => W.amps f c k * ‖(c.tk k : ℂ) * L k - (c.ek k : ℂ) * X k‖ * (match spin with | none => 1 | some s => c.hough (Real.cos s) k),
      f.drivingRates, f.gamma, f.detuning, some (Real.arctan (-1 / f.q)),
      some (Real.arctan (-1 / f.q) + ((c.m 0 : ℝ) - (c.m 1 + c.m 2)) * (match peri with | none => 0 | some ω => azimuth ω)), hyper, true⟩ := by
  unfold stationary
  cases spin <;> cases peri with
  | none => simp [hc, htk, hek, hL, hX, discFactors, observerHough, azFactors, arg_norm]
  | some ω =>
    by_cases hz : azimuth ω = 0
    · simp [hc, htk, hek, hL, hX, discFactors, observerHough, azFactors, arg_norm, hz]
    · simp [hc, htk, hek, hL, hX, discFactors, observerHough, azFactors, arg_norm, hz]
      ring

/-- One step: the entries of the triad are set to values that depend on that triad only, the others are kept. -/
theorem gridStep_eq (W : World) (cfg : Config) (i : ℕ) (S : State) : ∃ S', gridStep W cfg S i = some S' ∧
    S'.coupleInfo = (fun j => if j = i then some (coupleEntry cfg (cOf W cfg i)) else S.coupleInfo j) ∧
    S'.freqInfo = (fun j => if j = i then some (W.freq (W.load i)) else S.freqInfo j) ∧
    S'.hyperInfo = (fun j => if j = i then hyperOf W cfg i else S.hyperInfo j) ∧
    S'.statInfo = (fun j => if j = i then some (statOf W cfg i) else S.statInfo j) := by
  obtain ⟨S1, e, D⟩ := oneTriad_done W cfg i S
  cases hp : cfg.polytrope
  · have hstat : stationary W (preOf W cfg i) (W.freq (W.load i)) (S1.hyperInfo i) none none S1 = statOf W cfg i := by
      have hh : S1.hyperInfo i = hyperOf W cfg i := by rw [D.hyper]; simp
      cases hpre : preOf W cfg i
      · simp [stationary, statOf, hp, hpre, hh]
      · have hc := cOf_pre W cfg i hpre
        obtain ⟨ht, hk⟩ := D.tk hp _ hc
        rw [stationary_eq W _ _ none none S1 _ _ _ (by rw [D.coupler, hc]) ht hk (D.lum hp) (D.xir hp)]
        simp [statOf, hp, hpre, hh]
    obtain ⟨s, hs⟩ : ∃ s, statOf W cfg i = some s := by
      unfold statOf; simp only [hp, Bool.false_eq_true, if_false]; split <;> exact ⟨_, rfl⟩
    refine ⟨{ S1 with statInfo := fun j => if j = i then some (some s) else S1.statInfo j }, ?_, D.info, D.finfo, D.hyper, ?_⟩
    · simp only [gridStep, e, hp, Bool.false_eq_true, if_false, D.freq, hstat, hs]
    · simp only [hs, D.stat]
  · refine ⟨{ S1 with statInfo := fun j => if j = i then some none else S1.statInfo j }, ?_, D.info, D.finfo, D.hyper, ?_⟩
    · simp only [gridStep, e, hp, if_true]
    · have : statOf W cfg i = none := by simp [statOf, hp]
      simp only [this, D.stat]

theorem gridRun_eq (W : World) (cfg : Config) : ∀ (is : List ℕ) (S : State), ∃ S', gridRun W cfg S is = some S' ∧
    ∀ j, (j ∈ is → S'.coupleInfo j = some (coupleEntry cfg (cOf W cfg j)) ∧ S'.freqInfo j = some (W.freq (W.load j)) ∧
        S'.hyperInfo j = hyperOf W cfg j ∧ S'.statInfo j = some (statOf W cfg j)) ∧
      (j ∉ is → S'.coupleInfo j = S.coupleInfo j ∧ S'.freqInfo j = S.freqInfo j ∧ S'.hyperInfo j = S.hyperInfo j ∧
        S'.statInfo j = S.statInfo j)
  | [], S => ⟨S, rfl, by simp⟩
  | i :: is, S => by
    obtain ⟨S1, e1, c1, f1, h1, s1⟩ := gridStep_eq W cfg i S
    obtain ⟨S2, e2, h2⟩ := gridRun_eq W cfg is S1
    refine ⟨S2, by rw [gridRun, e1]; exact e2, fun j => ⟨fun hj => ?_, fun hj => ?_⟩⟩
    · by_cases hm : j ∈ is
      · exact (h2 j).1 hm
      · have hji : j = i := by
          rcases List.mem_cons.1 hj with h | h
          · exact h
          · exact absurd h hm
        obtain ⟨a, b, c, d⟩ := (h2 j).2 hm
        rw [a, b, c, d, c1, f1, h1, s1]
        subst hji
        simp
    · simp only [List.mem_cons, not_or] at hj
      obtain ⟨a, b, c, d⟩ := (h2 j).2 hj.2
      rw [a, b, c, d, c1, f1, h1, s1]
      simp [hj.1]

/-- Results of a triad do not depend on the triads treated before or after it, nor on anything left in the solver by them: a
run over any list of triads, from any state, ends, and what it stores for a triad is what a run over that triad alone,
from any other state, stores. What was stored for triads that are not in the list is kept. -/
theorem C76_independent (W : World) (cfg : Config) (S : State) (is : List ℕ) :
    ∃ S', gridRun W cfg S is = some S' ∧
      (∀ i ∈ is, ∀ T, ∃ T', gridRun W cfg T [i] = some T' ∧ S'.coupleInfo i = T'.coupleInfo i ∧ S'.freqInfo i = T'.freqInfo i ∧
        S'.hyperInfo i = T'.hyperInfo i ∧ S'.statInfo i = T'.statInfo i ∧ (S'.statInfo i).isSome) ∧
      (∀ i, i ∉ is → S'.coupleInfo i = S.coupleInfo i ∧ S'.freqInfo i = S.freqInfo i ∧ S'.hyperInfo i = S.hyperInfo i ∧
        S'.statInfo i = S.statInfo i) := by
  obtain ⟨S', e, h⟩ := gridRun_eq W cfg is S
  refine ⟨S', e, fun i hi T => ?_, fun i hi => (h i).2 hi⟩
  obtain ⟨T', e', h'⟩ := gridRun_eq W cfg [i] T
  obtain ⟨a, b, c, d⟩ := (h i).1 hi
  obtain ⟨a', b', c', d'⟩ := (h' i).1 (by simp)
  exact ⟨T', e', by rw [a, a'], by rw [b, b'], by rw [c, c'], by rw [d, d'], by rw [d]; rfl⟩

/-- The order in which the triads are treated does not matter. -/
theorem C76_order (W : World) (cfg : Config) (S : State) (is js : List ℕ) (h : is.Perm js) :
    ∃ S1 S2, gridRun W cfg S is = some S1 ∧ gridRun W cfg S js = some S2 ∧ S1.coupleInfo = S2.coupleInfo ∧
      S1.freqInfo = S2.freqInfo ∧ S1.hyperInfo = S2.hyperInfo ∧ S1.statInfo = S2.statInfo := by
  obtain ⟨S1, e1, h1⟩ := gridRun_eq W cfg is S
  obtain ⟨S2, e2, h2⟩ := gridRun_eq W cfg js S
  have key : ∀ j, S1.coupleInfo j = S2.coupleInfo j ∧ S1.freqInfo j = S2.freqInfo j ∧ S1.hyperInfo j = S2.hyperInfo j ∧
      S1.statInfo j = S2.statInfo j := by
    intro j
    by_cases hj : j ∈ is
    · obtain ⟨a, b, c, d⟩ := (h1 j).1 hj
      obtain ⟨a', b', c', d'⟩ := (h2 j).1 (h.mem_iff.1 hj)
      exact ⟨by rw [a, a'], by rw [b, b'], by rw [c, c'], by rw [d, d']⟩
    · obtain ⟨a, b, c, d⟩ := (h1 j).2 hj
      obtain ⟨a', b', c', d'⟩ := (h2 j).2 (fun h' => hj (h.mem_iff.2 h'))
      exact ⟨by rw [a, a'], by rw [b, b'], by rw [c, c'], by rw [d, d']⟩
  exact ⟨S1, S2, e1, e2, funext fun j => (key j).1, funext fun j => (key j).2.1, funext fun j => (key j).2.2.1,
    funext fun j => (key j).2.2.2⟩

/-- What is stored for a triad that fails its pre-check while stationary solutions are asked for: no coupling, not
hyperbolic, zero amplitudes and flux variations; for one that passes, the coupling coefficients and the amplitudes. -/
theorem C76_failed_check (W : World) (cfg : Config) (S : State) (is : List ℕ) (i : ℕ) (hi : i ∈ is) (hp : cfg.polytrope = false)
    (hs : cfg.statSolv = true) :
    ∃ S', gridRun W cfg S is = some S' ∧ ∃ e s, S'.coupleInfo i = some e ∧ S'.statInfo i = some (some s) ∧
      (s.stable = true ↔ Spec.pre W cfg i) ∧
      (¬ Spec.pre W cfg i → e.cc = 0 ∧ e.etaLee = 0 ∧ s.amps = (fun _ => 0) ∧ s.fluxes = (fun _ => 0) ∧ s.hyperbolic = false ∧
        S'.hyperInfo i = false) ∧
      (Spec.pre W cfg i → e.cc = (Spec.coupler W i).cc ∧ e.etaLee = (Spec.coupler W i).etaLee ∧
        s.amps = W.amps (W.freq (W.load i)) (Spec.coupler W i) ∧ s.hyperbolic = S'.hyperInfo i ∧
        S'.hyperInfo i = W.hyper (Spec.sameDaughters (W.load i)) (W.freq (W.load i)) (Spec.coupler W i).normedCc) := by
  obtain ⟨S', e, h⟩ := gridRun_eq W cfg is S
  obtain ⟨a, b, c, d⟩ := (h i).1 hi
  rw [← preOf_iff]
  cases hpre : preOf W cfg i
  · have hc : cOf W cfg i = none := by unfold cOf; simp [hp, hs, hpre]
    refine ⟨S', e, _, _, a, d.trans (congrArg some (statOf_neg W cfg i hp hpre)), by simp, fun _ => ?_, by simp⟩
    simp [hc, coupleEntry, hyperOf, hp, c]
  · have hc := cOf_pre W cfg i hpre
    refine ⟨S', e, _, _, a, d.trans (congrArg some (statOf_pos W cfg i hp hpre)), by simp, by simp, fun _ => ?_⟩
    simp [hc, coupleEntry, c, hyperOf, hp, twoMode_eq]

/-! ## Surface perturbations -/

/-- The surface perturbations of the modes are not multiplied by the normalisation factors but by the flag that says
whether the run is adiabatic: they are those of GYRE for an adiabatic run and zero otherwise. They are right only where
the normalisation factor happens to be 1 (or 0), or where GYRE has zero. -/
theorem C74_not_normalised_wrong (W : World) (cfg : Config) (S : State) (i : ℕ) (hp : cfg.polytrope = false) :
    ∃ S' b, oneTriad W cfg i S = some (S', b) ∧ ∃ L X, S'.surfLum = some L ∧ S'.xirTerms = some X ∧
      (∀ k, L k = if cfg.adiabatic then (W.load i).lagL k else 0) ∧
      (∀ k, X k = if cfg.adiabatic then (W.load i).xiR k / ((W.load i).x k : ℂ) else 0) ∧
      ∀ k, (L k = Spec.surfLum (W.load i) (Spec.coupler W i) k ↔
        (W.load i).lagL k = 0 ∨ (Spec.coupler W i).normFactors k = if cfg.adiabatic then 1 else 0) := by
  obtain ⟨S', e, D⟩ := oneTriad_done W cfg i S
  refine ⟨S', _, e, _, _, D.lum hp, D.xir hp, fun k => ?_, fun k => ?_, fun k => ?_⟩
  · rw [lumOf]; split <;> simp
  · rw [xirOf]; split <;> simp
  · rw [lumOf, Spec.surfLum]
    have : ((if cfg.adiabatic then 1 else 0 : ℝ) : ℂ) = if cfg.adiabatic then 1 else 0 := by split <;> simp
    rw [mul_eq_mul_left_iff, or_comm, ← this, Complex.ofReal_inj, eq_comm (a := (if cfg.adiabatic then 1 else 0 : ℝ))]

/-- In a run that is not adiabatic all stored surface flux variations are zero. -/
theorem C74_nonadiabatic_zero_wrong (W : World) (cfg : Config) (S : State) (is : List ℕ) (i : ℕ) (hi : i ∈ is)
    (hp : cfg.polytrope = false) (ha : cfg.adiabatic = false) :
    ∃ S' s, gridRun W cfg S is = some S' ∧ S'.statInfo i = some (some s) ∧ ∀ k, s.fluxes k = 0 := by
  obtain ⟨S', e, h⟩ := gridRun_eq W cfg is S
  obtain ⟨a, b, c, d⟩ := (h i).1 hi
  cases hpre : preOf W cfg i
  · exact ⟨S', _, e, d.trans (congrArg some (statOf_neg W cfg i hp hpre)), fun _ => rfl⟩
  · refine ⟨S', _, e, d.trans (congrArg some (statOf_pos W cfg i hp hpre)), fun k => ?_⟩
    simp [lumOf, xirOf, ha]

/-- Full statement: the stored flux variation of a mode is its amplitude times the modulus of the combination of its
normalised surface perturbations with its disc integrals. Proved for an adiabatic run, and only when
the normalisation factors are 1. -/
theorem C74_flux_partial (W : World) (cfg : Config) (S : State) (is : List ℕ) (i : ℕ) (hi : i ∈ is)
    (hp : cfg.polytrope = false) (ha : cfg.adiabatic = true) (hpre : Spec.pre W cfg i)
    (hn : ∀ k, (Spec.coupler W i).normFactors k = 1) :
    ∃ S' s, gridRun W cfg S is = some S' ∧ S'.statInfo i = some (some s) ∧
      ∀ k, s.fluxes k = Spec.flux (Spec.coupler W i) (s.amps k) (Spec.surfLum (W.load i) (Spec.coupler W i) k)
        (Spec.xirTerm (W.load i) (Spec.coupler W i) k) k := by
  obtain ⟨S', e, h⟩ := gridRun_eq W cfg is S
  obtain ⟨a, b, c, d⟩ := (h i).1 hi
  refine ⟨S', _, e, d.trans (congrArg some (statOf_pos W cfg i hp ((preOf_iff W cfg i).2 hpre))), fun k => ?_⟩
  simp [lumOf, xirOf, ha, Spec.flux, Spec.surfLum, Spec.xirTerm, hn]

/-! ## Luminosity phases -/

/-- The relative luminosity phase of a triad is its relative phase plus the azimuthal term: the difference of the azimuthal
orders times the azimuthal angle of the periastron. -/
theorem C75_phase (W : World) (f : Freq) (hyper : Bool) (spin peri : Option ℝ) (S : State) (c : Coupler) (L X : Fin 3 → ℂ)
    (hc : S.coupler = some c) (htk : S.tk = some c.tk) (hek : S.ek = some c.ek) (hL : S.surfLum = some L)
    (hX : S.xirTerms = some X) :
    ∃ s p, stationary W true f hyper spin peri S = some s ∧ s.relPhase = some p ∧
      s.lumPhase = some (p + ((c.m 0 - (c.m 1 + c.m 2) : ℤ) : ℝ) * (match peri with | none => 0 | some ω => azimuth ω)) :=
  ⟨_, _, stationary_eq W f hyper spin peri S c L X hc htk hek hL hX, rfl, by simp⟩

/-- For a triad whose azimuthal orders obey the selection rule of the sum-frequency resonance, the luminosity
phase does not depend on the position of the observer. -/
theorem C75_observer_independent (W : World) (f : Freq) (hyper : Bool) (spin spin' peri peri' : Option ℝ) (S : State)
    (c : Coupler) (L X : Fin 3 → ℂ) (hc : S.coupler = some c) (htk : S.tk = some c.tk) (hek : S.ek = some c.ek)
    (hL : S.surfLum = some L) (hX : S.xirTerms = some X) (hm : c.m 0 = c.m 1 + c.m 2) :
    ∃ s s', stationary W true f hyper spin peri S = some s ∧ stationary W true f hyper spin' peri' S = some s' ∧
      s.lumPhase = s'.lumPhase ∧ s.lumPhase = s.relPhase := by
  refine ⟨_, _, stationary_eq W f hyper spin peri S c L X hc htk hek hL hX,
    stationary_eq W f hyper spin' peri' S c L X hc htk hek hL hX, ?_, ?_⟩
  · simp [hm]
  · simp [hm]

/-- The azimuthal angle of the periastron is in [0, 2π) and differs from π/2 − ω by a multiple of 2π. -/
theorem C75_azimuth (ω : ℝ) : 0 ≤ azimuth ω ∧ azimuth ω < 2 * Real.pi ∧ ∃ n : ℤ, azimuth ω + 2 * Real.pi * n = Real.pi / 2 - ω := by
  have hpi : 0 < 2 * Real.pi := by have := Real.pi_pos; linarith
  have h1 := Int.floor_le ((Real.pi / 2 - ω) / (2 * Real.pi))
  have h2 := Int.lt_floor_add_one ((Real.pi / 2 - ω) / (2 * Real.pi))
  rw [le_div_iff₀ hpi] at h1
  rw [div_lt_iff₀ hpi] at h2
  simp only [azimuth]
  refine ⟨by linarith, by linarith, ⌊(Real.pi / 2 - ω) / (2 * Real.pi)⌋, by ring⟩

/-- A world with two triads: one passes its check, one does not. -/
def exWorld : World where
  load i := ⟨fun _ => 1, fun _ => 1, fun _ => 1, ![1, 2, 3 + i], ![2, 1, 1], ![2, 1, 1]⟩
  freq _ := ⟨![1, -1, -1], -1, 1, -1⟩
  statCheck d _ _ := decide (d.n 2 = 3)
  genericCheck _ := true
  coupler d _ := ⟨1, 1, 1, fun _ => 5, fun _ => 1, d.m, fun _ _ => 1, fun _ => 2, fun _ => 1⟩
  hyper _ _ _ := true
  amps _ _ := fun _ => 3

example : Spec.pre exWorld ⟨true, true, false⟩ 0 ∧ ¬ Spec.pre exWorld ⟨true, true, false⟩ 1 ∧
    (exWorld.load 0).m 0 = (exWorld.load 0).m 1 + (exWorld.load 0).m 2 := by
  refine ⟨?_, ?_, ?_⟩ <;> simp [Spec.pre, exWorld]

end
end Verif.Grid
