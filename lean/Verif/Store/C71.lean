import Verif.Store.SaveLemmas
/-! # Property C71: a saved file holds the results under their names -/
namespace Verif.Store
noncomputable section
open Classical

namespace Spec
/-- A flag as a number. -/
def flag (p : Prop) : Num := some (if p then 1 else 0)
/-- Numbers of a mode or a term. -/
def nums (l : List ℝ) : List Num := l.map some

/-- What is to be found at a path: an array with one row for each triad. -/
structure Entry where
  path : Path
  dtype : DType
  cols : List ℕ
  value : Triad → List Num

/-- The data set of an entry for the triads of a run. -/
def Entry.dset (e : Entry) (ts : List Triad) : Dset :=
  ⟨e.dtype, .array (ts.length :: e.cols) (ts.map e.value).flatten⟩

/-- Three numbers for each triad, one for each mode. -/
def modes (g n : String) (v : Triad → List ℝ) : Entry := ⟨[g, n], .f64, [3], fun t => nums (v t)⟩

/-- The six checks of a triad: parametric, direct, all driven, negative sum of rates, passed the pre-check,
hyperbolic. -/
def checksOf (t : Triad) : List Num := match t.stat.drivingRates with
  | [a, b, c] => [flag (a > 0 ∧ b < 0 ∧ c < 0), flag (a < 0 ∧ b > 0 ∧ c > 0), flag (a > 0 ∧ b > 0 ∧ c > 0),
      flag (t.stat.gamma < 0), flag (t.stat.pre = true), flag (t.stat.hyperbolic = true)]
  | _ => []

/-- A quantity of the stationary solution; `x0` when the triad failed the pre-check. -/
def stat (n : String) (v : Triad → Num) : Entry := ⟨["coupling", "stationary_three_mode", n], .f64, [], fun t => [v t]⟩
def ifPre (t : Triad) (x : Num) : Num := if t.stat.pre then x else none

/-- The coupling object or, when there is none, zeros. -/
def coupler (t : Triad) : Coupler := t.coupler.getD ⟨0, 0, 0, [0, 0, 0], [0, 0, 0, 0]⟩

/-- The radial orders of the modes of a triad. -/
def radialOrders : Entry := ⟨["quantum_numbers", "n"], .i32, [3], fun t => t.orders.map fun n => some (n : ℝ)⟩
/-- Frequencies of the modes. -/
def freqEntries : List Entry :=
  [modes "mode_frequency_info" "inert_mode_freqs" (·.freq.inertFreqs),
   modes "mode_frequency_info" "corot_mode_freqs" (·.freq.corotFreqs),
   modes "mode_frequency_info" "inert_mode_omegas" (·.freq.inertOmegas),
   modes "mode_frequency_info" "corot_mode_omegas" (·.freq.corotOmegas),
   modes "mode_frequency_info" "inert_dimless_mode_freqs" (·.freq.dimlessInertFreqs),
   modes "mode_frequency_info" "corot_dimless_mode_freqs" (·.freq.dimlessCorotFreqs),
   modes "mode_frequency_info" "inert_dimless_mode_omegas" (·.freq.dimlessInertOmegas),
   modes "mode_frequency_info" "corot_dimless_mode_omegas" (·.freq.dimlessCorotOmegas)]
/-- Rotation. -/
def rotationEntries : List Entry :=
  [modes "rotation" "spin_factors" (·.freq.spinFactors),
   ⟨["rotation", "surface_rotation_frequency"], .f64, [], fun t => [some t.freq.surfRotFreq]⟩]
/-- Coupling. -/
def couplingEntries (r : Run) : List Entry :=
  [⟨["coupling", "generic", "adiabatic"], .bool, [], fun _ => [flag (r.adiabatic = true)]⟩,
   ⟨["coupling", "generic", "quadratic_terms"], .f64, [4], fun t => nums (coupler t).terms⟩]
/-- Normalisation. -/
def normEntry : Entry := ⟨["normalization", "radial"], .f64, [3], fun t => nums (coupler t).normFactors⟩

/-- What every file holds, but for the four entries below. -/
def common (r : Run) : List Entry :=
  [radialOrders] ++ freqEntries ++ rotationEntries ++ couplingEntries r ++ [normEntry]

/-- The checks of the triads. -/
def checksEntry : Entry := ⟨["checks", "pre_checks"], .bool, [6], checksOf⟩
/-- Non-adiabatic frequencies of the modes. -/
def nadEntries : List Entry :=
  [modes "nad_mode_frequency_info" "inert_mode_freqs" (·.freq.inertFreqsNad),
   modes "nad_mode_frequency_info" "corot_mode_freqs" (·.freq.corotFreqsNad),
   modes "nad_mode_frequency_info" "inert_mode_omegas" (·.freq.inertOmegasNad),
   modes "nad_mode_frequency_info" "corot_mode_omegas" (·.freq.corotOmegasNad),
   modes "nad_mode_frequency_info" "inert_dimless_mode_freqs" (·.freq.dimlessInertFreqsNad),
   modes "nad_mode_frequency_info" "corot_dimless_mode_freqs" (·.freq.dimlessCorotFreqsNad),
   modes "nad_mode_frequency_info" "inert_dimless_mode_omegas" (·.freq.dimlessInertOmegasNad),
   modes "nad_mode_frequency_info" "corot_dimless_mode_omegas" (·.freq.dimlessCorotOmegasNad)]
/-- Linear driving. -/
def drivingEntries : List Entry :=
  [modes "linear_driving" "driving_rates" (·.stat.drivingRates),
   modes "linear_driving" "quality_factors" (·.freq.qualityFactors)]
/-- Stationary solution. -/
def stationaryEntries : List Entry :=
  [stat "detunings" (some ·.stat.detuning), stat "gammas" (some ·.stat.gamma),
   stat "critical_parent_amplitudes" (fun t => ifPre t t.stat.aCrit),
   stat "stationary_relative_phases" (fun t => ifPre t (some t.stat.phase)),
   stat "stationary_relative_luminosity_phases" (fun t => ifPre t (some t.stat.lumPhase)),
   stat "q_factors" (some ·.stat.q), stat "critical_q_factors" (some ·.stat.qCrit),
   ⟨["coupling", "stationary_three_mode", "equilibrium_theoretical_amplitudes"], .f64, [3],
     fun t => if t.stat.pre then nums t.stat.amps else [some 0, some 0, some 0]⟩,
   ⟨["coupling", "stationary_three_mode", "surface_flux_variations"], .f64, [3],
     fun t => if t.stat.pre then nums t.stat.fluxes else [some 0, some 0, some 0]⟩]

/-- What only files of stellar models (not polytropes) hold. -/
def stellar : List Entry := [checksEntry] ++ nadEntries ++ drivingEntries ++ stationaryEntries

/-- The entries whose names promise something else than what is stored. -/
def misnamed : List Entry :=
  [⟨["mode_statistics", "wu"], .i64, [], fun t => [some (t.wu : ℝ)]⟩,
   ⟨["coupling", "generic", "|kappa|"], .f64, [], fun t => [some |(coupler t).cc|]⟩,
   ⟨["coupling", "generic", "|kappa_norm|"], .f64, [], fun t => [some |(coupler t).normedCc|]⟩,
   ⟨["coupling", "generic", "|eta|"], .f64, [], fun t => [some |(coupler t).etaLee|]⟩]

/-- Everything a user expects in the file. -/
def documented (r : Run) : List Entry := common r ++ (if r.poly then [] else stellar) ++ misnamed

/-- Towards zero. -/
def toInt (x : ℚ) : ℝ := ((if 0 ≤ (x : ℝ) then ⌊(x : ℝ)⌋ else ⌈(x : ℝ)⌉ : ℤ) : ℝ)

/-- What is stored in place of these. -/
def wuActual : Entry := ⟨["mode_statistics", "wu"], .i64, [], fun t => [some (toInt t.average)]⟩
/-- The coupling coefficients as stored. -/
def kappaActual : List Entry :=
  [⟨["coupling", "generic", "|kappa|"], .f64, [], fun t => [some (coupler t).cc]⟩,
   ⟨["coupling", "generic", "|kappa_norm|"], .f64, [], fun t => [some (coupler t).normedCc]⟩,
   ⟨["coupling", "generic", "|eta|"], .f64, [], fun t => [some (coupler t).etaLee]⟩]

/-- The results of a triad of three modes. -/
structure ThreeModes (t : Triad) : Prop where
  freq : ∀ l ∈ [t.freq.inertFreqs, t.freq.corotFreqs, t.freq.inertOmegas, t.freq.corotOmegas, t.freq.dimlessInertFreqs,
    t.freq.dimlessCorotFreqs, t.freq.dimlessInertOmegas, t.freq.dimlessCorotOmegas, t.freq.spinFactors,
    t.freq.qualityFactors, t.freq.inertFreqsNad, t.freq.corotFreqsNad, t.freq.inertOmegasNad, t.freq.corotOmegasNad,
    t.freq.dimlessInertFreqsNad, t.freq.dimlessCorotFreqsNad, t.freq.dimlessInertOmegasNad,
    t.freq.dimlessCorotOmegasNad], l.length = 3
  stat : ∀ l ∈ [t.stat.amps, t.stat.fluxes, t.stat.drivingRates], l.length = 3
  coupler : ∀ c, t.coupler = some c → c.normFactors.length = 3 ∧ c.terms.length = 4
  orders : t.orders.length = 3

/-- The attributes. -/
def attributes (r : Run) (units : String) : List ((Path × String) × AttrV) :=
  [(([], "num_int_method"), .text r.method), (([], "use_cheby"), .flag r.useCheby),
   (([], "cheby_order_mul"), .nat r.chebyOrderMul), (([], "cheby_blow_up"), .flag r.chebyBlowUp),
   (([], "cheby_blow_up_fac"), .real r.chebyBlowUpFac), ((["quantum_numbers"], "l"), .ints r.modeL),
   ((["quantum_numbers"], "m"), .ints r.modeM),
   ((["quantum_numbers"], "k"), .ints (List.zipWith (fun l m => l - |m|) r.modeL r.modeM)),
   ((["mode_frequency_info"], "frequency_units"), .text units)] ++
  if r.poly then [] else [((["nad_mode_frequency_info"], "frequency_units"), .text units)]
end Spec
open Spec

/-- The groups of a file. -/
def groupPaths : List Path :=
  [[], ["quantum_numbers"], ["mode_statistics"], ["checks"], ["mode_frequency_info"], ["nad_mode_frequency_info"],
   ["rotation"], ["linear_driving"], ["coupling"], ["coupling", "generic"], ["coupling", "stationary_three_mode"],
   ["normalization"]]

theorem groupPaths_closed (p q : Path) (h : p ++ q ∈ groupPaths) : p ∈ groupPaths := by
  have key : ∀ g ∈ groupPaths, ∀ i ∈ List.range 3, g.take i ∈ groupPaths := by decide
  have hlen : ∀ g ∈ groupPaths, g.length ≤ 2 := by decide
  have h2 := hlen _ h
  rw [List.length_append] at h2
  have := key _ h p.length (List.mem_range.2 (by omega))
  simpa using this

/-- The entries in the order of writing, for the two kinds of run. -/
def order (r : Run) : List Entry :=
  [radialOrders, wuActual] ++ (if r.poly then [] else [checksEntry]) ++ freqEntries ++
  (if r.poly then [] else nadEntries) ++ rotationEntries ++ (if r.poly then [] else drivingEntries) ++
  (kappaActual ++ couplingEntries r) ++ [normEntry] ++ (if r.poly then [] else stationaryEntries)

theorem row_of_length (k : ℕ) (l : List ℝ) (h : l.length = k) : row k (.arr l) = some (nums l) := by
  simp [row, h, nums]

theorem flatten_single {α β : Type} (l : List α) (f : α → β) : (l.map fun x => [f x]).flatten = l.map f := by
  induction l with
  | nil => rfl
  | cons a l ih => simp [ih]

theorem column_f64 (get : Triad → Option V) (val : Triad → Num) (ts : List Triad)
    (h : ∀ t ∈ ts, (get t).bind cell = some (val t)) :
    column .f64 get ts = some ⟨.f64, [ts.length], (ts.map fun t => [val t]).flatten⟩ := by
  rw [column_eq .f64 get val ts h, castNum_f64, flatten_single]; simp

theorem at_driving (t : Triad) : statAt "linear driving rates" t = some (.arr t.stat.drivingRates) := by
  unfold statAt statDict; cases t.stat.pre <;> simp [List.lookup]
theorem at_gamma (t : Triad) : statAt "gamma" t = some (.num t.stat.gamma) := by
  unfold statAt statDict; cases t.stat.pre <;> simp [List.lookup]
theorem at_stable (t : Triad) : statAt "linearly stable" t = some (.flag t.stat.pre) := by
  unfold statAt statDict; cases t.stat.pre <;> simp [List.lookup]
theorem at_hyperbolic (t : Triad) : statAt "hyperbolic" t = some (.flag t.stat.hyperbolic) := by
  unfold statAt statDict; cases t.stat.pre <;> simp [List.lookup]
theorem at_detuning (t : Triad) : statAt "detunings" t = some (.num t.stat.detuning) := by
  unfold statAt statDict; cases t.stat.pre <;> simp [List.lookup]
theorem at_q (t : Triad) : statAt "q factor" t = some (.num t.stat.q) := by
  unfold statAt statDict; cases t.stat.pre <;> simp [List.lookup]
theorem at_qCrit (t : Triad) : statAt "critical q factor" t = some (.num t.stat.qCrit) := by
  unfold statAt statDict; cases t.stat.pre <;> simp [List.lookup]
theorem at_phase (t : Triad) : (statAt "stationary relative phase" t).bind cell = some (ifPre t (some t.stat.phase)) := by
  unfold statAt statDict ifPre; cases t.stat.pre <;> simp [List.lookup, cell]
theorem at_lumPhase (t : Triad) :
    (statAt "stationary relative luminosity phase" t).bind cell = some (ifPre t (some t.stat.lumPhase)) := by
  unfold statAt statDict ifPre; cases t.stat.pre <;> simp [List.lookup, cell]
theorem at_aCrit (t : Triad) : (statAt "critical parent amplitude" t).bind cell = some (ifPre t t.stat.aCrit) := by
  unfold statAt statDict ifPre; cases t.stat.pre <;> cases t.stat.aCrit <;> simp [List.lookup, cell]
theorem at_amps (t : Triad) : statAt "equilibrium amplitudes" t =
    some (.arr (if t.stat.pre then t.stat.amps else [0, 0, 0])) := by
  unfold statAt statDict; cases t.stat.pre <;> simp [List.lookup]
theorem at_fluxes (t : Triad) : statAt "surface flux variations" t =
    some (.arr (if t.stat.pre then t.stat.fluxes else [0, 0, 0])) := by
  unfold statAt statDict; cases t.stat.pre <;> simp [List.lookup]

theorem preCheckArr_eq (ts : List Triad) (h : ∀ t ∈ ts, ThreeModes t) :
    preCheckArr ts = some ⟨.bool, [ts.length, 6], (ts.map checksOf).flatten⟩ := by
  have key : ∀ t ∈ ts, preChecks t = some (checksOf t) := by
    intro t ht
    have hl : t.stat.drivingRates.length = 3 := (h t ht).stat _ (by simp)
    obtain ⟨a, b, c, e⟩ := List.length_eq_three.1 hl
    unfold preChecks
    rw [at_driving, at_gamma, at_stable, at_hyperbolic]
    simp [cell, checksOf, e, checkParametric, checkDirect, checkDriven, flag]
  have : ts.mapM preChecks = some (ts.map checksOf) := by
    clear h
    induction ts with
    | nil => rfl
    | cons t ts ih =>
      rw [List.mapM_cons, key t (by simp), ih (fun t ht => key t (by simp [ht]))]; rfl
  rw [preCheckArr, this]; rfl

/-- Membership of an element that is written in a list. -/
macro "mem_list" : tactic => `(tactic| repeat' (first | exact List.mem_cons_self | apply List.mem_cons_of_mem))

theorem freq_len {t : Triad} (h : ThreeModes t) {l : List ℝ} (hl : l ∈ [t.freq.inertFreqs, t.freq.corotFreqs,
    t.freq.inertOmegas, t.freq.corotOmegas, t.freq.dimlessInertFreqs,
    t.freq.dimlessCorotFreqs, t.freq.dimlessInertOmegas, t.freq.dimlessCorotOmegas, t.freq.spinFactors,
    t.freq.qualityFactors, t.freq.inertFreqsNad, t.freq.corotFreqsNad, t.freq.inertOmegasNad, t.freq.corotOmegasNad,
    t.freq.dimlessInertFreqsNad, t.freq.dimlessCorotFreqsNad, t.freq.dimlessInertOmegasNad,
    t.freq.dimlessCorotOmegasNad]) : l.length = 3 := h.freq l hl

theorem freq_table (poly : Bool) (i : ℕ) (ts : List Triad) (v : Triad → List ℝ) (hl : ∀ t ∈ ts, (v t).length = 3)
    (hi : ∀ t, freqAt poly i t = some (.arr (v t))) :
    table .f64 3 (freqAt poly i) ts = some ⟨.f64, [ts.length, 3], (ts.map fun t => nums (v t)).flatten⟩ :=
  table_eq 3 _ _ ts fun t ht => by rw [hi]; exact row_of_length 3 _ (hl t ht)

theorem stat_table (k : String) (ts : List Triad) (v : Triad → List Num)
    (hi : ∀ t ∈ ts, (statAt k t).bind (row 3) = some (v t)) :
    table .f64 3 (statAt k) ts = some ⟨.f64, [ts.length, 3], (ts.map v).flatten⟩ := table_eq 3 _ _ ts hi

theorem coupler_at (ad : Bool) (t : Triad) :
    coupleTuple ad t.coupler = [.num (coupler t).cc, .num (coupler t).normedCc, .num (coupler t).etaLee, .matrix, .matrix,
      .arr (coupler t).normFactors, .flag ad, .matrix, .arr (coupler t).terms] := by
  unfold coupleTuple coupler
  cases t.coupler <;> simp

theorem coupler_lengths (t : Triad) (h : ThreeModes t) : (coupler t).normFactors.length = 3 ∧ (coupler t).terms.length = 4 := by
  unfold coupler
  cases e : t.coupler with
  | none => simp
  | some c => simpa using h.coupler c e

theorem zero_row : row 3 (.arr [0, 0, 0]) = some [some 0, some 0, some 0] := by simp [row]

/-- The array of an entry. -/
def Spec.Entry.arr (e : Entry) (ts : List Triad) : Arr := ⟨e.dtype, ts.length :: e.cols, (ts.map e.value).flatten⟩

/-- The actions of an option: what they write. -/
structure Writes (o : Option (List Op)) (ops : List Op) (es : List Entry) (ts : List Triad) : Prop where
  eq : o = some ops
  pairs : ops.filterMap Op.pair = es.map fun e => (e.path, e.dset ts)
  attrs : ops.filterMap Op.attrPair = []
  groups : ∀ op ∈ ops, op.group ∈ groupPaths

theorem grouped_writes (g : Path) (hg : g ∈ groupPaths) (ts : List Triad) : ∀ (l : List (String × DType × Option Arr))
    (es : List Entry), List.Forall₂ (fun p e => e.path = g ++ [p.1] ∧ e.dtype = p.2.1 ∧ p.2.2 = some (e.arr ts)) l es →
    ∃ ops, Writes (grouped g l) ops es ts
  | [], _, h => by cases h; exact ⟨[], rfl, rfl, rfl, by simp⟩
  | p :: l, _, h => by
    cases h with
    | @cons _ e _ es h1 h2 =>
      obtain ⟨ops, w⟩ := grouped_writes g hg ts l es h2
      have hw := w.eq
      rw [grouped] at hw
      refine ⟨.dset g p.1 (e.arr ts) (some p.2.1) :: ops, ?_, ?_, ?_, ?_⟩
      · rw [grouped, List.mapM_cons, hw, h1.2.2]; rfl
      · rw [List.filterMap_cons, w.pairs]
        simp only [Op.pair, List.map_cons, h1.1, madeWith, madeAs, Entry.arr, Entry.dset, h1.2.1, if_true]
      · simpa [List.filterMap_cons, Op.attrPair] using w.attrs
      · intro o ho
        rcases List.mem_cons.1 ho with rfl | ho
        · exact hg
        · exact w.groups o ho

section
variable (r : Run) (h : ∀ t ∈ r.triads, ThreeModes t)
include h

theorem freq_writes : ∃ ops, Writes (grouped ["mode_frequency_info"] [("inert_mode_freqs", .f64, table .f64 3 (freqAt r.poly 0) r.triads),
    ("corot_mode_freqs", .f64, table .f64 3 (freqAt r.poly 1) r.triads),
    ("inert_mode_omegas", .f64, table .f64 3 (freqAt r.poly 2) r.triads),
    ("corot_mode_omegas", .f64, table .f64 3 (freqAt r.poly 3) r.triads),
    ("inert_dimless_mode_freqs", .f64, table .f64 3 (freqAt r.poly 4) r.triads),
    ("corot_dimless_mode_freqs", .f64, table .f64 3 (freqAt r.poly 5) r.triads),
    ("inert_dimless_mode_omegas", .f64, table .f64 3 (freqAt r.poly 6) r.triads),
    ("corot_dimless_mode_omegas", .f64, table .f64 3 (freqAt r.poly 7) r.triads)]) ops freqEntries r.triads := by
  refine grouped_writes _ (by decide) _ _ _ ?_
  refine .cons ⟨rfl, rfl, freq_table _ _ _ _ (fun t ht => freq_len (h t ht) (by mem_list)) fun t => by cases r.poly <;> rfl⟩ ?_
  refine .cons ⟨rfl, rfl, freq_table _ _ _ _ (fun t ht => freq_len (h t ht) (by mem_list)) fun t => by cases r.poly <;> rfl⟩ ?_
  refine .cons ⟨rfl, rfl, freq_table _ _ _ _ (fun t ht => freq_len (h t ht) (by mem_list)) fun t => by cases r.poly <;> rfl⟩ ?_
  refine .cons ⟨rfl, rfl, freq_table _ _ _ _ (fun t ht => freq_len (h t ht) (by mem_list)) fun t => by cases r.poly <;> rfl⟩ ?_
  refine .cons ⟨rfl, rfl, freq_table _ _ _ _ (fun t ht => freq_len (h t ht) (by mem_list)) fun t => by cases r.poly <;> rfl⟩ ?_
  refine .cons ⟨rfl, rfl, freq_table _ _ _ _ (fun t ht => freq_len (h t ht) (by mem_list)) fun t => by cases r.poly <;> rfl⟩ ?_
  refine .cons ⟨rfl, rfl, freq_table _ _ _ _ (fun t ht => freq_len (h t ht) (by mem_list)) fun t => by cases r.poly <;> rfl⟩ ?_
  refine .cons ⟨rfl, rfl, freq_table _ _ _ _ (fun t ht => freq_len (h t ht) (by mem_list)) fun t => by cases r.poly <;> rfl⟩ .nil

theorem nad_writes : ∃ ops, Writes (grouped ["nad_mode_frequency_info"] [
    ("inert_mode_freqs", .f64, table .f64 3 (freqAt false 12) r.triads),
    ("corot_mode_freqs", .f64, table .f64 3 (freqAt false 13) r.triads),
    ("inert_mode_omegas", .f64, table .f64 3 (freqAt false 14) r.triads),
    ("corot_mode_omegas", .f64, table .f64 3 (freqAt false 15) r.triads),
    ("inert_dimless_mode_freqs", .f64, table .f64 3 (freqAt false 16) r.triads),
    ("corot_dimless_mode_freqs", .f64, table .f64 3 (freqAt false 17) r.triads),
    ("inert_dimless_mode_omegas", .f64, table .f64 3 (freqAt false 18) r.triads),
    ("corot_dimless_mode_omegas", .f64, table .f64 3 (freqAt false 19) r.triads)]) ops nadEntries r.triads := by
  refine grouped_writes _ (by decide) _ _ _ ?_
  refine .cons ⟨rfl, rfl, freq_table _ _ _ (·.freq.inertFreqsNad) (fun t ht => freq_len (h t ht) (by mem_list)) fun t => rfl⟩ ?_
  refine .cons ⟨rfl, rfl, freq_table _ _ _ (·.freq.corotFreqsNad) (fun t ht => freq_len (h t ht) (by mem_list)) fun t => rfl⟩ ?_
  refine .cons ⟨rfl, rfl, freq_table _ _ _ (·.freq.inertOmegasNad) (fun t ht => freq_len (h t ht) (by mem_list)) fun t => rfl⟩ ?_
  refine .cons ⟨rfl, rfl, freq_table _ _ _ (·.freq.corotOmegasNad) (fun t ht => freq_len (h t ht) (by mem_list)) fun t => rfl⟩ ?_
  refine .cons ⟨rfl, rfl, freq_table _ _ _ (·.freq.dimlessInertFreqsNad) (fun t ht => freq_len (h t ht) (by mem_list)) fun t => rfl⟩ ?_
  refine .cons ⟨rfl, rfl, freq_table _ _ _ (·.freq.dimlessCorotFreqsNad) (fun t ht => freq_len (h t ht) (by mem_list)) fun t => rfl⟩ ?_
  refine .cons ⟨rfl, rfl, freq_table _ _ _ (·.freq.dimlessInertOmegasNad) (fun t ht => freq_len (h t ht) (by mem_list)) fun t => rfl⟩ ?_
  refine .cons ⟨rfl, rfl, freq_table _ _ _ (·.freq.dimlessCorotOmegasNad) (fun t ht => freq_len (h t ht) (by mem_list)) fun t => rfl⟩ .nil

theorem rotation_writes : ∃ ops, Writes (grouped ["rotation"] [("spin_factors", .f64, table .f64 3 (freqAt r.poly 8) r.triads),
    ("surface_rotation_frequency", .f64, column .f64 (freqAt r.poly (if r.poly then 9 else 10)) r.triads)]) ops
    rotationEntries r.triads := by
  refine grouped_writes _ (by decide) _ _ _ ?_
  refine .cons ⟨rfl, rfl, freq_table _ _ _ _ (fun t ht => freq_len (h t ht) (by mem_list)) fun t => by cases r.poly <;> rfl⟩ ?_
  exact .cons ⟨rfl, rfl, column_f64 _ (fun t => some t.freq.surfRotFreq) _ fun t _ => by cases r.poly <;> rfl⟩ .nil

theorem driving_writes : ∃ ops, Writes (grouped ["linear_driving"] [("driving_rates", .f64, table .f64 3 (statAt "linear driving rates") r.triads),
    ("quality_factors", .f64, table .f64 3 (freqAt false 9) r.triads)]) ops drivingEntries r.triads := by
  refine grouped_writes _ (by decide) _ _ _ ?_
  refine .cons ⟨rfl, rfl, stat_table _ _ (fun t => nums t.stat.drivingRates) fun t ht => ?_⟩ (.cons ⟨rfl, rfl,
    freq_table _ _ _ (·.freq.qualityFactors) (fun t ht => freq_len (h t ht) (by mem_list)) fun t => rfl⟩ .nil)
  rw [at_driving]
  exact row_of_length 3 _ ((h t ht).stat t.stat.drivingRates (by mem_list))

theorem coupling_writes : ∃ ops, Writes (grouped ["coupling", "generic"] [
    ("|kappa|", .f64, column .f64 (coupleAt r.adiabatic 0) r.triads),
    ("|kappa_norm|", .f64, column .f64 (coupleAt r.adiabatic 1) r.triads),
    ("|eta|", .f64, column .f64 (coupleAt r.adiabatic 2) r.triads),
    ("adiabatic", .bool, column .bool (coupleAt r.adiabatic 6) r.triads),
    ("quadratic_terms", .f64, table .f64 4 (coupleAt r.adiabatic 8) r.triads)]) ops
    (kappaActual ++ couplingEntries r) r.triads := by
  have c6 : column .bool (coupleAt r.adiabatic 6) r.triads =
      some ⟨.bool, [r.triads.length], (r.triads.map fun _ => [flag (r.adiabatic = true)]).flatten⟩ := by
    rw [column_eq .bool _ (fun _ => flag (r.adiabatic = true)) r.triads
      (fun t _ => by unfold coupleAt; rw [coupler_at]; simp [cell, flag]), flatten_single, List.map_map]
    congr 3
    funext t
    cases r.adiabatic <;> simp [castNum, flag]
  refine grouped_writes _ (by decide) _ _ _ ?_
  refine .cons ⟨rfl, rfl, column_f64 _ (fun t => some (coupler t).cc) _ fun t _ => by unfold coupleAt; rw [coupler_at]; rfl⟩ ?_
  refine .cons ⟨rfl, rfl, column_f64 _ (fun t => some (coupler t).normedCc) _ fun t _ => by unfold coupleAt; rw [coupler_at]; rfl⟩ ?_
  refine .cons ⟨rfl, rfl, column_f64 _ (fun t => some (coupler t).etaLee) _ fun t _ => by unfold coupleAt; rw [coupler_at]; rfl⟩ ?_
  refine .cons ⟨rfl, rfl, c6⟩ (.cons ⟨rfl, rfl, table_eq 4 _ (fun t => nums (coupler t).terms) _ fun t ht => ?_⟩ .nil)
  unfold coupleAt; rw [coupler_at]; exact row_of_length 4 _ (coupler_lengths t (h t ht)).2

theorem stationary_writes : ∃ ops, Writes (grouped ["coupling", "stationary_three_mode"] [
    ("detunings", .f64, column .f64 (statAt "detunings") r.triads),
    ("gammas", .f64, column .f64 (statAt "gamma") r.triads),
    ("critical_parent_amplitudes", .f64, column .f64 (statAt "critical parent amplitude") r.triads),
    ("stationary_relative_phases", .f64, column .f64 (statAt "stationary relative phase") r.triads),
    ("stationary_relative_luminosity_phases", .f64, column .f64 (statAt "stationary relative luminosity phase") r.triads),
    ("q_factors", .f64, column .f64 (statAt "q factor") r.triads),
    ("critical_q_factors", .f64, column .f64 (statAt "critical q factor") r.triads),
    ("equilibrium_theoretical_amplitudes", .f64, table .f64 3 (statAt "equilibrium amplitudes") r.triads),
    ("surface_flux_variations", .f64, table .f64 3 (statAt "surface flux variations") r.triads)]) ops
    stationaryEntries r.triads := by
  refine grouped_writes _ (by decide) _ _ _ ?_
  refine .cons ⟨rfl, rfl, column_f64 _ (fun t => some t.stat.detuning) _ fun t _ => by rw [at_detuning]; rfl⟩ ?_
  refine .cons ⟨rfl, rfl, column_f64 _ (fun t => some t.stat.gamma) _ fun t _ => by rw [at_gamma]; rfl⟩ ?_
  refine .cons ⟨rfl, rfl, column_f64 _ (fun t => ifPre t t.stat.aCrit) _ fun t _ => at_aCrit t⟩ ?_
  refine .cons ⟨rfl, rfl, column_f64 _ (fun t => ifPre t (some t.stat.phase)) _ fun t _ => at_phase t⟩ ?_
  refine .cons ⟨rfl, rfl, column_f64 _ (fun t => ifPre t (some t.stat.lumPhase)) _ fun t _ => at_lumPhase t⟩ ?_
  refine .cons ⟨rfl, rfl, column_f64 _ (fun t => some t.stat.q) _ fun t _ => by rw [at_q]; rfl⟩ ?_
  refine .cons ⟨rfl, rfl, column_f64 _ (fun t => some t.stat.qCrit) _ fun t _ => by rw [at_qCrit]; rfl⟩ ?_
  refine .cons ⟨rfl, rfl, stat_table _ _ (fun t => if t.stat.pre then nums t.stat.amps else [some 0, some 0, some 0])
    fun t ht => ?_⟩ ?_
  · rw [at_amps]
    cases t.stat.pre
    · exact zero_row
    · exact row_of_length 3 _ ((h t ht).stat t.stat.amps (by mem_list))
  refine .cons ⟨rfl, rfl, stat_table _ _ (fun t => if t.stat.pre then nums t.stat.fluxes else [some 0, some 0, some 0])
    fun t ht => ?_⟩ .nil
  rw [at_fluxes]
  cases t.stat.pre
  · exact zero_row
  · exact row_of_length 3 _ ((h t ht).stat t.stat.fluxes (by mem_list))

theorem wu_column : column .i64 (fun t => (statsTuple t)[0]?) r.triads =
      some ⟨.i64, [r.triads.length], (r.triads.map fun t => [some (toInt t.average)]).flatten⟩ := by
  rw [column_eq .i64 _ (fun t => some (t.average : ℝ)) r.triads (fun t _ => rfl), flatten_single, List.map_map]
  congr 3

theorem norm_table : table .f64 3 (coupleAt r.adiabatic 5) r.triads =
      some ⟨.f64, [r.triads.length, 3], (r.triads.map fun t => nums (coupler t).normFactors).flatten⟩ :=
  table_eq 3 _ _ _ fun t ht => by
    unfold coupleAt; rw [coupler_at]; exact row_of_length 3 _ (coupler_lengths t (h t ht)).1
end

theorem orders_pair (ts : List Triad) : Op.pair (.dset ["quantum_numbers"] "n" (ordersArr ts) none) =
    some (radialOrders.path, radialOrders.dset ts) := rfl

theorem saveOps_some (r : Run) (hne : r.triads ≠ []) (h : ∀ t ∈ r.triads, ThreeModes t) :
    ∃ ops, saveOps r = some ops ∧ ops.filterMap Op.pair = (order r).map (fun e => (e.path, e.dset r.triads)) ∧
      ops.filterMap Op.attrPair = attributes r ((r.triads.head hne).freq.units) ∧
      ∀ o ∈ ops, o.group ∈ groupPaths := by
  have hh : r.triads.head? = some (r.triads.head hne) := List.head?_eq_some_head hne
  obtain ⟨F, wF⟩ := freq_writes r h
  obtain ⟨N, wN⟩ := nad_writes r h
  obtain ⟨R, wR⟩ := rotation_writes r h
  obtain ⟨D, wD⟩ := driving_writes r h
  obtain ⟨C, wC⟩ := coupling_writes r h
  obtain ⟨S, wS⟩ := stationary_writes r h
  have hw := wu_column r h
  have hn := norm_table r h
  have pc := preCheckArr_eq r.triads h
  have g0 : ∀ o ∈ ([.attr [] "num_int_method" (.text r.method), .attr [] "use_cheby" (.flag r.useCheby),
      .attr [] "cheby_order_mul" (.nat r.chebyOrderMul), .attr [] "cheby_blow_up" (.flag r.chebyBlowUp),
      .attr [] "cheby_blow_up_fac" (.real r.chebyBlowUpFac),
      .attr ["quantum_numbers"] "l" (.ints r.modeL), .attr ["quantum_numbers"] "m" (.ints r.modeM),
      .attr ["quantum_numbers"] "k" (.ints r.modeK),
      .dset ["quantum_numbers"] "n" (ordersArr r.triads) none,
      .dset ["mode_statistics"] "wu" (wuActual.arr r.triads) none] : List Op), o.group ∈ groupPaths := by
    simp [Op.group, groupPaths]
  have g1 : ∀ o ∈ ([.dset ["normalization"] "radial" (normEntry.arr r.triads) none] : List Op), o.group ∈ groupPaths := by
    simp [Op.group, groupPaths]
  have g2 : ∀ o ∈ ([.dset ["checks"] "pre_checks" (checksEntry.arr r.triads) none] : List Op), o.group ∈ groupPaths := by
    simp [Op.group, groupPaths]
  have g3 : ∀ u, ∀ o ∈ ([.attr ["mode_frequency_info"] "frequency_units" (.text u)] : List Op), o.group ∈ groupPaths := by
    simp [Op.group, groupPaths]
  have g4 : ∀ u, ∀ o ∈ ([.attr ["nad_mode_frequency_info"] "frequency_units" (.text u)] : List Op),
      o.group ∈ groupPaths := by
    simp [Op.group, groupPaths]
  cases hp : r.poly
  · have eF := wF.eq
    have eR := wR.eq
    simp only [hp, Bool.false_eq_true, if_false] at eF eR
    refine ⟨_, by
      unfold saveOps
      simp only [hp, hh, hw, hn, pc, eF, wN.eq, eR, wD.eq, wC.eq, wS.eq, Option.map_some, Option.bind_eq_bind,
        Option.bind_some, Option.pure_def, Bool.not_false, if_true, Bool.false_eq_true, if_false]
      rfl, ?_, ?_, ?_⟩
    · simp only [List.filterMap_append, wF.pairs, wN.pairs, wR.pairs, wD.pairs, wC.pairs, wS.pairs, order, hp,
        Bool.false_eq_true, if_false, List.map_append]
      simp only [List.filterMap_cons, List.filterMap_nil, Op.pair, List.nil_append, List.append_nil, List.append_assoc]
      rfl
    · simp only [List.filterMap_append, wF.attrs, wN.attrs, wR.attrs, wD.attrs, wC.attrs, wS.attrs, attributes, hp,
        Bool.false_eq_true, if_false]
      rfl
    · intro o ho
      simp only [List.mem_append, or_assoc] at ho
      rcases ho with ho | ho | ho | ho | ho | ho | ho | ho | ho | ho | ho
      · exact g0 o ho
      · exact g2 o ho
      · exact wF.groups o ho
      · exact g3 _ o ho
      · exact wN.groups o ho
      · exact g4 _ o ho
      · exact wR.groups o ho
      · exact wD.groups o ho
      · exact wC.groups o ho
      · exact g1 o ho
      · exact wS.groups o ho
  · have eF := wF.eq
    have eR := wR.eq
    simp only [hp, if_true] at eF eR
    refine ⟨_, by
      unfold saveOps
      simp only [hp, hh, hw, hn, pc, eF, eR, wC.eq, Option.map_some, Option.bind_eq_bind,
        Option.bind_some, Option.pure_def, Bool.not_true, if_true, Bool.false_eq_true, if_false]
      rfl, ?_, ?_, ?_⟩
    · simp only [List.filterMap_append, wF.pairs, wR.pairs, wC.pairs, order, hp, if_true, List.map_append]
      simp only [List.filterMap_cons, List.filterMap_nil, Op.pair, List.nil_append, List.append_nil, List.append_assoc,
        List.map_nil]
      rfl
    · simp only [List.filterMap_append, wF.attrs, wR.attrs, wC.attrs, attributes, hp, if_true]
      rfl
    · intro o ho
      simp only [List.append_nil, List.mem_append, or_assoc] at ho
      rcases ho with ho | ho | ho | ho | ho | ho
      · exact g0 o ho
      · exact wF.groups o ho
      · exact g3 _ o ho
      · exact wR.groups o ho
      · exact wC.groups o ho
      · exact g1 o ho

/-- The paths of the entries do not depend on the results. -/
def orderPaths (poly : Bool) : List Path :=
  [["quantum_numbers", "n"], ["mode_statistics", "wu"]] ++ (if poly then [] else [["checks", "pre_checks"]]) ++
  freqEntries.map (·.path) ++ (if poly then [] else nadEntries.map (·.path)) ++ rotationEntries.map (·.path) ++
  (if poly then [] else drivingEntries.map (·.path)) ++ [["coupling", "generic", "|kappa|"],
    ["coupling", "generic", "|kappa_norm|"], ["coupling", "generic", "|eta|"], ["coupling", "generic", "adiabatic"],
    ["coupling", "generic", "quadratic_terms"]] ++ [["normalization", "radial"]] ++
  (if poly then [] else stationaryEntries.map (·.path))

theorem order_paths (r : Run) : (order r).map (·.path) = orderPaths r.poly := by
  unfold order orderPaths
  cases r.poly <;> rfl

theorem orderPaths_ok (poly : Bool) : (orderPaths poly).Nodup ∧ ∀ p ∈ orderPaths poly, p ∉ groupPaths := by
  cases poly
  · simp only [orderPaths, freqEntries, nadEntries, rotationEntries, drivingEntries, stationaryEntries, modes, stat,
      List.map_cons, List.map_nil, Bool.false_eq_true, if_false]
    decide
  · simp only [orderPaths, freqEntries, rotationEntries, modes, List.map_cons, List.map_nil, if_true]
    decide

theorem attributes_nodup (r : Run) (u : String) : ((attributes r u).map (·.1)).Nodup := by
  unfold attributes
  cases r.poly
  · simp only [Bool.false_eq_true, if_false, List.map_append, List.map_cons, List.map_nil]; decide
  · simp only [if_true, List.map_append, List.map_cons, List.map_nil]; decide

/-- Everything about a saved file. -/
theorem save_all (nw : NullWrite) (r : Run) (hne : r.triads ≠ []) (h : ∀ t ∈ r.triads, ThreeModes t) :
    ∃ f, save nw r = .ok f ∧ (∀ e ∈ order r, f.node e.path = some (.dset (e.dset r.triads))) ∧
      (∀ a ∈ attributes r ((r.triads.head hne).freq.units), f.attr a.1.1 a.1.2 = some a.2) ∧
      (∀ p d, f.node p = some (.dset d) → p ∈ (order r).map (·.path)) := by
  obtain ⟨ops, e, hpairs, hattrs, hgroups⟩ := saveOps_some r hne h
  have hpm : (ops.filterMap Op.pair).map (·.1) = orderPaths r.poly := by
    rw [hpairs, List.map_map, ← order_paths]; rfl
  obtain ⟨hnd, hng⟩ := orderPaths_ok r.poly
  have hroot : ([] : Path) ∈ groupPaths := by decide
  obtain ⟨f, h1, h2, h3, h4, -, h6⟩ := doOps_inv nw (· ∈ groupPaths) groupPaths_closed ops File.new (inv_new _ hroot) hgroups
    (by
      intro p hp
      have hp' := hng p.1 (hpm ▸ List.mem_map_of_mem hp)
      refine ⟨hp', new_none _ ?_⟩
      rintro e'
      exact hp' (e' ▸ hroot))
    (hpm ▸ hnd) (hattrs ▸ attributes_nodup r _)
  refine ⟨f, by simp only [save, e]; exact h1, ?_, ?_, ?_⟩
  · intro e he
    exact h2 (e.path, e.dset r.triads) (hpairs ▸ List.mem_map_of_mem he)
  · intro a ha
    exact h4 a (hattrs ▸ ha)
  · intro p d hp
    by_contra hc
    have hg := h6 p d hp
    rw [order_paths, ← hpm] at hc
    rw [h3 p hg hc, new_none p (fun e' => hg (e' ▸ hroot))] at hp
    cases hp

theorem mem_order (r : Run) (e : Entry) : e ∈ order r ↔ e ∈ common r ++ (if r.poly then [] else stellar) ++ (wuActual :: kappaActual) := by
  unfold order common stellar
  cases r.poly <;> simp only [Bool.false_eq_true, if_false, if_true, List.mem_append, List.mem_cons, List.not_mem_nil,
    or_false] <;> tauto

/-- Full statement: a file saved for a non-empty list of triads holds, at every documented path, an array with one row for
each triad, in the order of the triads, with the documented quantity; it holds the documented attributes and no other data
sets. Proved here but for the entries of `misnamed`, for which `C71_wu_wrong` and `C71_kappa_sign_wrong` show that the
file holds something else. -/
theorem C71_saved_partial (nw : NullWrite) (r : Run) (hne : r.triads ≠ []) (h : ∀ t ∈ r.triads, ThreeModes t) :
    ∃ f, save nw r = .ok f ∧
      (∀ e ∈ documented r, e.path ∉ misnamed.map (·.path) → f.node e.path = some (.dset (e.dset r.triads))) ∧
      (∀ a ∈ attributes r ((r.triads.head hne).freq.units), f.attr a.1.1 a.1.2 = some a.2) ∧
      (∀ p d, f.node p = some (.dset d) → p ∈ (documented r).map (·.path)) := by
  obtain ⟨f, h1, h2, h3, h4⟩ := save_all nw r hne h
  refine ⟨f, h1, fun e he hm => h2 e ?_, h3, fun p d hp => ?_⟩
  · rw [mem_order]
    rw [documented] at he
    rcases List.mem_append.1 he with he | he
    · exact List.mem_append_left _ he
    · exact absurd (List.mem_map_of_mem he) hm
  · obtain ⟨e, he, rfl⟩ := List.mem_map.1 (h4 p d hp)
    rw [mem_order] at he
    rw [documented, List.map_append]
    rcases List.mem_append.1 he with he | he
    · exact List.mem_append_left _ (List.mem_map_of_mem he)
    · refine List.mem_append_right _ ?_
      have : (wuActual :: kappaActual).map (·.path) = misnamed.map (·.path) := rfl
      rw [← this]
      exact List.mem_map_of_mem he

/-- What is stored at 'mode_statistics/wu' is the average radial order of the triad, cut to an integer, and not the
statistic of Wu: the unpacker reads the first element of the pair, which is the average. The file is right
only when the two agree for every triad. -/
theorem C71_wu_wrong (nw : NullWrite) (r : Run) (hne : r.triads ≠ []) (h : ∀ t ∈ r.triads, ThreeModes t) :
    ∃ f, save nw r = .ok f ∧ f.node ["mode_statistics", "wu"] = some (.dset ⟨.i64, .array [r.triads.length]
        (r.triads.map fun t => some (toInt t.average))⟩) ∧
      (f.node ["mode_statistics", "wu"] = some (.dset ⟨.i64, .array [r.triads.length]
        (r.triads.map fun t => some (t.wu : ℝ))⟩) ↔ ∀ t ∈ r.triads, toInt t.average = t.wu) := by
  obtain ⟨f, h1, h2, -, -⟩ := save_all nw r hne h
  have h3 := h2 wuActual ((mem_order r _).2 (by simp))
  simp only [wuActual, Entry.dset, flatten_single] at h3
  refine ⟨f, h1, h3, ?_⟩
  rw [h3]
  simp [List.map_inj_left]

/-- The data sets '|kappa|', '|kappa_norm|' and '|eta|' hold the coefficients with their signs: they are the absolute
values only when no coefficient is negative. -/
theorem C71_kappa_sign_wrong (nw : NullWrite) (r : Run) (hne : r.triads ≠ []) (h : ∀ t ∈ r.triads, ThreeModes t) :
    ∃ f, save nw r = .ok f ∧ ∀ n v, (n, v) ∈ [("|kappa|", fun t => (coupler t).cc), ("|kappa_norm|", fun t => (coupler t).normedCc),
        ("|eta|", fun t => (coupler t).etaLee)] →
      f.node ["coupling", "generic", n] = some (.dset ⟨.f64, .array [r.triads.length] (r.triads.map fun t => some (v t))⟩) ∧
      (f.node ["coupling", "generic", n] = some (.dset ⟨.f64, .array [r.triads.length] (r.triads.map fun t => some |v t|)⟩) ↔
        ∀ t ∈ r.triads, 0 ≤ v t) := by
  obtain ⟨f, h1, h2, -, -⟩ := save_all nw r hne h
  refine ⟨f, h1, fun n v hv => ?_⟩
  have h3 : f.node ["coupling", "generic", n] = some (.dset ⟨.f64, .array [r.triads.length] (r.triads.map fun t => some (v t))⟩) := by
    simp only [List.mem_cons, Prod.mk.injEq, List.not_mem_nil, or_false] at hv
    rcases hv with ⟨rfl, rfl⟩ | ⟨rfl, rfl⟩ | ⟨rfl, rfl⟩
    · simpa only [Entry.dset, flatten_single] using h2 ⟨["coupling", "generic", "|kappa|"], .f64, [], fun t => [some (coupler t).cc]⟩ ((mem_order r _).2 (by simp [kappaActual]))
    · simpa only [Entry.dset, flatten_single] using h2 ⟨["coupling", "generic", "|kappa_norm|"], .f64, [], fun t => [some (coupler t).normedCc]⟩ ((mem_order r _).2 (by simp [kappaActual]))
    · simpa only [Entry.dset, flatten_single] using h2 ⟨["coupling", "generic", "|eta|"], .f64, [], fun t => [some (coupler t).etaLee]⟩ ((mem_order r _).2 (by simp [kappaActual]))
  refine ⟨h3, ?_⟩
  rw [h3]
  simp only [Option.some.injEq, Node.dset.injEq, Dset.mk.injEq, true_and, Content.array.injEq, List.map_inj_left]
  exact forall₂_congr fun t _ => by rw [eq_comm, abs_eq_self]

/-- A run without triads cannot be saved. -/
theorem C71_no_triads (nw : NullWrite) (r : Run) (hr : r.triads = []) : save nw r = .error .other := by
  have : saveOps r = none := by
    unfold saveOps
    simp [hr]
  simp only [save, this]

/-- A run of two triads, one of which failed the pre-check and has no coupling coefficient. -/
example : ∃ r : Run, r.triads.length = 2 ∧ r.triads ≠ [] ∧ (∀ t ∈ r.triads, ThreeModes t) ∧
    (∃ t ∈ r.triads, toInt t.average ≠ t.wu) ∧ ∃ t ∈ r.triads, (coupler t).cc < 0 := by
  let F : FreqHandler := ⟨[3, 2, 1], [3, 2, 1], [3, 2, 1], [3, 2, 1], [3, 2, 1], [3, 2, 1], [3, 2, 1], [3, 2, 1], [3, 2, 1], [3, 2, 1],
    1, "Hz", [3, 2, 1], [3, 2, 1], [3, 2, 1], [3, 2, 1], [3, 2, 1], [3, 2, 1], [3, 2, 1], [3, 2, 1]⟩
  let S : Bool → Stationary := fun b => ⟨b, [1, 1, 1], [1, 1, 1], [1, -1, -1], -1, 1, 1, 1, some 1, 1, 0, b⟩
  let T1 : Triad := ⟨F, some ⟨-1, -1, -1, [1, 1, 1], [1, 1, 1, 1]⟩, S true, [10, 20, 30], 20, 0⟩
  let T2 : Triad := ⟨F, none, S false, [10, 20, 30], 20, 0⟩
  refine ⟨⟨false, true, "trapz", false, 4, false, 1, [2, 2, 2], [2, 0, 2], [T1, T2]⟩, rfl, by simp, ?_, ⟨T1, by simp, ?_⟩, T1, by simp, ?_⟩
  · intro t ht
    rcases List.mem_cons.1 ht with rfl | ht
    · exact ⟨by simp [T1, F], by simp [T1, S], by rintro c ⟨rfl⟩; simp, rfl⟩
    · rcases List.mem_cons.1 ht with rfl | ht
      · exact ⟨by simp [T2, F], by simp [T2, S], by simp [T2], rfl⟩
      · simp at ht
  · simp [toInt, T1]
  · simp [coupler, T1]

end
end Verif.Store
