import Verif.Store.H5
/-!
# Model of the saving of the results of a run

`_store_mode_frequency_info`, `_store_mode_coupling_info` (solver/solver_base_classes/quadratic_solver.py),
`_store_relevant_statistics` (solver/quadratic_grid.py), the dictionary returned by
`ThreeModeStationary.__call__` (stationary_solving/three_mode/three_mode_stationary.py), `UnPacker`
(data_handling/unpacker.py) and `HDF5Saver.save_data` (data_handling/data_specific/hdf5_saver.py).
-/
namespace Verif.Store
noncomputable section
open Classical

/-- Python values passed between these parts. -/
inductive V
  | num (x : ℝ)
  | arr (l : List ℝ)
  | flag (b : Bool)
  | text (s : String)
  | pyNone
  /-- two-dimensional arrays, which are not read by the unpacker -/
  | matrix

/-- What the frequency handler of a triad holds. -/
structure FreqHandler where
  inertFreqs : List ℝ
  corotFreqs : List ℝ
  inertOmegas : List ℝ
  corotOmegas : List ℝ
  dimlessInertFreqs : List ℝ
  dimlessCorotFreqs : List ℝ
  dimlessInertOmegas : List ℝ
  dimlessCorotOmegas : List ℝ
  spinFactors : List ℝ
  qualityFactors : List ℝ
  surfRotFreq : ℝ
  units : String
  inertFreqsNad : List ℝ
  corotFreqsNad : List ℝ
  inertOmegasNad : List ℝ
  corotOmegasNad : List ℝ
  dimlessInertFreqsNad : List ℝ
  dimlessCorotFreqsNad : List ℝ
  dimlessInertOmegasNad : List ℝ
  dimlessCorotOmegasNad : List ℝ

/-- What the coupling object of a triad holds. -/
structure Coupler where
  cc : ℝ
  normedCc : ℝ
  etaLee : ℝ
  normFactors : List ℝ
  terms : List ℝ

/-- The attributes of the stationary solution object that are returned. -/
structure Stationary where
  /-- precheck satisfied -/
  pre : Bool
  amps : List ℝ
  fluxes : List ℝ
  drivingRates : List ℝ
  gamma : ℝ
  detuning : ℝ
  q : ℝ
  qCrit : ℝ
  aCrit : Option ℝ
  phase : ℝ
  lumPhase : ℝ
  hyperbolic : Bool

/-- All results of one triad. -/
structure Triad where
  freq : FreqHandler
  coupler : Option Coupler
  stat : Stationary
  /-- entries of `combinations_radial_orders` -/
  orders : List ℤ
  /-- entry of `average_radial_orders` -/
  average : ℚ
  /-- entry of `wu_difference_statistics` -/
  wu : ℤ

/-- `_store_mode_frequency_info` (quadratic_solver.py 604-649). -/
def freqTuple (poly : Bool) (h : FreqHandler) : List V :=
  if poly then
    [.arr h.inertFreqs, .arr h.corotFreqs, .arr h.inertOmegas, .arr h.corotOmegas, .arr h.dimlessInertFreqs,
      .arr h.dimlessCorotFreqs, .arr h.dimlessInertOmegas, .arr h.dimlessCorotOmegas, .arr h.spinFactors,
      .num h.surfRotFreq, .text h.units]
  else
    [.arr h.inertFreqs, .arr h.corotFreqs, .arr h.inertOmegas, .arr h.corotOmegas, .arr h.dimlessInertFreqs,
      .arr h.dimlessCorotFreqs, .arr h.dimlessInertOmegas, .arr h.dimlessCorotOmegas, .arr h.spinFactors,
      .arr h.qualityFactors, .num h.surfRotFreq, .text h.units,
      .arr h.inertFreqsNad, .arr h.corotFreqsNad, .arr h.inertOmegasNad, .arr h.corotOmegasNad,
      .arr h.dimlessInertFreqsNad, .arr h.dimlessCorotFreqsNad, .arr h.dimlessInertOmegasNad,
      .arr h.dimlessCorotOmegasNad]

/-- `_store_mode_coupling_info` (quadratic_solver.py 652-696). -/
def coupleTuple (adiabatic : Bool) : Option Coupler → List V
  | some c => [.num c.cc, .num c.normedCc, .num c.etaLee, .matrix, .matrix, .arr c.normFactors, .flag adiabatic,
      .matrix, .arr c.terms]
  | none => [.num 0, .num 0, .num 0, .matrix, .matrix, .arr [0, 0, 0], .flag adiabatic, .matrix, .arr [0, 0, 0, 0]]

/-- The dictionary returned by `ThreeModeStationary.__call__` (three_mode_stationary.py 135-188); the
critical amplitude is None as well when there is no coupling coefficient. -/
def statDict (s : Stationary) : List (String × V) :=
  if s.pre then
    [("equilibrium amplitudes", .arr s.amps), ("surface flux variations", .arr s.fluxes),
      ("linear driving rates", .arr s.drivingRates), ("gamma", .num s.gamma), ("detunings", .num s.detuning),
      ("q factor", .num s.q), ("critical q factor", .num s.qCrit),
      ("critical parent amplitude", match s.aCrit with | some a => .num a | none => .pyNone),
      ("stationary relative phase", .num s.phase), ("stationary relative luminosity phase", .num s.lumPhase),
      ("hyperbolic", .flag s.hyperbolic), ("linearly stable", .flag true)]
  else
    [("equilibrium amplitudes", .arr [0, 0, 0]), ("surface flux variations", .arr [0, 0, 0]),
      ("linear driving rates", .arr s.drivingRates), ("gamma", .num s.gamma), ("detunings", .num s.detuning),
      ("q factor", .num s.q), ("critical q factor", .num s.qCrit), ("critical parent amplitude", .pyNone),
      ("stationary relative phase", .pyNone), ("stationary relative luminosity phase", .pyNone),
      ("hyperbolic", .flag s.hyperbolic), ("linearly stable", .flag false)]

/-- `_store_relevant_statistics` (quadratic_grid.py 117-127). -/
def statsTuple (t : Triad) : List V := [.num t.average, .num t.wu]

/-- A value assigned to an element of an array; None becomes NaN. -/
def cell : V → Option Num
  | .num x => some (some x)
  | .arr [x] => some (some x)
  | .flag b => some (some (if b then 1 else 0))
  | .pyNone => some none
  | _ => none

/-- A value assigned to a row of `k` elements of an array. -/
def row (k : ℕ) : V → Option (List Num)
  | .arr l => if l.length = k then some (l.map some) else if l.length = 1 then some (List.replicate k l[0]?) else none
  | v => (cell v).map (List.replicate k)

/-- A one-dimensional array with one element for each triad (unpacker.py, e.g. 172, 186-191). -/
def column (t : DType) (get : Triad → Option V) (ts : List Triad) : Option Arr :=
  (ts.mapM fun x => (get x).bind cell).map fun d => ⟨t, [ts.length], d.map (castNum t)⟩

/-- A two-dimensional array with one row for each triad (unpacker.py, e.g. 180-182, 205). -/
def table (t : DType) (k : ℕ) (get : Triad → Option V) (ts : List Triad) : Option Arr :=
  (ts.mapM fun x => (get x).bind (row k)).map fun d => ⟨t, [ts.length, k], d.flatten.map (castNum t)⟩

/-- Element `i` of the frequency tuple of a triad. -/
def freqAt (poly : Bool) (i : ℕ) (t : Triad) : Option V := (freqTuple poly t.freq)[i]?
/-- Element `i` of the coupling tuple of a triad. -/
def coupleAt (adiabatic : Bool) (i : ℕ) (t : Triad) : Option V := (coupleTuple adiabatic t.coupler)[i]?
/-- Entry of the dictionary of a triad. -/
def statAt (k : String) (t : Triad) : Option V := (statDict t.stat).lookup k

/-- `check_parametric` (three_mode_checks.py 34-56). -/
def checkParametric (γ : List ℝ) : Bool := decide (γ.getD 0 0 > 0 ∧ γ.getD 1 0 < 0 ∧ γ.getD 2 0 < 0)
/-- `check_direct` (three_mode_checks.py 59-80). -/
def checkDirect (γ : List ℝ) : Bool := decide (γ.getD 0 0 < 0 ∧ γ.getD 1 0 > 0 ∧ γ.getD 2 0 > 0)
/-- `check_driven` (three_mode_checks.py 83-100). -/
def checkDriven (γ : List ℝ) : Bool := γ.all fun x => decide (x > 0)

/-- One row of `_pre_checks` (unpacker.py 132-163). -/
def preChecks (t : Triad) : Option (List Num) := do
  let γ ← match statAt "linear driving rates" t with | some (.arr l) => if l.length < 3 then none else some l | _ => none
  let g ← match statAt "gamma" t with | some (.num x) => some x | _ => none
  let stable ← (statAt "linearly stable" t).bind cell
  let hyper ← (statAt "hyperbolic" t).bind cell
  let b := fun c : Bool => (some (if c then 1 else 0) : Num)
  pure [b (checkParametric γ), b (checkDirect γ), b (checkDriven γ), b (decide (g < 0)), stable, hyper]

/-- `_pre_checks` (unpacker.py 132-163). -/
def preCheckArr (ts : List Triad) : Option Arr :=
  (ts.mapM preChecks).map fun d => ⟨.bool, [ts.length, 6], d.flatten⟩

/-- `_mode_rad_orders` (unpacker.py 347-349), for at least one triad. -/
def ordersArr (ts : List Triad) : Arr :=
  ⟨.i32, [ts.length, 3], (ts.map fun t => t.orders.map fun n => some (n : ℝ)).flatten⟩

/-- Attribute values. -/
inductive AttrV
  | text (s : String)
  | flag (b : Bool)
  | nat (n : ℕ)
  | real (x : ℝ)
  | ints (l : List ℤ)

/-- The run: settings and mode identification shared by all triads. -/
structure Run where
  poly : Bool
  adiabatic : Bool
  method : String
  useCheby : Bool
  chebyOrderMul : ℕ
  chebyBlowUp : Bool
  chebyBlowUpFac : ℝ
  modeL : List ℤ
  modeM : List ℤ
  triads : List Triad

/-- `_mode_k` (unpacker.py 345). -/
def Run.modeK (r : Run) : List ℤ := List.zipWith (fun l m => l - |m|) r.modeL r.modeM

/-- One action of `save_data`. -/
inductive Op
  | attr (group : Path) (name : String) (v : AttrV)
  | dset (group : Path) (name : String) (v : Arr) (t : Option DType)

/-- The data sets that `save_data` writes in one group, with one data type for each. -/
def grouped (g : Path) (l : List (String × DType × Option Arr)) : Option (List Op) :=
  l.mapM fun p => p.2.2.map fun a => .dset g p.1 a (some p.2.1)

/-- The actions of `HDF5Saver.save_data` (hdf5_saver.py 245-448) in their order, with the arrays of
`UnPacker` (unpacker.py 117-349): `none` when the unpacking raises, or when there are no triads
(`self._f_units[0]`). -/
def saveOps (r : Run) : Option (List Op) := do
  let ts := r.triads
  let units ← (ts.head?).map fun t => t.freq.units
  let f := fun i => table .f64 3 (freqAt r.poly i) ts
  let s := fun k => column .f64 (statAt k) ts
  let s3 := fun k => table .f64 3 (statAt k) ts
  let full := !r.poly
  let when := fun (o : Option (List Op)) => if full then o else some []
  let wu ← column .i64 (fun t => (statsTuple t)[0]?) ts
  let checks ← when ((preCheckArr ts).map fun a => [.dset ["checks"] "pre_checks" a none])
  let freqs ← grouped ["mode_frequency_info"] [("inert_mode_freqs", .f64, f 0), ("corot_mode_freqs", .f64, f 1),
    ("inert_mode_omegas", .f64, f 2), ("corot_mode_omegas", .f64, f 3), ("inert_dimless_mode_freqs", .f64, f 4),
    ("corot_dimless_mode_freqs", .f64, f 5), ("inert_dimless_mode_omegas", .f64, f 6),
    ("corot_dimless_mode_omegas", .f64, f 7)]
  let nads ← when (grouped ["nad_mode_frequency_info"] [("inert_mode_freqs", .f64, f 12),
    ("corot_mode_freqs", .f64, f 13), ("inert_mode_omegas", .f64, f 14), ("corot_mode_omegas", .f64, f 15),
    ("inert_dimless_mode_freqs", .f64, f 16), ("corot_dimless_mode_freqs", .f64, f 17),
    ("inert_dimless_mode_omegas", .f64, f 18), ("corot_dimless_mode_omegas", .f64, f 19)])
  let rotation ← grouped ["rotation"] [("spin_factors", .f64, f 8),
    ("surface_rotation_frequency", .f64, column .f64 (freqAt r.poly (if r.poly then 9 else 10)) ts)]
  let driving ← when (grouped ["linear_driving"] [("driving_rates", .f64, s3 "linear driving rates"),
    ("quality_factors", .f64, f 9)])
  let coupling ← grouped ["coupling", "generic"] [("|kappa|", .f64, column .f64 (coupleAt r.adiabatic 0) ts),
    ("|kappa_norm|", .f64, column .f64 (coupleAt r.adiabatic 1) ts),
    ("|eta|", .f64, column .f64 (coupleAt r.adiabatic 2) ts),
    ("adiabatic", .bool, column .bool (coupleAt r.adiabatic 6) ts),
    ("quadratic_terms", .f64, table .f64 4 (coupleAt r.adiabatic 8) ts)]
  let norm ← table .f64 3 (coupleAt r.adiabatic 5) ts
  let stationary ← when (grouped ["coupling", "stationary_three_mode"] [("detunings", .f64, s "detunings"),
    ("gammas", .f64, s "gamma"), ("critical_parent_amplitudes", .f64, s "critical parent amplitude"),
    ("stationary_relative_phases", .f64, s "stationary relative phase"),
    ("stationary_relative_luminosity_phases", .f64, s "stationary relative luminosity phase"),
    ("q_factors", .f64, s "q factor"), ("critical_q_factors", .f64, s "critical q factor"),
    ("equilibrium_theoretical_amplitudes", .f64, s3 "equilibrium amplitudes"),
    ("surface_flux_variations", .f64, s3 "surface flux variations")])
  pure ([.attr [] "num_int_method" (.text r.method), .attr [] "use_cheby" (.flag r.useCheby),
      .attr [] "cheby_order_mul" (.nat r.chebyOrderMul), .attr [] "cheby_blow_up" (.flag r.chebyBlowUp),
      .attr [] "cheby_blow_up_fac" (.real r.chebyBlowUpFac),
      .attr ["quantum_numbers"] "l" (.ints r.modeL), .attr ["quantum_numbers"] "m" (.ints r.modeM),
      .attr ["quantum_numbers"] "k" (.ints r.modeK),
      .dset ["quantum_numbers"] "n" (ordersArr ts) none, .dset ["mode_statistics"] "wu" wu none]
    ++ checks ++ freqs ++ [.attr ["mode_frequency_info"] "frequency_units" (.text units)] ++ nads
    ++ (if full then [.attr ["nad_mode_frequency_info"] "frequency_units" (.text units)] else [])
    ++ rotation ++ driving ++ coupling ++ [.dset ["normalization"] "radial" norm none] ++ stationary)

/-- One action on a file (hdf5_saver.py 89-184). -/
def doOp (nw : NullWrite) (mode : Mode) (f : File AttrV) : Op → Except Err (File AttrV)
  | .attr g n v => match f.requireGroup g with
    | .error e => .error e
    | .ok f' => .ok { f' with attr := fun p a => if p = g ∧ a = n then some v else f'.attr p a }
  | .dset g n v t => createOverwrite nw mode f g n (some v) t

/-- All actions, one after the other. -/
def doOps (nw : NullWrite) (mode : Mode) (f : File AttrV) : List Op → Except Err (File AttrV)
  | [] => .ok f
  | o :: os => match doOp nw mode f o with
    | .error e => .error e
    | .ok f' => doOps nw mode f' os

/-- Saving to a new file: `NumericalSaver.__call__` (storer.py 101-111), `HDF5Saver.save_data` with the
default mode `w`. -/
def save (nw : NullWrite) (r : Run) : Except Err (File AttrV) := match saveOps r with
  | none => .error .other
  | some ops => doOps nw .write File.new ops

end
end Verif.Store
