import Mathlib.Analysis.SpecialFunctions.Trigonometric.Basic
import Verif.Mask.Model
/-!
# Model of the post-processing of saved triads

`aesolver/ae_analyzer/quadratic_stationary_analyzer.py` (AN below), `aesolver/aeplotter/quadratic_plotter.py` (PL below),
`utility_functions.py` of both packages (UT below, identical files).

Simplifications: exact real arithmetic; `none` is a NaN or an infinity, and every operation on it gives `none`; the columns of
a data dictionary are kept as a list of rows (all columns have the same number of rows: they come from one saved file).
The outer `none` is an uncaught exception.
-/
namespace Verif.Post
noncomputable section

/-- A float that may be NaN or infinite. -/
abbrev Num := Option ℝ

def nadd (a b : Num) : Num := a.bind fun x => b.map fun y => x + y
def nmul (a b : Num) : Num := a.bind fun x => b.map fun y => x * y
/-- Division; a division by zero gives an infinity or NaN. -/
def ndiv (a b : Num) : Num := a.bind fun x => b.bind fun y => if y = 0 then none else some (x / y)
/-- `np.isnan(x)`. -/
def isnan (a : Num) : Bool := a.isNone
/-- `x == 0.0`. -/
def isZero (a : Num) : Bool := match a with | some x => decide (x = 0) | none => false
/-- `a > b`, false for NaN. -/
def ngt (a b : Num) : Bool := match a, b with | some x, some y => decide (y < x) | _, _ => false

/-- One row of the arrays loaded by `_load_specific_file_data` (AN:194-202, PL:278-286; keys in
`data_files/hdf5_data_path_mapper.py` 71-114).  Frequencies and rates are finite. -/
structure Triad where
  /-- `surfs` -/
  surfs : Fin 3 → Num
  /-- `checks` -/
  checks : Fin 6 → Bool
  /-- `driv_damp_rates` -/
  rates : Fin 3 → ℝ
  /-- `theoretical_amps` -/
  amps : Fin 3 → Num
  /-- `thresh_amp` -/
  thresh : Num
  /-- `rad_ord` -/
  radOrd : Fin 3 → ℤ
  /-- `corot_mode_omegas` -/
  corot : Fin 3 → ℝ
  /-- `inert_mode_omegas` -/
  inert : Fin 3 → ℝ
  /-- `inert_mode_freqs` -/
  inertF : Fin 3 → ℝ
  /-- `kappa_norm` -/
  kappaNorm : Num
  /-- `stationary_relative_luminosity_phase` -/
  phase : Num

/-! ### Loading -/

/-- A saved file: its rows and the attributes `k`, `l`, `m` of `quantum_numbers`. -/
structure File where
  rows : List Triad
  k : List ℤ
  l : List ℤ
  m : List ℤ

/-- What `generate_load_file_path_list` gives for one model: one path or the paths of linked files. -/
inductive Entry where
  | single (path : String)
  | linked (paths : List String)

/-- `np.concatenate` raises for an empty list. -/
def concatenate {α : Type} (l : List (List α)) : Option (List α) := if l.isEmpty then none else some l.flatten

/-- `_load_analysis_data` (AN:142-192), `_load_sharpness_overview_data` (PL:226-276).  The method is chosen by `multimethod`,
which looks at the first element of the list: a string selects the method that links all files together (143-164), a list the
one that keeps the models apart (166-192).  Opening a list as a file raises.  An empty list is not modelled. -/
def loadData (fs : String → Option File) (paths : List Entry) : Option (List (List Triad)) :=
  match paths with
  | [] => none
  | .single _ :: _ => do
    let files ← paths.mapM fun e => match e with
      | .single p => (fs p).map (·.rows)
      | .linked _ => none
    let rows ← concatenate files
    pure [rows]
  | .linked _ :: _ => paths.mapM fun e => match e with
      | .single p => (fs p).map (·.rows)
      | .linked ps => do
        let files ← ps.mapM fun p => (fs p).map (·.rows)
        concatenate files

/-- One entry of the lists `_k`, `_l`, `_m`. -/
inductive Attr where
  | one (k l m : List ℤ)
  | several (files : List (List ℤ × List ℤ × List ℤ))

/-- `_load_attributes` (AN:204-233, PL:288-317). -/
def loadAttrs (fs : String → Option File) (paths : List Entry) : Option (List Attr) :=
  paths.mapM fun e => match e with
    | .single p => (fs p).map fun f => .one f.k f.l f.m
    | .linked ps => (ps.mapM fun p => (fs p).map fun f => (f.k, f.l, f.m)).map .several

/-! ### Quantities of one row -/

/-- `hz_to_cpd` (UT:10-11). -/
def hzToCpd (x : ℝ) : ℝ := x * 86400
/-- `hz_to_muhz` (UT:14-15). -/
def hzToMuhz (x : ℝ) : ℝ := x * 1000000

/-- `linear_omega_diff` (AN:265-269, PL:349-353). -/
def linearDiff (t : Triad) : ℝ := t.corot 0 - t.corot 1 - t.corot 2
/-- `np.abs(corot).min(axis=1)` (AN:273, PL:357). -/
def minCorot (t : Triad) : ℝ := min (min |t.corot 0| |t.corot 1|) |t.corot 2|
/-- `linear_omega_diff_to_min_omega` (AN:274-276, PL:358-360). -/
def diffToMin (t : Triad) : Num := ndiv (some (linearDiff t)) (some (minCorot t))
/-- `rotation_freqs` (AN:278-282, PL:362-366): the column of the first daughter. -/
def rotation (t : Triad) : ℝ := t.inert 1 - t.corot 1
/-- `spin_parameters` (AN:286-288, PL:370-372). -/
def spin (t : Triad) (i : Fin 3) : Num := ndiv (some (2 * rotation t)) (some (t.corot i))

/-- `np.divide(num, den, where=…, out=…)`. -/
def divideWhere (num den : Num) (whr : Bool) (out : Num) : Num := if whr then ndiv num den else out

/-- `thresh_surf_ppm` (AN:372-390, PL:465-483). -/
def threshPpm (t : Triad) : Num :=
  let invalid := isnan (t.amps 0) || isZero (t.amps 0)
  let lumConv := divideWhere (t.surfs 0) (t.amps 0) (t.checks 0 && !invalid) none
  nmul (nmul t.thresh lumConv) (some 1000000)

/-- `compute_single_amplitude_ratio` (UT:19-31): the new content of `specified_out`. -/
def singleRatio (num den out : Num) (mask : Bool) : Num :=
  let denomMask := isZero den || isnan den
  divideWhere num den (!denomMask && mask) out

/-- `_compute_amp_ratios` (AN:419-481, PL:505-567): the two columns of `surf_ratio_daughter_parent_OG_SHAPE` and
`surf_ratio_vb_21`. -/
def ampRatios (t : Triad) : Num × Num × Num :=
  let s1 := t.surfs 0
  let s2 := t.surfs 1
  let s3 := t.surfs 2
  let out1 := singleRatio s2 s1 none (t.checks 0)
  let out2 := singleRatio s3 s1 none (t.checks 0)
  let out1 := singleRatio s1 s2 out1 (t.checks 1)
  let out2 := singleRatio s1 s3 out2 (t.checks 1)
  let out3 := singleRatio s1 (nmul s2 s3) none (t.checks 0)
  let out3 := singleRatio s1 (nmul s2 s3) out3 (t.checks 1)
  (out1, out2, out3)

/-- `p_quality_factors` (AN:401). -/
def quality (t : Triad) : Num := ndiv (some (t.corot 0)) (some (t.rates 0))
/-- `gamma_sum` (AN:559-564). -/
def gammaSum (t : Triad) : ℝ := hzToCpd (t.rates 0) + (hzToCpd (t.rates 1) + hzToCpd (t.rates 2))
/-- `q` (AN:566-568). -/
def qFactor (t : Triad) : Num := ndiv (some (hzToCpd (linearDiff t))) (some (gammaSum t))

/-- `freq_shift_p`, `freq_shift_d` (AN:489-526, PL:585-622). -/
def shift (t : Triad) (i : Fin 3) : Num :=
  let boxplus := t.rates 0 + t.rates 1 + t.rates 2
  if i = 0 then nmul (some (linearDiff t)) (ndiv (some (-t.rates 0)) (some boxplus))
  else nmul (some (linearDiff t)) (ndiv (some (t.rates i)) (some boxplus))
/-- `freq_shift_p_cpd`, `freq_shift_d_cpd` (AN:517-526, PL:613-622). -/
def shiftCpd (t : Triad) (i : Fin 3) : Num := (shift t i).map hzToCpd
/-- `nonlinear frequency shift/omega inert` (AN:528-538). -/
def relShift (t : Triad) (i : Fin 3) : Num := ndiv ((shift t i).map hzToMuhz) (some (hzToMuhz (t.inert i)))
/-- `nonlinear omegas (c/d)` (AN:540-554). -/
def nonlinearOmega (t : Triad) (i : Fin 3) : Num := nadd (some (hzToCpd (t.inert i))) (shiftCpd t i)

/-- The row of the mask table (keys used by `library_functions/masking.py`); `harmonic_mask` is PL:711-715. -/
def maskRow (t : Triad) : Mask.Row ℝ :=
  { p := t.radOrd 0, d1 := t.radOrd 1, d2 := t.radOrd 2, thr := threshPpm t, surf := t.surfs 0,
    checks := List.ofFn t.checks, omegaDiff := diffToMin t, harmonic := decide (t.radOrd 1 = t.radOrd 2) }

/-- `resonance_sharpness_factor` (PL:575-583). -/
def sharpness (t : Triad) : Num := ndiv (some (linearDiff t)) (some (t.rates 1 + t.rates 2))

/-- `min` of numpy: a NaN wins. -/
def nmin (a b : Num) : Num := a.bind fun x => b.map fun y => min x y

/-- `_compute_minimal_inertial_frequencies` (PL:718-730). -/
def minInertial (t : Triad) : Num :=
  let f (i : Fin 3) : Num := nadd (some (t.inertF i * 86400)) (ndiv (shiftCpd t i) (some (2 * Real.pi)))
  nmin (nmin (f 0) (f 1)) (f 2)

/-- `kepler_notional_nyquist` (PL:735). -/
def nyquist : ℝ := (283 * (1 / 1000000)) * 86400

/-- `_perform_frequency_mirroring` (PL:733-776), one element: the masks are computed before the assignments, which write to
the array they read from. -/
def mirror (f : ℝ) : ℝ × Bool :=
  let neg := decide (f < 0)
  let a := |f|
  let one := decide (a < nyquist) && neg
  let v := if one then |f| else f
  let two := decide (a < 2 * nyquist) && decide (nyquist ≤ a) && neg
  let v := if two then 2 * nyquist + v else v
  let three := decide (a < 3 * nyquist) && decide (2 * nyquist ≤ a) && neg
  let v := if three then -3 * nyquist - v else v
  let four := decide (a < 4 * nyquist) && decide (3 * nyquist ≤ a) && neg
  let v := if four then 4 * nyquist + v else v
  (v, neg)

/-! ### Sharpness data -/

/-- Selection by a boolean mask of the same length. -/
def select {α : Type} (l : List α) (mask : List Bool) : List α := ((l.zip mask).filter (·.2)).map (·.1)

/-- `_generate_plotting_masks_sharpness` and `_generate_resonance_sharpness_figure_data` (PL:644-708): counts per model and
the three data arrays. -/
structure SharpnessData where
  countIsolated : List ℕ
  countNot : List ℕ
  all : List Num
  isolated : List Num
  notIsolated : List Num

def sharpnessData (part : List ℝ → ℕ × ℕ) (models : List (List Triad)) : Option SharpnessData := do
  let masks ← models.mapM fun rows => Mask.isolatedMasks part (rows.map maskRow) none none
  let isoL := (masks.zip models).map fun p => select (p.2.map sharpness) p.1.1
  let notL := (masks.zip models).map fun p => select (p.2.map sharpness) p.1.2
  let iso ← concatenate isoL
  let no ← concatenate notL
  let all ← concatenate [iso, no]
  pure { countIsolated := masks.map fun p => p.1.count true, countNot := masks.map fun p => p.2.count true,
         all := all, isolated := iso, notIsolated := no }

/-! ### Counts of the analyzer -/

/-- A data dictionary after `_store_masks_for_analysis` (AN:576-585). -/
structure Dict where
  rows : List Triad
  stab : List Bool
  ae : List Bool
  iso : List Bool
  val : List Bool
  stabVal : List Bool

/-- `_store_masks_for_analysis` (AN:576-585). -/
def store (part : List ℝ → ℕ × ℕ) (rows : List Triad) : Option Dict := do
  let (a, b, c, d, e) ← Mask.triadCountMasks part (rows.map maskRow)
  pure ⟨rows, a, b, c, d, e⟩

/-- `(_amp_ratios > 1.0).prod(axis=1)` (AN:640-642). -/
def bothLarger (t : Triad) : Bool := ngt (ampRatios t).1 (some 1) && ngt (ampRatios t).2.1 (some 1)
/-- `_q > _quality_factor_1` (AN:646-650). -/
def qGreater (t : Triad) : Bool := ngt (qFactor t) (quality t)

/-- What is appended to the lists for one model (AN:640-706); a pair counts the triads with and without a property. -/
structure Counts where
  ratios : ℕ
  q : ℕ
  n : ℕ
  both : ℕ
  notQ : ℕ
  stab : ℕ × ℕ
  ae : ℕ × ℕ
  iso : ℕ × ℕ
  val : ℕ × ℕ
  stabVal : ℕ × ℕ
  aeRatios : ℕ × ℕ
  /-- radial orders of the triads with both conditions -/
  infoBoth : List (Fin 3 → ℤ)

open Mask (band bnot)

/-- The loop body AN:638-706. -/
def countModel (d : Dict) : Counts :=
  let larger := d.rows.map bothLarger
  let m := d.rows.map qGreater
  let both := band m larger
  let pair (mask : List Bool) : ℕ × ℕ := ((band mask both).count true, (band (bnot mask) both).count true)
  { ratios := larger.count true, q := m.count true, n := d.rows.length, both := both.count true,
    notQ := (band (bnot m) larger).count true, stab := pair d.stab, ae := pair d.ae, iso := pair d.iso, val := pair d.val,
    stabVal := pair d.stabVal,
    aeRatios := ((band d.ae larger).count true, (band (bnot d.ae) larger).count true),
    infoBoth := select (d.rows.map (·.radOrd)) both }

/-- `generate_counts_q_quality_factor_1_condition` (AN:623-706): the loop runs over the zip of names and data. -/
def countLists (names : List String) (dds : List Dict) : List (String × Counts) :=
  (names.zip dds).map fun p => (p.1, countModel p.2)

/-- The printed totals (AN:708-723): sums over the lists. -/
structure Totals where
  q : ℕ
  ratios : ℕ
  both : ℕ
  notQ : ℕ
  stab : ℕ × ℕ
  ae : ℕ × ℕ
  iso : ℕ × ℕ
  val : ℕ × ℕ
  stabVal : ℕ × ℕ
  aeRatios : ℕ × ℕ

def totals (l : List (String × Counts)) : Totals :=
  let s (f : Counts → ℕ) : ℕ := (l.map fun p => f p.2).sum
  let s2 (f : Counts → ℕ × ℕ) : ℕ × ℕ := (s fun c => (f c).1, s fun c => (f c).2)
  { q := s (·.q), ratios := s (·.ratios), both := s (·.both), notQ := s (·.notQ), stab := s2 (·.stab), ae := s2 (·.ae),
    iso := s2 (·.iso), val := s2 (·.val), stabVal := s2 (·.stabVal), aeRatios := s2 (·.aeRatios) }

/-- The default model names (AN:103). -/
def defaultNames : List String := ["model1", "model2", "model3", "model4", "model5", "model6", "model7"]

end
end Verif.Post
