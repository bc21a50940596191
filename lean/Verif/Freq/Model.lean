import Verif.Stab.Model
import Mathlib.Analysis.Complex.Basic
/-!
# Model of the frequency handler and its unit table

Simplifications: `np.float64`/`complex128` are exact real/complex numbers; decimal literals are exact;
`md['freq']` (an array with one entry, of which the code takes `[0]`) is that entry; `Omega_rot_dim` and
`Omega_rot` are their last entries.  `none` models `sys.exit()` or an uncaught exception.
-/
namespace Verif.Freq
open Real

/-- The `freq_units` bytes stored by GYRE: the four keys of the tables, or any other byte string. -/
inductive Stored where
  | hz | uhz | radPerSec | cycPerDay
  | other (name : String)
deriving DecidableEq

/-- The requested units that have a conversion table
(enumeration_freq_converter_normalization.py:116-145). -/
inductive Req where
  | hz | uhz | cycPerDay | cpd | radPerSec
deriving DecidableEq

/-- The tables `*_REQUESTED`, enumeration_freq_converter_normalization.py:116-145; `none` is a missing
key.  Over a field `K` (real or complex values) with a constant `pi`. -/
def table {K : Type} [Field K] (pi : K) : Req → Stored → Option (K → K)
  | .hz, .hz => some fun v => v
  | .hz, .uhz => some fun v => v * (1 / 1000000)
  | .hz, .radPerSec => some fun v => v / (2 * pi)
  | .hz, .cycPerDay => some fun v => v / 86400
  | .uhz, .hz => some fun v => v * 1000000
  | .uhz, .uhz => some fun v => v
  | .uhz, .radPerSec => some fun v => v * 1000000 / (2 * pi)
  | .uhz, .cycPerDay => some fun v => v * 1000000 / 86400
  | .cycPerDay, .hz => some fun v => v * 86400
  | .cycPerDay, .uhz => some fun v => v * (1 / 1000000) * 86400
  | .cycPerDay, .radPerSec => some fun v => v * 86400 / (2 * pi)
  | .cycPerDay, .cycPerDay => some fun v => v
  | .cpd, .hz => some fun v => v * 86400
  | .cpd, .uhz => some fun v => v * (1 / 1000000) * 86400
  | .cpd, .radPerSec => some fun v => v * 86400 / (2 * pi)
  | .cpd, .cycPerDay => some fun v => v
  | .radPerSec, .hz => some fun v => v * (2 * pi)
  | .radPerSec, .uhz => some fun v => v * (1 / 1000000) * (2 * pi)
  | .radPerSec, .radPerSec => some fun v => v
  | .radPerSec, .cycPerDay => some fun v => v * (2 * pi) / 86400
  | _, .other _ => none

/-- `is_angular_frequency`, enumeration_freq_converter_normalization.py:29-50, on the supported units. -/
def isAngular : Req → Bool
  | .radPerSec => true
  | _ => false

/-- The entries of a GYRE mode dictionary that the handler uses. -/
structure ModeDict where
  freq : ℂ
  m : ℤ
  /-- `freq_frame == b'INERTIAL'` -/
  inertial : Bool
  units : Stored
  /-- `Omega_rot_dim[-1]`, `none` when the key is missing -/
  omegaRotDim : Option ℝ
  omegaRot : ℝ
  G : ℝ
  M : ℝ
  R : ℝ

/-- `factor_from_dict`, enumeration_freq_converter_normalization.py:212-269: a unit missing from the table
is taken to be dimensionless when `no_exit`, and ends the program otherwise. -/
noncomputable def factorFromDict (md : ModeDict) (r : Req) (no_exit : Bool) : Option (ℂ → ℂ) :=
  match table (π : ℂ) r md.units with
  | some f => some f
  | none =>
    if no_exit then
      (table (π : ℂ) r .radPerSec).map fun f v => f (v * (√((md.G * md.M) / md.R ^ 3) : ℝ))
    else none

/-- `_retrieve_rotation_frequency`, frequency_handler.py:800-827: `_rps_rot_freq`. -/
noncomputable def rpsRot (md : ModeDict) : ℝ :=
  match md.omegaRotDim with
  | some w => w
  | none => md.omegaRot * √((md.G * md.M) / md.R ^ 3)

/-- `_rot_freq`, frequency_handler.py:827 (the table has a `RAD_PER_SEC` entry for each requested unit). -/
noncomputable def rotFreq (r : Req) (md : ModeDict) : Option ℝ :=
  (table π r .radPerSec).map fun f => f (rpsRot md)

/-- `_ocfc`, frequency_handler.py:836 and 843. -/
noncomputable def ocfc (r : Req) (v : ℂ) : ℂ := if isAngular r then v else v * 2 * π
/-- `_fcfc`, frequency_handler.py:837 and 844. -/
noncomputable def fcfc (r : Req) (v : ℂ) : ℂ := if isAngular r then v / (π * 2) else v
/-- `_ocfr`, frequency_handler.py:834 and 841. -/
noncomputable def ocfr (r : Req) (v : ℂ) : ℝ := if isAngular r then v.re else v.re * 2 * π
/-- `_fcfr`, frequency_handler.py:835 and 842. -/
noncomputable def fcfr (r : Req) (v : ℂ) : ℝ := if isAngular r then v.re / (π * 2) else v.re

/-- The four frequencies kept per mode: cyclic/angular, co-rotating/inertial. -/
structure Freqs where
  corotF : ℝ
  inertF : ℝ
  corotO : ℝ
  inertO : ℝ

/-- One pass of the loop of `_retrieve_mode_frequencies_az_orders`, frequency_handler.py:848-912.
`garbage` is what `np.empty` left in `_corot_mode_freqs[_i]`; line 879 divides that entry. -/
noncomputable def adMode (r : Req) (rot garbage : ℝ) (cff : ℂ → ℂ) (md : ModeDict) : Freqs :=
  let v := cff md.freq
  let o := ocfr r v
  let f := fcfr r v
  if md.inertial then
    if isAngular r then
      { inertF := f, inertO := o, corotO := o - md.m * rot, corotF := garbage / (2 * π) }
    else
      let cf := f - md.m * rot
      { inertF := f, inertO := o, corotF := cf, corotO := (2 * π) * cf }
  else
    if isAngular r then
      let io := o + md.m * rot
      { corotF := f, corotO := o, inertO := io, inertF := io / (2 * π) }
    else
      let fi := f + md.m * rot
      { corotF := f, corotO := o, inertF := fi, inertO := (2 * π) * fi }

/-- `_compute_mode_spin_factors`, frequency_handler.py:914-926. -/
noncomputable def spin (r : Req) (rot : ℝ) (f : Freqs) : ℝ :=
  if isAngular r then 2 * rot / f.corotO else 4 * π * rot / f.corotO

/-- `factor_for_dimensioning_factor`, enumeration_freq_converter_normalization.py:350-389. -/
noncomputable def dimConv (r : Req) : Option (ℝ → ℝ) :=
  (table π r .hz).map fun f => if isAngular r then fun x => f x / (2 * π) else f

/-- `dim_factor` of `_compute_dimensionless_freqs`, frequency_handler.py:939-948. -/
noncomputable def dimFactor (r : Req) (md : ModeDict) : Option ℝ :=
  (dimConv r).map fun f => f (√(md.R ^ 3 / (md.G * md.M)))

/-- `_compute_dimensionless_freqs`, frequency_handler.py:949-974, per mode. -/
def dimless (k : ℝ) (f : Freqs) : Freqs := ⟨f.corotF * k, f.inertF * k, f.corotO * k, f.inertO * k⟩

/-- `_compute_detunings`, frequency_handler.py:976-997 (`none` for an empty array). -/
noncomputable def detuning : List ℝ → Option ℝ
  | [] => none
  | w :: ws => some (w - ws.sum)

/-- What `set_mode_info` leaves in the handler. -/
structure AdOut where
  rps : ℝ
  rot : ℝ
  freqs : List Freqs
  spins : List ℝ
  dimless : List Freqs
  detuning : ℝ

/-- `set_mode_info`, frequency_handler.py:83-116. -/
noncomputable def setModeInfo (r : Req) (garbage : Nat → ℝ) (mds : List ModeDict) : Option AdOut := do
  let cffs ← mds.mapM (fun md => factorFromDict md r true)
  let md0 ← mds[0]?
  let rot ← rotFreq r md0
  let fs := (List.zip mds cffs).mapIdx (fun i p => adMode r rot (garbage i) p.2 p.1)
  let k ← dimFactor r md0
  let det ← detuning (fs.map Freqs.corotO)
  pure ⟨rpsRot md0, rot, fs, fs.map (spin r rot), fs.map (dimless k), det⟩

/-- One pass of the loop of `_get_nonadiabatic_frequencies_linear_driving_damping_rates`,
frequency_handler.py:1084-1155: the frequencies and the driving rate. -/
noncomputable def nadMode (r : Req) (rot : ℝ) (cff : ℂ → ℂ) (md : ModeDict) : Freqs × ℝ :=
  let v := cff md.freq
  let o := ocfc r v
  let f := fcfc r v
  if md.inertial then
    let fr : Freqs :=
      if isAngular r then
        let co := o.re - md.m * rot
        { inertF := f.re, inertO := o.re, corotO := co, corotF := co / (2 * π) }
      else
        let cf := f.re - md.m * rot
        { inertF := f.re, inertO := o.re, corotF := cf, corotO := (2 * π) * cf }
    let rc : ℂ := if isAngular r then o - ((md.m * rot : ℝ) : ℂ) else o - ((md.m * rot * (2 * π) : ℝ) : ℂ)
    (fr, rc.im)
  else
    let fr : Freqs :=
      if isAngular r then
        let io := o.re + md.m * rot
        { corotF := f.re, corotO := o.re, inertO := io, inertF := io / (2 * π) }
      else
        let fi := f.re + md.m * rot
        { corotF := f.re, corotO := o.re, inertF := fi, inertO := (2 * π) * fi }
    (fr, o.im)

/-- `_get_nonadiabatic_conversion_functions`, frequency_handler.py:1023-1054 with
`_check_adiabatic_nonadiabatic_units` (1000-1020). -/
noncomputable def nadConv (r : Req) (ad nad : List ModeDict) : Option (List (ℂ → ℂ)) :=
  if (List.zip ad nad).all (fun p => p.1.units == p.2.units) then
    ad.mapM (fun md => factorFromDict md r true)
  else nad.mapM (fun md => factorFromDict md r false)

/-- `_compute_quality_factors`, frequency_handler.py:1158-1167. -/
noncomputable def qualityFactors (w g : List ℝ) : List ℝ := List.zipWith (· / ·) w g

/-- `_compute_quality_factor_products`, frequency_handler.py:1170-1184: the entries strictly below the
diagonal of the outer product, row by row. -/
noncomputable def qfProducts (Q : List ℝ) : List ℝ :=
  (List.range Q.length).flatMap (fun i => (List.range i).map (fun j => Q.getD j 0 * Q.getD i 0))

/-- What `set_mode_nonadiabatic_info` leaves in the handler. -/
structure NadOut where
  freqs : List Freqs
  rates : List ℝ
  qf : List ℝ
  qfNad : List ℝ
  qfp : List ℝ
  qfpNad : List ℝ
  gammaSum : ℝ
  dimless : List Freqs
  detuningNad : ℝ
  qNad : ℝ
  q1Nad : ℝ
  q : ℝ
  q1 : ℝ

/-- `set_mode_nonadiabatic_info`, frequency_handler.py:119-145, on a handler whose adiabatic state is
`out`, with `_compute_gamma_sum` (1187-1189) and `_compute_q_q1` (1192-1199). -/
noncomputable def setNadInfo (r : Req) (ad nad : List ModeDict) (out : AdOut) : Option NadOut := do
  if nad.length ≠ ad.length then none
  let cffs ← nadConv r ad nad
  let md0 ← ad[0]?
  let fr := (List.zip nad cffs).map (fun p => nadMode r out.rot p.2 p.1)
  let fs := fr.map Prod.fst
  let γ := fr.map Prod.snd
  let qf := qualityFactors (out.freqs.map Freqs.corotO) γ
  let qfn := qualityFactors (fs.map Freqs.corotO) γ
  let k ← dimFactor r md0
  let det ← detuning (fs.map Freqs.corotO)
  let γ0 ← γ[0]?
  pure { freqs := fs, rates := γ, qf := qf, qfNad := qfn, qfp := qfProducts qf, qfpNad := qfProducts qfn,
         gammaSum := γ.sum, dimless := fs.map (dimless k), detuningNad := det,
         qNad := det / γ.sum, q1Nad := det / γ0, q := out.detuning / γ.sum, q1 := out.detuning / γ0 }

/-- `factor_from_object` on the conversion tuples of enumeration_freq_converter_normalization.py:66-74
(first entry of each; the result is documented, 59, to be in Hz).  `none`: for `HZ` the entry is `None`,
which is then called; for the other names a `NotImplementedError` is raised. -/
noncomputable def factorFromObject (G M R : ℝ) : Stored → Option (ℝ → ℝ)
  | .other name => if name = "NONE" then some fun v => v * √(G * M / R ^ 3) else none
  | .hz => none
  | .uhz => some fun v => v / 1000000
  | .radPerSec => some fun v => v / (2 * π)
  | .cycPerDay => some fun v => v / 86400

end Verif.Freq
