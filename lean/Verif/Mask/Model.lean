import Mathlib.Algebra.Order.Field.Basic
import Mathlib.Data.List.Dedup
/-!
# Model of the triad masks

`aesolver/ae_analyzer/library_functions/masking.py` (AN below) and
`aesolver/aeplotter/library_functions/masking.py` (PL below); lines 1-363 of both files are identical.

Simplification: `float64` is an exact linearly ordered field; `none` inside a table entry is NaN; the outer
`none` is an uncaught exception.  The `data_dict` of column arrays is a list of rows.
-/
namespace Verif.Mask

variable {K : Type} [Field K] [LinearOrder K]

/-- One triad of the `data_dict`: radial orders `rad_ord[:, 0..2]`, `thresh_surf_ppm`, `surfs[:, 0]`,
`checks`, `linear_omega_diff_to_min_omega`, `harmonic_mask`. -/
structure Row (K : Type) where
  p : Int
  d1 : Int
  d2 : Int
  thr : Option K
  surf : Option K
  checks : List Bool
  omegaDiff : Option K
  harmonic : Bool

/-- `arr[sel] = vals` on an all-false array, AN:162-163, 261-262. -/
def scatter : List Bool → List Bool → List Bool
  | [], _ => []
  | false :: s, vs => false :: scatter s vs
  | true :: s, v :: vs => v :: scatter s vs
  | true :: s, [] => false :: scatter s []

/-- `a & b` of two boolean arrays. -/
def band (a b : List Bool) : List Bool := List.zipWith (· && ·) a b
/-- `a | b` of two boolean arrays. -/
def bor (a b : List Bool) : List Bool := List.zipWith (· || ·) a b
/-- `~a`. -/
def bnot (a : List Bool) : List Bool := a.map (! ·)

/-- `_get_stability_check_mask`, AN:12-25: `checks[:, -3:].prod(axis=1, dtype=bool)`. -/
def stabilityMask (rows : List (Row K)) : List Bool :=
  rows.map fun r => (r.checks.drop (r.checks.length - 3)).all id

/-- `np.abs(x) <= c`, false for NaN. -/
def absLe (x : Option K) (c : K) : Bool :=
  match x with
  | some v => decide (|v| ≤ c)
  | none => false

/-- `_get_ae_validity_check_mask`, AN:28-41. -/
def validityMask (rows : List (Row K)) : List Bool := rows.map fun r => absLe r.omegaDiff (1 / 10)

/-- `_threshold_det_mask`, AN:68-91. -/
def detuningMask (rows : List (Row K)) (maxDet : K) : List Bool := rows.map fun r => absLe r.omegaDiff maxDet

/-- `ndarray.min()`: raises on an empty array. -/
def minList : List K → Option K
  | [] => none
  | a :: t => some (t.foldl min a)

/-- Dictionary lookup; a missing key raises `KeyError`. -/
def look : List (Int × K) → Int → Option K
  | [], _ => none
  | (k, v) :: m, n => if k = n then some v else look m n

/-- `_get_lowest_thresh_amp_map_and_unique_values`, AN:176-205: for every distinct radial order in the chosen
column, the smallest threshold of the rows with that order.  `np.unique` also sorts, which is irrelevant. -/
def lowestMap (col : Row K → Int) (rows : List (Row K)) (thrs : List K) : Option (List (Int × K)) :=
  ((rows.map col).dedup).mapM fun n =>
    (minList (((rows.zip thrs).filter (fun p => decide (col p.1 = n))).map Prod.snd)).map fun m => (n, m)

/-- The combined daughters map, AN:125-133 (a new entry is put in front: the last assignment wins). -/
def mergeDaughters (m1 m2 : List (Int × K)) : List (Int × K) :=
  m2.foldl (fun acc kv => match look m1 kv.1 with
    | some v => if v > kv.2 then kv :: acc else acc
    | none => kv :: acc) m1

/-- `np.isclose(a, b, rtol=0, atol=1e-14)` for finite values. -/
def isclose (a b : K) : Bool := decide (|a - b| ≤ 1 / 100000000000000)

/-- `_get_lowest_thresh_surfs` (AN:208-234; the loop over the unique orders assigns to every row the map
entry of its own order) followed by `_get_isolation_mask` (AN:44-65). -/
def allSame (rows : List (Row K)) (mp md : List (Int × K)) : Option (List Bool) :=
  rows.mapM fun r => do
    let a ← look mp r.p
    let b ← look md r.d1
    let c ← look md r.d2
    pure (isclose a b && isclose a c)

/-- `a > b` where `b` may be NaN. -/
def gtNan (a : K) (b : Option K) : Bool :=
  match b with
  | some v => decide (a > v)
  | none => false

/-- `np.argpartition(thr, 1)[:2]`: raises for fewer than two entries; otherwise `part` gives the positions
of the smallest and the second smallest entry, in numpy's unspecified choice among ties. -/
def argpartition (part : List K → Nat × Nat) (thrs : List K) : Option (Nat × Nat) :=
  if thrs.length < 2 then none else some (part thrs)

/-- The body of the loop of `compare_second_lowest_thresholds_with_lowest_threshold_equilibrium_amp`,
AN:248-259, for one parent radial order `n`: the value stored for all its triads.
`rows` are the valued rows, with thresholds `thrs`. -/
def parentOk (part : List K → Nat × Nat) (rows : List (Row K)) (thrs : List K) (n : Int) : Option Bool := do
  let sel := (rows.zip thrs).filter (fun q => decide (q.1.p = n))
  let eqs := sel.map (fun q => q.1.surf.map (· * 1000000))
  let ts := sel.map Prod.snd
  let ij ← argpartition part ts
  let second ← ts[ij.2]?
  let eqv ← eqs[ij.1]?
  pure (gtNan second eqv)

/-- `compare_second_lowest_thresholds_with_lowest_threshold_equilibrium_amp` before the scatter, AN:237-259:
the loop runs over the distinct parents (an exception for any of them is an exception of the function) and
writes the same value to all rows of that parent. -/
def secondLowestOk (part : List K → Nat × Nat) (rows : List (Row K)) (thrs : List K) : Option (List Bool) := do
  let tbl ← ((rows.map Row.p).dedup).mapM fun n => (parentOk part rows thrs n).map fun b => (n, b)
  pure (rows.map fun r => (tbl.lookup r.p).getD false)

/-- `_get_isolation_mask_lowest_thresh_amp`, AN:97-173. -/
def isolationMask (part : List K → Nat × Nat) (rows : List (Row K)) : Option (List Bool) := do
  let valued := rows.map (fun r => r.thr.isSome)
  let vrows := rows.filter (fun r => r.thr.isSome)
  let vthr := rows.filterMap Row.thr
  let mp ← lowestMap Row.p vrows vthr
  let m1 ← lowestMap Row.d1 vrows vthr
  let m2 ← lowestMap Row.d2 vrows vthr
  let same ← allSame vrows mp (mergeDaughters m1 m2)
  let ok ← secondLowestOk part vrows vthr
  pure (band (scatter valued same) (scatter valued ok))

/-- `(thr < minLum) | isnan(thr)`, AN:293-295. -/
def lumTooLow (minLum : K) (r : Row K) : Bool :=
  match r.thr with
  | some t => decide (t < minLum)
  | none => true

/-- `_get_unique_value_mask`, AN:322-348. -/
def uniqueValueMask (col : Row K → Int) (ignored rows : List (Row K)) : List Bool :=
  rows.map fun r => decide (col r ∈ (ignored.map col).dedup)

/-- `_get_threshold_lum_mask`, AN:275-319. -/
def thresholdLumMask (rows : List (Row K)) (minLum : K) : List Bool :=
  let ignored := rows.filter (lumTooLow minLum)
  bnot (bor (bor (uniqueValueMask Row.p ignored rows) (uniqueValueMask Row.d1 ignored rows))
    (uniqueValueMask Row.d2 ignored rows))

/-- `theoretical_plotting_masks_overview`, PL:369-418. -/
def overviewMasks (part : List K → Nat × Nat) (rows : List (Row K)) :
    Option (List Bool × List Bool × List Bool) := do
  let harmonicRemoval := bnot (rows.map Row.harmonic)
  let stab := stabilityMask rows
  let ae := validityMask rows
  let iso ← isolationMask part rows
  let stable := band stab harmonicRemoval
  let aeStable := band (band stab ae) harmonicRemoval
  let stableValid := band (band (band stab ae) iso) harmonicRemoval
  let stable := band (band (band stable (bnot aeStable)) (bnot stableValid)) harmonicRemoval
  let aeStable := band (band aeStable (bnot stableValid)) harmonicRemoval
  pure (stable, aeStable, stableValid)

/-- `isolated_non_isolated_stable_valid_masking`, PL:421-481. -/
def isolatedMasks (part : List K → Nat × Nat) (rows : List (Row K)) (minLum maxDet : Option K) :
    Option (List Bool × List Bool) := do
  let hyper := stabilityMask rows
  let ae := validityMask rows
  let iso ← isolationMask part rows
  let withIso := band (band hyper ae) iso
  let withoutIso := band (band hyper ae) (bnot iso)
  match minLum, maxDet with
  | some l, some d =>
    pure (band (band withIso (thresholdLumMask rows l)) (detuningMask rows d),
      band (band withoutIso (thresholdLumMask rows l)) (detuningMask rows d))
  | some l, none => pure (band withIso (thresholdLumMask rows l), band withoutIso (thresholdLumMask rows l))
  | none, some d => pure (band withIso (detuningMask rows d), band withoutIso (detuningMask rows d))
  | none, none => pure (withIso, withoutIso)

/-- `get_mask_information_triad_counts`, AN:368-396. -/
def triadCountMasks (part : List K → Nat × Nat) (rows : List (Row K)) :
    Option (List Bool × List Bool × List Bool × List Bool × List Bool) := do
  let stab := stabilityMask rows
  let ae := validityMask rows
  let iso ← isolationMask part rows
  pure (stab, ae, iso, band ae iso, band (band stab ae) iso)

end Verif.Mask
