import Verif.Jacky.LogModel
/-!
# Model of the resonance sharpness histograms

`aesolver/aeplotter/resonance_sharpness/histogram.py`, `plot.py` and
`aeplotter/library_functions/generic_histograms.py`.  Sharpness values are finite or NaN (`none`); infinite
values are not modelled.  Colours, labels and axes are not modelled.
-/
namespace Verif.Jacky
open Verif.Hist X
open Classical

/-- `create_setup_histogram_likelihood_arrays`, generic_histograms.py:24-34: the bin numbers `2 … m` with
`m = min(max_nr_bins or 100, number of entries)`. -/
def setupBins (maxBins : Option Nat) (len : Nat) : List Nat := List.range' 2 (min (maxBins.getD 100) len - 1)

/-- generic_histograms.py:32: `10.0 ** [-2, -1, 0, 1, 2]`. -/
noncomputable def setupAlphas : List ℝ := [1 / 100, 1 / 10, 1, 10, 100]

/-- The options of both calls, histogram.py:44-70. -/
def sharpOpts (dens prob : Bool) : Opts := ⟨false, prob, dens, false, true, false, [1]⟩

/-- `_sharpness_histogram`, histogram.py:30-78. -/
noncomputable def sharpHistogram (ss : Search) (data : List (Option ℝ)) (log : Bool) (maxBins : Option Nat)
    (dens prob : Bool) : M Ret :=
  if prob ≠ dens then
    if log then likelihoodBlasLog ss (some data) (some setupAlphas) (some (setupBins maxBins data.length)) [0]
      (sharpOpts dens prob)
    else likelihoodB blas (some data) (some setupAlphas) (some (setupBins maxBins data.length)) [0]
      (sharpOpts dens prob)
  else .error .sysExit

/-- Position of NaN by `np.searchsorted`: NaN sorts after every number. -/
noncomputable def nanPos (e : List X) : Nat := (e.takeWhile fun x => decide (x ≠ nan)).length

/-- `histogram_blas_log_spec_edges` with probabilities, blas_jacky.py:892-951 (and
`empirical_probability_histogram_log_counts`, shared_computation_functions.py:197-230). -/
noncomputable def probSpecEdges (ss : Search) (data : List (Option ℝ)) (edges : Option (List X)) (minl : Nat) :
    M (Option (List X)) :=
  match edges with
  | none => .ok none
  | some e =>
    if data.length = 0 then .ok none
    else
      match bincount (data.map fun v => guardIdx (e.length - 1) (v.elim (nanPos e) (ss e))) minl with
      | some c => .ok (some (c.map fun (k : Nat) => div (fin k) (fin data.length)))
      | none => .error .valueError

/-- The stored plot information, histogram.py:111-117. -/
structure SharpFigure where
  edges : Option (List X)
  width : Option Width
  isolated : Option (List X)
  notIsolated : Option (List X)

/-- The guard for the number of bins, histogram.py:93: `len` of a number raises. -/
def widthLen : Option Width → M Nat
  | none => .ok 1
  | some (.arr ws) => .ok ws.length
  | some (.scalar _) => .error .typeError

/-- `np.abs`. -/
noncomputable def absAll (l : List (Option ℝ)) : List (Option ℝ) := l.map (Option.map abs)

/-- `get_sharpness_histogram_plot_data`, histogram.py:81-117, for `all` = isolated followed by not isolated
(quadratic_plotter.py:644-708). -/
noncomputable def sharpFigure (ss : Search) (iso non : List (Option ℝ)) : M SharpFigure :=
  (sharpHistogram ss (absAll (iso ++ non)) true (some 100) false true).bind fun r =>
  (widthLen r.width).bind fun m =>
  (probSpecEdges ss (absAll iso) r.edges m).bind fun a =>
  (probSpecEdges ss (absAll non) r.edges m).map fun b => ⟨r.edges, r.width, a, b⟩

/-- `_get_x_coordinates`, plot.py:14-22. -/
noncomputable def xCoords (f : SharpFigure) : Option (List X) :=
  f.edges.map fun e => List.zipWith (fun lo hi => div (add hi lo) (fin 2)) e e.tail

/-- The heights in percent, plot.py:100-109. -/
noncomputable def percent (h : Option (List X)) : Option (List X) := h.map fun l => l.map fun x => mul x (fin 100)

/-- One call of `bar`, plot.py:37-63: nothing without coordinates, widths or heights; arrays of different
lengths (none of length one) raise. -/
noncomputable def drawBars (f : SharpFigure) (h : Option (List X)) : M (List (X × X)) :=
  match xCoords f, f.width, h with
  | some x, some (.arr w), some h =>
    if x.length = h.length ∧ w.length = h.length then .ok (x.zip h) else .error .valueError
  | _, _, _ => .ok []

end Verif.Jacky
