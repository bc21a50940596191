import Verif.Jacky.Model
import Mathlib.Analysis.SpecialFunctions.Log.Base
import Mathlib.Analysis.SpecialFunctions.Pow.Real
/-!
# Model of the histogram entry points with bins equally wide in the logarithm

`log_histogram_likelihood_iter`, `_cython`, `_numexpr`, `_blas` of `histogram_maker/hogg_jacky`.
Same simplifications as in `Model`.  `np.searchsorted` is a parameter: for increasing numbers it is specified,
for arrays with NaN (logarithms of non-positive data) its result is only known to be at most the length.
-/
namespace Verif.Jacky
open Verif.Hist X
open Classical

/-- `np.searchsorted(edges, x, side='left')` for one point. -/
abbrev Search := List X → ℝ → Nat

/-- The specification of `np.searchsorted(…, side='left')`: number of leading edges below `x` for increasing
(or constant) numbers, never more than the length. -/
structure IsSearch (ss : Search) : Prop where
  sorted : ∀ (e : List ℝ) (x : ℝ), e.Pairwise (· ≤ ·) → ss (e.map fin) x = searchLeft e x
  le : ∀ e x, ss e x ≤ e.length

/-- `np.log10` of a number. -/
noncomputable def log10 (x : ℝ) : X := if x < 0 then nan else if x = 0 then ninf else fin (Real.logb 10 x)

/-- The finite part of a value. -/
def finPart : X → Option ℝ
  | fin r => some r
  | _ => none

/-- `min` of an array without `+inf`: NaN wins, then `-inf`. -/
noncomputable def xmin (l : List X) : X :=
  if nan ∈ l then nan else if ninf ∈ l then ninf else fin (amin (l.filterMap finPart))

/-- `max` of an array without `+inf`: NaN wins; `-inf` only if there is nothing else. -/
noncomputable def xmax (l : List X) : X :=
  if nan ∈ l then nan else if l.filterMap finPart = [] then ninf else fin (amax (l.filterMap finPart))

/-- `10.0 ** y`. -/
noncomputable def pow10 : X → X
  | fin r => fin ((10 : ℝ) ^ r)
  | ninf => fin 0
  | pinf => pinf
  | nan => nan

/-- `np.linspace(a, b, num=n + 1, endpoint=True)`: `arange * step + start`, then the last entry is `stop`;
one entry: `0 * delta + start`. -/
noncomputable def linspaceX (a b : X) (n : Nat) : List X :=
  if n = 0 then [add (mul (fin 0) (sub b a)) a]
  else (tab n fun i => add (mul (fin i) (div (sub b a) (fin n))) a) ++ [b]

/-- `np.logspace(a, b, num=n + 1, endpoint=True, base=10.0)`. -/
noncomputable def logspace (a b : X) (n : Nat) : List X := (linspaceX a b n).map pow10

/-- The guards of `histogram_log_counts`, shared_computation_functions.py:176-186. -/
def guardIdx (n k : Nat) : Int :=
  let b : Int := (k : Int) - 1
  let b := if b = -1 then 0 else b
  if b = (n : Int) then (n : Int) - 1 else b

/-- `histogram_log_counts_and_edges`, shared_computation_functions.py:102-151 (with
`histogram_log_counts`, 154-194, inlined). -/
noncomputable def logCountsEdges (ss : Search) (d : List ℝ) (n : Nat) : M (List Nat × List X) :=
  if n = 1 then .ok ([d.length], [fin (amin d), fin (amax d)])
  else
    let e := logspace (xmin (d.map log10)) (xmax (d.map log10)) n
    match bincount (d.map fun x => guardIdx n (ss e x)) 0 with
    | some c => .ok (c, e)
    | none => .error .valueError

/-- `edges[1:] - edges[:-1]`, e.g. numpy_iterator_jacky.py:156-158; `daxpy(…, -1.0)`, blas_jacky.py:438-440;
cython_compute_bin_widths. -/
noncomputable def widthsX (e : List X) : List X := List.zipWith (fun lo hi => sub hi lo) e e.tail

/-- The per-module functions of the four entry points. -/
structure LogBackend where
  /-- conversion factor from the counts, the number of points, the number of bins and alpha -/
  conv : List Nat → Nat → Nat → ℝ → X
  /-- likelihood from counts, widths, alpha and factor -/
  like : List Nat → List X → ℝ → X → M X
  /-- normalisation from the counts, the number of numbers, the length of the data, the widths -/
  norm : Opts → List Nat → Nat → Nat → List X → M (List X)

/-- One term, `count * log((count + alpha - 1) / (factor * width))`. -/
noncomputable def termL (α : ℝ) (k : X) (c : Nat) (w : X) : X := term c w α k

/-- `_compute_jacky_log_scale`, numpy_iterator_jacky.py:131-162: `np.vdot` needs equal lengths. -/
noncomputable def likeIterLog (cs : List Nat) (ws : List X) (α : ℝ) (k : X) : M X :=
  if cs.length = ws.length then
    .ok (sum (List.zipWith (fun (c : Nat) w =>
      mul (fin c) (log (div (fin ((c : ℝ) + (α - 1))) (mul w k)))) cs ws))
  else .error .valueError

/-- Elementwise combination with broadcasting of a one-element first argument. -/
def broadcast {A B C : Type} (f : A → B → C) (as : List A) (bs : List B) : M (List C) :=
  if as.length = bs.length then .ok (List.zipWith f as bs)
  else match as with
    | [a] => .ok (bs.map (f a))
    | _ => .error .valueError

/-- The iterator version: numpy_iterator_jacky.py:77-96, 131-162, 165-204, 710-739. -/
noncomputable def iterLog : LogBackend where
  conv := fun _ N n α => fin (convNumpy N n α)
  like := likeIterLog
  norm := fun o cs N _ ws =>
    if o.prob then .ok (cs.map fun (c : Nat) => div (fin c) (fin N))
    else if o.dens then broadcast (fun (c : Nat) w => div (fin c) (mul (fin N) w)) cs ws
    else .ok (cs.map fun (c : Nat) => fin c)

/-- cython: cython_jacky_jacky.pyx:35-51, 76-97, cython_jacky_empirical_probability_hist.pyx,
cython_jacky_empirical_density_hist.pyx:99-104, 137-142 (loops over the counts), cy_jacky.py:647-653,
681-746. -/
noncomputable def cythonLog : LogBackend where
  conv := fun cs _ _ α => fin (convCythonNoLoop cs.length α)
  like := fun cs ws α k => .ok (sum (List.zipWith (termL α k) cs ws))
  norm := fun o cs N _ ws =>
    if o.prob then .ok (cs.map fun (c : Nat) => div (fin c) (fin N))
    else if o.dens then .ok (List.zipWith (fun (c : Nat) w => div (fin c) (mul (fin N) w)) cs ws)
    else .ok (cs.map fun (c : Nat) => fin c)

/-- numexpr: numexpr_jacky.py:311-334, 372-405, 742-789; the divisor is the length of the data with NaN. -/
noncomputable def numexprLog : LogBackend where
  conv := fun cs _ _ α => fin (convNumexpr (cs.map fun (n : Nat) => (n : ℝ)) α)
  like := fun cs ws α k => (broadcast (termL α k) cs ws).map sum
  norm := fun o cs _ L ws =>
    if o.prob then .ok (cs.map fun (c : Nat) => div (fin c) (fin L))
    else if o.dens then broadcast (fun (c : Nat) w => div (fin c) (mul (fin L) w)) cs ws
    else .ok (cs.map fun (c : Nat) => fin c)

/-- `_my_jacky_log_scale`, blas_jacky.py:413-447; `ddot` sums over the length of the first argument, so
after broadcasting a single count only the first width counts. -/
noncomputable def likeBlasLog (cs : List Nat) (ws : List X) (α : ℝ) (k : X) : M X :=
  if cs.length = ws.length ∨ cs.length = 1 then
    .ok (sum (List.zipWith (fun (c : Nat) w =>
      mul (fin c) (log (div (mul (div (fin 1) k) (fin ((c : ℝ) + (α - 1)))) w))) cs ws))
  else .error .valueError

/-- blas: blas_jacky.py:97-220 with `log_bins`, 360-377, 413-447, 788-811.  The density divides by
`dscal(1.0 / (N * widths), counts)`: the wrapper converts an array given for the scalar to its first entry. -/
noncomputable def blasLog : LogBackend where
  conv := fun cs _ _ α => fin (convBlas (cs.map fun (n : Nat) => (n : ℝ)) α)
  like := likeBlasLog
  norm := fun o cs N _ ws =>
    if o.prob then .ok (cs.map fun (c : Nat) => mul (div (fin 1) (fin N)) (fin c))
    else if o.dens then match ws with
      | [] => .error .indexError
      | w :: _ => .ok (cs.map fun (c : Nat) => mul (div (fin 1) (mul (fin N) w)) (fin c))
    else .ok (cs.map fun (c : Nat) => fin c)

/-- Counts and likelihood of one combination: numpy_iterator_jacky.py:656-689, cy_jacky.py:635-660,
numexpr_jacky.py:691-721, blas_jacky.py:737-772. -/
noncomputable def evalLog (B : LogBackend) (ss : Search) (d : List ℝ) (c : ℝ × Nat) : M (X × X × Nat) :=
  (logCountsEdges ss d c.2).bind fun h =>
    (B.like h.1 (widthsX h.2) c.1 (B.conv h.1 d.length c.2 c.1)).map fun l => (l, fin c.1, c.2)

/-- The last part: the histogram of the chosen combination, numpy_iterator_jacky.py:697-739,
cy_jacky.py:668-746, numexpr_jacky.py:729-789, blas_jacky.py:781-811. -/
noncomputable def finishLog (B : LogBackend) (ss : Search) (o : Opts) (d : List ℝ) (len : Nat) (s : X × Nat) :
    M Ret :=
  (logCountsEdges ss d s.2).bind fun h =>
    (B.norm o h.1 d.length len (widthsX h.2)).map fun b =>
      ⟨some b, some h.2, some (.arr (widthsX h.2)), binningParams o s⟩

/-- The body of the four entry points for given combinations. -/
noncomputable def runLog (B : LogBackend) (ss : Search) (o : Opts) (len : Nat) (d : List ℝ)
    (cs : List (ℝ × Nat)) : M Ret :=
  if o.negative then .ok Ret.none
  else (searchLoop (nan, 0) cs (evalLog B ss d)).bind (finishLog B ss o d len)

/-- `hogg_jackknife_likelihood_iterator_log` (numpy_iterator_jacky.py:558-739),
`hogg_jackknife_likelihood_cython_log` (cy_jacky.py:513-746),
`hogg_jackknife_likelihood_numexpr_log` (numexpr_jacky.py:591-789). -/
noncomputable def likelihoodLog (B : LogBackend) (ss : Search) (data : Option (List (Option ℝ)))
    (alphas : Option (List ℝ)) (bins : Option (List Nat)) (o : Opts) : M Ret :=
  front data alphas bins o fun d as bs => runLog B ss o (data.getD []).length d (combos2 as bs)

/-- `hogg_jackknife_likelihood_blas_log`, blas_jacky.py:633-811: the phases only repeat combinations
(`histogram_log_counts` ignores the phase). -/
noncomputable def likelihoodBlasLog (ss : Search) (data : Option (List (Option ℝ)))
    (alphas : Option (List ℝ)) (bins : Option (List Nat)) (phases : List ℝ) (o : Opts) : M Ret :=
  front data alphas bins o fun d as bs =>
    runLog blasLog ss o (data.getD []).length d ((combos3 as bs phases).map fun c => (c.1, c.2.1))

end Verif.Jacky
