import Verif.Common
import Mathlib.Algebra.Order.Field.Basic
import Mathlib.Algebra.Order.Floor.Ring
import Mathlib.Algebra.BigOperators.Group.List.Basic
import Mathlib.Data.EReal.Basic
/-!
# Model of `histogram_maker/hogg_jacky`

Simplification: `float64` is an exact linearly ordered field `K` (with floor); NaNs are removed before
binning by the code and only appear here where they matter (`Option`).  `none` models an uncaught exception
or `sys.exit()`.
-/
namespace Verif.Hist

variable {K : Type} [Field K] [LinearOrder K]

/-- `np.searchsorted(edges, x, side='left')` on sorted edges: the number of leading edges below `x`. -/
def searchLeft (edges : List K) (x : K) : Nat := (edges.takeWhile (fun e => decide (e < x))).length

/-- Bin index of one point, shared_computation_functions.py:179-186. -/
def binLog (edges : List K) (x : K) : Int :=
  let bin_nr : Int := (edges.length : Int) - 1
  let b : Int := (searchLeft edges x : Int) - 1
  let b := if b = -1 then 0 else b
  if b = bin_nr then bin_nr - 1 else b

/-- One more than the largest index (0 for an empty list). -/
def top (idx : List Int) : Nat := idx.foldr (fun i a => max (i.toNat + 1) a) 0

/-- `np.bincount(idx, minlength=minl)`: raises on negative entries; the result is as long as needed for
the largest entry and at least `minl`. -/
def bincount (idx : List Int) (minl : Nat) : Option (List Nat) :=
  if idx.any (fun i => decide (i < 0)) then none
  else some (tab (max minl (top idx)) (fun i => idx.count (i : Int)))

/-- `histogram_log_counts`, shared_computation_functions.py:154-194. -/
def histLogCounts (data edges : List K) (minl : Nat) : Option (List Nat) :=
  bincount (data.map (binLog edges)) minl

/-- `histogram_log_counts_and_edges`, shared_computation_functions.py:102-151; `logspace` is
`np.logspace(log10 min, log10 max, bin_nr + 1)`, not modelled further; `mn`, `mx` are min and max. -/
def histLogCountsAndEdges (data logspace : List K) (mn mx : K) (bin_nr minl : Nat) :
    Option (List Nat × List K) :=
  if bin_nr = 1 then some ([data.length], [mn, mx])
  else (histLogCounts data logspace minl).map fun c => (c, logspace)

/-- Elementwise `a / b` of two arrays with numpy broadcasting; `none` is a broadcasting error. -/
def bdiv (a b : List K) : Option (List K) :=
  if a.length = b.length then some (List.zipWith (· / ·) a b)
  else match a, b with
    | [x], _ => some (b.map (fun y => x / y))
    | _, [y] => some (a.map (fun x => x / y))
    | _, _ => none

/-- `my_bin_edges[1:] - my_bin_edges[:-1]`, shared_computation_functions.py:258 (also
`cython_compute_bin_widths`, cython_jacky_bin_widths.pyx:21-37, 44-60). -/
def widths (edges : List K) : List K := List.zipWith (· - ·) edges.tail edges.dropLast

/-- `empirical_probability_histogram_log_counts`, shared_computation_functions.py:197-230. -/
def probLog (data edges : List K) (minl : Nat) : Option (List K) :=
  (histLogCounts data edges minl).map fun c => c.map (fun (n : Nat) => (n : K) / (data.length : K))

/-- `empirical_density_histogram_log_counts`, shared_computation_functions.py:233-268. -/
def densLog (data edges : List K) (minl : Nat) : Option (List K) := do
  let p ← probLog data edges minl
  bdiv p (widths edges)

/-- `_cython_variable_bw_empirical_density_hist_int` (serial or `prange`: independent iterations),
cython_jacky_empirical_density_hist.pyx:99-104, 137-142, as used by `histogram_cython_log_spec_edges`
(cy_jacky.py:842-918): an in-place loop over the *count* array.  `none`: an edge read out of bounds. -/
def densLogCython (data edges : List K) (minl : Nat) : Option (List K) := do
  let c ← histLogCounts data edges minl
  (List.range c.length).mapM fun i => do
    let n : Nat ← c[i]?
    let hi ← edges[i + 1]?
    let lo ← edges[i]?
    pure ((n : K) / ((data.length : K) * (hi - lo)))

/-- Probability histogram of `log_histogram_likelihood_numexpr`, numexpr_jacky.py:673-676 and 742-752:
the NaNs are removed before counting but the divisor is the length of the *original* data. -/
def probNumexprLog (data : List (Option K)) (edges : List K) (minl : Nat) : Option (List K) :=
  (histLogCounts (data.filterMap id) edges minl).map fun c =>
    c.map (fun (n : Nat) => (n : K) / (data.length : K))

/-- `_get_empirical_probability_histogram`, numpy_iterator_jacky.py:165-182. -/
def probNumpy (counts : List Nat) (n : Nat) : List K := counts.map (fun (c : Nat) => (c : K) / (n : K))

/-- `_get_empirical_density_histogram`, numpy_iterator_jacky.py:185-204, with a scalar width. -/
def densNumpy (counts : List Nat) (n : Nat) (bw : K) : List K :=
  counts.map (fun (c : Nat) => (c : K) / ((n : K) * bw))

/-! ### Equal-width binning -/

section floor
variable [IsStrictOrderedRing K] [FloorRing K]

/-- `_cython_binning_serial_loop` / `_parallel_loop`, cython_jacky_binning.pyx:30-35, 80-85, per point. -/
def idxCython (mn w φ x : K) : Int := ⌊(x - mn) / w - φ⌋

/-- `_numexpr_binning`, numexpr_jacky.py:236-284: `astype(int32)` truncates towards zero. -/
def idxNumexpr (mn w φ x : K) : Int :=
  let y := (x - mn) / w - φ
  if 0 ≤ y then ⌊y⌋ else ⌈y⌉

/-- `_blas_binning`, blas_jacky.py:285-333: `daxpy(x - min, φ, n, 1/w)` is `(x - min)·(1/w) + φ`. -/
def idxBlas (mn w φ x : K) : Int := ⌊1 / w * (x - mn) + φ⌋

end floor

/-- `_cython_histogram_counts` (cy_jacky.py:205-281), `_numexpr_histogram_counts` (numexpr_jacky.py:174-233),
`_blas_histogram_counts` (blas_jacky.py:223-282) for a given per-point index function.
`forgiven` is the position `np.argmax(my_data)` (cython, numexpr) or `np.argmin(my_data)` (blas). -/
def countsWith (idx : K → Int) (data : List K) (nr_bins minl : Nat) (additional_checks : Bool)
    (forgiven : Nat) : Option (List Nat) :=
  if nr_bins = 1 then some [data.length]
  else
    let r := data.map (fun x => let b := idx x; if b = (nr_bins : Int) then (nr_bins : Int) - 1 else b)
    if additional_checks && r.any (fun i => decide (i < 0)) then
      if r.countP (fun i => decide (i < 0)) = 1 ∧ (∃ i, r[forgiven]? = some i ∧ i < 0) then
        bincount (r.map (fun i => if i < 0 then 0 else i)) minl
      else none
    else bincount r minl

/-! ### Likelihoods; `lg` is the logarithm, left uninterpreted -/

/-- `_compute_empirical_probability_conversion_factor`, numpy_iterator_jacky.py:77-96. -/
def convNumpy (nData nBins : Nat) (α : K) : K := (nData : K) - 1 + (nBins : K) * α
/-- `cython_empirical_probability_conversion_no_loop`, cython_jacky_empirical_probability_conversion_factor.pyx:9-15;
the callers pass the number of bins (cy_jacky.py:454-456, 647-649). -/
def convCythonNoLoop (viewSize : Nat) (α : K) : K := (viewSize : K) * (1 + α) - 1
/-- `cython_empirical_probability_conversion_serial_loop` (and parallel),
cython_jacky_empirical_probability_conversion_factor.pyx:22-61. -/
def convCythonLoop (counts : List K) (α : K) : K := counts.foldl (fun a n => a + (n + α)) 0 - 1
/-- `_numexpr_empirical_probability_conversion_factor`, numexpr_jacky.py:311-334. -/
def convNumexpr (counts : List K) (α : K) : K := (counts.map (fun n => n + α)).sum - 1
/-- `_blas_empirical_probability_conversion_factor`, blas_jacky.py:360-377: `dasum` sums absolute values. -/
def convBlas (counts : List K) (α : K) : K := (counts.map (fun n => |n + α|)).sum - 1

/-- `_compute_jacky`, numpy_iterator_jacky.py:99-128. -/
def jackyNumpy (lg : K → K) (counts : List K) (w α k : K) : K :=
  (List.zipWith (· * ·) counts (counts.map (fun n => lg ((n + α - 1) / (k * w))))).sum
/-- `_cython_jacky_serial_loop` / `_parallel_loop`, cython_jacky_jacky.pyx:12-28, 58-74. -/
def jackyCython (lg : K → K) (counts : List K) (α w k : K) : K :=
  counts.foldl (fun a n => a + n * lg ((n + α - 1) / (k * w))) 0
/-- `_numexpr_jacky`, numexpr_jacky.py:337-369. -/
def jackyNumexpr (lg : K → K) (counts : List K) (w α k : K) : K :=
  (counts.map (fun n => n * lg ((n + α - 1) / (k * w)))).sum
/-- `_my_jacky`, blas_jacky.py:380-410. -/
def jackyBlas (lg : K → K) (counts : List K) (w α k : K) : K :=
  (List.zipWith (· * ·) counts (counts.map (fun n => lg (1 / (k * w) * (n + (α - 1)))))).sum

/-- `_compute_jacky_log_scale`, numpy_iterator_jacky.py:131-162. -/
def jackyLogNumpy (lg : K → K) (counts edges : List K) (α k : K) : K :=
  (List.zipWith (· * ·) counts
    (List.zipWith (fun n w => lg ((n + (α - 1)) / (w * k))) counts (widths edges))).sum
/-- `_cython_variable_bw_jacky_serial_loop` / `_parallel_loop`, cython_jacky_jacky.pyx:35-51, 81-97
(`prange` with a `+` reduction; over an exact field the order is irrelevant). -/
def jackyLogCython (lg : K → K) (counts edges : List K) (α k : K) : Option K :=
  (List.range counts.length).foldlM (fun a d => do
    let n ← counts[d]?
    let hi ← edges[d + 1]?
    let lo ← edges[d]?
    pure (a + n * lg ((n + α - 1) / (k * (hi - lo))))) 0
/-- `_my_jacky_log_scale`, blas_jacky.py:413-447. -/
def jackyLogBlas (lg : K → K) (counts edges : List K) (α k : K) : K :=
  (List.zipWith (· * ·) counts
    (List.zipWith (fun n w => lg (1 / k * (n + (α - 1)) / w)) counts (widths edges))).sum
/-- `_numexpr_jacky_log`, numexpr_jacky.py:372-405. -/
def jackyLogNumexpr (lg : K → K) (counts edges : List K) (α k : K) : K :=
  (List.zipWith (fun n w => n * lg ((n + α - 1) / (k * w))) counts (widths edges)).sum

/-! ### The search -/

/-- `np.argmax` of a non-empty array without NaNs: the loop keeps the first largest entry. -/
noncomputable def argmax (vs : List EReal) : Nat :=
  (vs.zipIdx.foldl (fun (b : EReal × Nat) (p : EReal × Nat) => if b.1 < p.1 then p else b)
    (vs.headD ⊥, 0)).2

open Classical in
/-- Search of `hogg_jackknife_likelihood_numpy`, numpy_iterator_jacky.py:303-341: all likelihoods, then
`np.nanargmax` (which replaces NaN by `-inf`, and raises if every entry is NaN or there is none). -/
noncomputable def searchNumpy {A : Type} (combos : List A) (L : A → Option EReal) : Option A :=
  if ∀ c ∈ combos, L c = none then none
  else combos[argmax (combos.map (fun c => (L c).getD ⊥))]?

open Classical in
/-- Search of `hogg_jackknife_likelihood_iterator`, numpy_iterator_jacky.py:473-515 (the same loop as in the
cython, numexpr and blas versions): running maximum from `-inf`, strict comparison (false for NaN). -/
noncomputable def searchIter {A : Type} (combos : List A) (L : A → Option EReal) (dflt : A) : A :=
  (combos.foldl (fun (b : EReal × A) c => match L c with
    | some v => if b.1 < v then (v, c) else b
    | none => b) (⊥, dflt)).2

end Verif.Hist
