import Verif.Jacky.Ieee
import Verif.Hist.Model
/-!
# Model of the histogram entry points with equal bin widths

`histogram_likelihood_numpy`, `_iter`, `_cython`, `_numexpr`, `_blas` and the `*_spec_width` functions of
`histogram_maker/hogg_jacky` (names as exported by `hogg_jacky/__init__.py`).  Simplifications: data are
`float64` arrays whose entries are finite or NaN (`none`); bin numbers are natural numbers; `np.product`
exists (NumPy < 2); printing has no effect, but a call with a keyword that the printing function does not
have raises.
-/
namespace Verif.Jacky
open Verif.Hist X
open Classical

/-- The exceptions that leave the entry points. -/
inductive Err where
  | sysExit | typeError | valueError | indexError
  deriving DecidableEq

/-- A Python call: a value or an exception. -/
abbrev M := Except Err

/-- The options of the entry points; `checks` is `additional_checks`, `params` is
`return_binning_parameters`, `negative` is `negative_values` (log-scale functions only), `custom` is
`custom_bin_width`. -/
structure Opts where
  verbose : Bool
  prob : Bool
  dens : Bool
  checks : Bool
  params : Bool
  negative : Bool
  custom : List ℝ

/-- The default options, numpy_iterator_jacky.py:207-216 (and likewise in the other modules). -/
def Opts.default : Opts := ⟨false, true, false, false, false, false, [1]⟩

/-- The third returned value: one width, or an array of widths. -/
inductive Width where
  | scalar (w : X)
  | arr (ws : List X)

/-- The dictionary of `handle_return_binning_parameters`, shared_handling_functions.py:42-71. -/
structure Params where
  alpha : X
  nrBins : Nat
  phase : X

/-- The returned 4-tuple (or 3-tuple of the inner functions); every component may be `None`. -/
structure Ret where
  hist : Option (List X)
  edges : Option (List X)
  width : Option Width
  params : Option Params

/-- `None, None, None, None`. -/
def Ret.none : Ret := ⟨Option.none, Option.none, Option.none, Option.none⟩

/-! ### Shared functions -/

/-- `my_data.min()` of a non-empty array. -/
noncomputable def amin (d : List ℝ) : ℝ := d.foldl min (d.headD 0)
/-- `my_data.max()` of a non-empty array. -/
noncomputable def amax (d : List ℝ) : ℝ := d.foldl max (d.headD 0)
/-- `np.argmin(my_data)`. -/
noncomputable def argmin (d : List ℝ) : Nat := d.findIdx (fun x => decide (x = amin d))
/-- `np.argmax(my_data)`. -/
noncomputable def argmaxD (d : List ℝ) : Nat := d.findIdx (fun x => decide (x = amax d))

/-- `get_peak_to_peak_range`, shared_computation_functions.py:28-41. -/
noncomputable def ptp (d : List ℝ) : ℝ := amax d - amin d

/-- `compute_bin_width`, shared_computation_functions.py:81-96: `ptp / float(n)` of numpy scalars. -/
noncomputable def binWidth (range : ℝ) (n : Nat) : X := div (fin range) (fin n)

/-- `itertools.product(alphas, bin_numbers)`, shared_computation_functions.py:72-74. -/
def combos2 (alphas : List ℝ) (bins : List Nat) : List (ℝ × Nat) :=
  alphas.flatMap fun a => bins.map fun n => (a, n)

/-- `itertools.product(alphas, bin_numbers, bin_phases)`, shared_computation_functions.py:75-76. -/
def combos3 (alphas : List ℝ) (bins : List Nat) (phases : List ℝ) : List (ℝ × Nat × ℝ) :=
  alphas.flatMap fun a => bins.flatMap fun n => phases.map fun p => (a, n, p)

/-- `handle_return_binning_parameters` for the 2-tuples that every caller passes,
shared_handling_functions.py:55-60: the phase of a 2-tuple is 0. -/
def binningParams (o : Opts) (combo : X × Nat) : Option Params :=
  if o.params then some ⟨combo.1, combo.2, fin 0⟩ else Option.none

/-- `np.linspace(a, b, num=n + 1, endpoint=True)`. -/
noncomputable def linspace (a b : ℝ) (n : Nat) : List ℝ :=
  if n = 0 then [a] else tab (n + 1) fun i => a + i * ((b - a) / n)

/-- `np.histogram(data, bins=n)` of a non-empty array: a NaN makes the automatic range non-finite and
`n = 0` is refused (`ValueError` both); equal end points are moved apart by one half each. -/
noncomputable def npHistogram (data : List (Option ℝ)) (n : Nat) : M (List Nat × List ℝ) :=
  if Option.none ∈ data ∨ n = 0 then .error .valueError
  else
    let d := data.filterMap id
    let lo := if amin d = amax d then amin d - 1 / 2 else amin d
    let hi := if amin d = amax d then amax d + 1 / 2 else amax d
    let idx := fun x => let b := ⌊(x - lo) * (n / (hi - lo))⌋
      if b = (n : Int) then (n : Int) - 1 else b
    .ok (tab n fun i => (d.map idx).count (i : Int), linspace lo hi n)

/-- `data.filterMap id`: `retrieve_valued_data`, shared_masking_functions.py:16-31, after `np.isnan`. -/
def valued (data : List (Option ℝ)) : List ℝ := data.filterMap id

/-- The first lines of every entry point: `check_input_data`, `check_data_shape`,
`handle_single_data_point`, the NaN mask (numpy_iterator_jacky.py:254-287, 436-469, cy_jacky.py:378-411,
numexpr_jacky.py:461-494, blas_jacky.py:503-536; shared_check_functions.py:17-64,
shared_handling_functions.py:18-38).  A single data point is returned as counts, with the custom width. -/
noncomputable def front (data : Option (List (Option ℝ))) (alphas : Option (List ℝ))
    (bins : Option (List Nat)) (o : Opts) (rest : List ℝ → List ℝ → List Nat → M Ret) : M Ret :=
  match data, alphas, bins with
  | some d, some as, some bs =>
    if d.length = 0 then .ok Ret.none
    else if d.length = 1 then
      match o.custom with
      | [] => .error .indexError
      | w :: _ => (npHistogram d 1).map fun p =>
          ⟨some (p.1.map fun (c : Nat) => fin c), some (p.2.map fin), some (.scalar (fin w)), Option.none⟩
    else if ∀ x ∈ d, x = Option.none then .ok Ret.none
    else rest (valued d) as bs
  | _, _, _ => .error .sysExit

/-- `custom_bin_width[0]`. -/
def customWidth (o : Opts) : M ℝ := match o.custom with
  | [] => .error .indexError
  | w :: _ => .ok w

/-- One comparison of the search loop, `if likelihood > best`. -/
noncomputable def keepBest {S : Type} (b c : X × S) : X × S := if gt c.1 b.1 then c else b

/-- The search loop over the combinations: running maximum from `-inf`; an exception in an iteration
leaves the loop. -/
noncomputable def searchLoop {A S : Type} (init : S) (cs : List A) (L : A → M (X × S)) : M S :=
  (cs.foldlM (fun b a => (L a).map (keepBest b)) (ninf, init)).map Prod.snd

/-- `_compute_empirical_probability_conversion_factor`, numpy_iterator_jacky.py:77-96. -/
noncomputable def convN (nData nBins : Nat) (α : ℝ) : X := fin (convNumpy nData nBins α)

/-- One term of the likelihood, `count * log((count + alpha - 1) / (factor * width))`. -/
noncomputable def term (c : Nat) (w : X) (α : ℝ) (k : X) : X :=
  mul (fin c) (log (div (fin ((c : ℝ) + α - 1)) (mul k w)))

/-- `_compute_jacky`, numpy_iterator_jacky.py:99-128; also `_cython_jacky_serial_loop` / `_parallel_loop`
(cython_jacky_jacky.pyx:12-28, 58-74) and `_numexpr_jacky` (numexpr_jacky.py:337-369). -/
noncomputable def jacky (counts : List Nat) (w : X) (α : ℝ) (k : X) : X :=
  sum (counts.map fun c => term c w α k)

/-- `_get_empirical_probability_histogram` / `_get_empirical_density_histogram` or the counts,
numpy_iterator_jacky.py:165-204, 359-386, 533-555; the cython in-place loops
(cython_jacky_empirical_probability_hist.pyx:20-24, 52-57, cython_jacky_empirical_density_hist.pyx:20-24,
58-63, called in cy_jacky.py:131-140, 192-201) and the numexpr expressions (numexpr_jacky.py:106-116,
159-170) divide in the same way. -/
noncomputable def normalise (o : Opts) (counts : List Nat) (n : Nat) (w : X) : List X :=
  if o.prob then counts.map fun (c : Nat) => div (fin c) (fin n)
  else if o.dens then counts.map fun (c : Nat) => div (fin c) (mul (fin n) w)
  else counts.map fun (c : Nat) => fin c

/-! ### numpy and iterator -/

/-- Counts and likelihood of one combination, numpy_iterator_jacky.py:308-336, 484-508. -/
noncomputable def evalNumpy (d : List ℝ) (c : ℝ × Nat) : M (X × X × X × Nat) :=
  (npHistogram (d.map some) c.2).map fun h =>
    (jacky h.1 (binWidth (ptp d) c.2) c.1 (convN d.length c.2 c.1), binWidth (ptp d) c.2, fin c.1, c.2)

/-- `np.nanargmax` replaces NaN by `-inf`. -/
def deNan : X → X
  | nan => ninf
  | v => v

/-- `np.nanargmax`: NaN counts as `-inf`; all NaN or no entry: `ValueError`; else the first largest. -/
noncomputable def nanargmax (vs : List X) : M Nat :=
  if ∀ v ∈ vs, v = nan then .error .valueError
  else
    let vs' := vs.map deNan
    .ok (vs'.findIdx fun v => vs'.all fun u => !(gt u v))

/-- The entries at the index of the maximum, numpy_iterator_jacky.py:338-341. -/
noncomputable def pickNumpy {S : Type} (rs : List (X × S)) : M S :=
  (nanargmax (rs.map Prod.fst)).bind fun i => match rs[i]? with
    | some r => .ok r.2
    | Option.none => .error .indexError

/-- The last part of the numpy and iterator entry points, numpy_iterator_jacky.py:343-386, 517-555. -/
noncomputable def finishNumpy (o : Opts) (d : List ℝ) (s : X × X × Nat) : M Ret :=
  if o.verbose then .error .typeError
  else (npHistogram (d.map some) s.2.2).map fun h =>
    ⟨some (normalise o h.1 d.length s.1), some (h.2.map fin), some (.scalar s.1), binningParams o s.2⟩

/-- `hogg_jackknife_likelihood_numpy`, numpy_iterator_jacky.py:207-386.  `verbose`: the keyword
`max_bin_width` does not exist in `print_maximal_values` (line 344-346; shared_log_functions.py:41-45). -/
noncomputable def likelihoodNumpy (data : Option (List (Option ℝ))) (alphas : Option (List ℝ))
    (bins : Option (List Nat)) (o : Opts) : M Ret :=
  front data alphas bins o fun d as bs =>
    ((combos2 as bs).mapM (evalNumpy d)).bind fun rs => (pickNumpy rs).bind (finishNumpy o d)

/-- `hogg_jackknife_likelihood_iterator`, numpy_iterator_jacky.py:389-555. -/
noncomputable def likelihoodIter (data : Option (List (Option ℝ))) (alphas : Option (List ℝ))
    (bins : Option (List Nat)) (o : Opts) : M Ret :=
  front data alphas bins o fun d as bs =>
    (customWidth o).bind fun w0 =>
    (searchLoop (fin w0, fin 1, 1) (combos2 as bs) (evalNumpy d)).bind fun s =>
    finishNumpy o d s

/-! ### cython, numexpr, blas -/

/-- `_cython_binning_serial_loop` / `_parallel_loop`, cython_jacky_binning.pyx:30-35, 80-85. -/
noncomputable def idxCy (mn : ℝ) (w φ : X) (x : ℝ) : Int :=
  toInt (fun r => ⌊r⌋) (sub (div (fin (x - mn)) w) φ)

/-- `_numexpr_binning`, numexpr_jacky.py:236-284: the cast truncates towards zero. -/
noncomputable def idxNe (mn : ℝ) (w φ : X) (x : ℝ) : Int :=
  toInt (fun r => if 0 ≤ r then ⌊r⌋ else ⌈r⌉) (sub (div (fin (x - mn)) w) φ)

/-- `_blas_binning`, blas_jacky.py:285-333: `daxpy` adds the phase. -/
noncomputable def idxBl (mn : ℝ) (w φ : X) (x : ℝ) : Int :=
  toInt (fun r => ⌊r⌋) (add (mul (div (fin 1) w) (fin (x - mn))) φ)

/-- The per-module functions that the three entry points call. -/
structure Backend where
  /-- bin index of a point -/
  idx : ℝ → X → X → ℝ → Int
  /-- the data point whose single negative bin index is forgiven -/
  forgiven : List ℝ → Nat
  /-- conversion factor from counts, number of bins and alpha -/
  conv : List Nat → ℝ → X
  /-- likelihood from counts, width, alpha and factor -/
  like : List Nat → X → ℝ → X → X
  /-- normalisation of the final counts -/
  norm : Opts → List Nat → Nat → X → List X
  /-- the combination before the first improvement -/
  init : X × Nat

/-- cython: cy_jacky.py:205-281 (`argmax`), 416, 454-460;
cython_jacky_empirical_probability_conversion_factor.pyx:9-15. -/
noncomputable def cython : Backend where
  idx := idxCy
  forgiven := argmaxD
  conv := fun c α => fin (convCythonNoLoop c.length α)
  like := jacky
  norm := normalise
  init := (fin 1, 1)

/-- numexpr: numexpr_jacky.py:174-233 (`argmax`), 311-334, 337-369, 499. -/
noncomputable def numexpr : Backend where
  idx := idxNe
  forgiven := argmaxD
  conv := fun c α => fin (convNumexpr (c.map fun (n : Nat) => (n : ℝ)) α)
  like := jacky
  norm := normalise
  init := (fin 1, 1)

/-- `_my_jacky`, blas_jacky.py:380-410: `dscal` by the inverse of the product. -/
noncomputable def jackyBl (counts : List Nat) (w : X) (α : ℝ) (k : X) : X :=
  sum (counts.map fun (c : Nat) =>
    mul (fin c) (log (mul (div (fin 1) (mul k w)) (fin ((c : ℝ) + (α - 1))))))

/-- The scaling of the blas module, blas_jacky.py:149-157, 212-220 (`dscal`). -/
noncomputable def normaliseBl (o : Opts) (counts : List Nat) (n : Nat) (w : X) : List X :=
  if o.prob then counts.map fun (c : Nat) => mul (div (fin 1) (fin n)) (fin c)
  else if o.dens then counts.map fun (c : Nat) => mul (div (fin 1) (mul (fin n) w)) (fin c)
  else counts.map fun (c : Nat) => fin c

/-- blas: blas_jacky.py:223-282 (`argmin`), 360-377, 541. -/
noncomputable def blas : Backend where
  idx := idxBl
  forgiven := argmin
  conv := fun c α => fin (convBlas (c.map fun (n : Nat) => (n : ℝ)) α)
  like := jackyBl
  norm := normaliseBl
  init := (nan, 0)

/-- `_cython_histogram_counts` (cy_jacky.py:205-281), `_numexpr_histogram_counts`
(numexpr_jacky.py:174-233), `_blas_histogram_counts` (blas_jacky.py:223-282): a negative index raises in
`np.bincount`, or exits when `additional_checks` is set. -/
noncomputable def counts (B : Backend) (d : List ℝ) (mn : ℝ) (w φ : X) (n minl : Nat) (checks : Bool) :
    M (List Nat) :=
  match countsWith (B.idx mn w φ) d n minl checks (B.forgiven d) with
  | some c => .ok c
  | Option.none => .error (if checks then .sysExit else .valueError)

/-- `histogram_*`, `empirical_probability_histogram_*`, `empirical_density_histogram_*` with linear bins
(cy_jacky.py:29-201, numexpr_jacky.py:22-170, blas_jacky.py:22-220); the edges span the data. -/
noncomputable def histogramB (B : Backend) (o : Opts) (d : List ℝ) (w : X) (n : Nat) (φ : X) :
    M (List X × List ℝ × X) :=
  (counts B d (amin d) w φ n 0 o.checks).map fun c =>
    (B.norm o c d.length w, linspace (amin d) (amax d) n, w)

/-- Counts and likelihood of one combination, cy_jacky.py:434-460, numexpr_jacky.py:511-541,
blas_jacky.py:553-583. -/
noncomputable def evalB (B : Backend) (o : Opts) (d : List ℝ) (c : ℝ × Nat × ℝ) :
    M (X × X × (X × Nat) × X) :=
  let w := binWidth (ptp d) c.2.1
  (counts B d (amin d) w (fin c.2.2) c.2.1 0 o.checks).map fun cs =>
    (B.like cs w c.1 (B.conv cs c.1), w, (fin c.1, c.2.1), fin c.2.2)

/-- `hogg_jackknife_likelihood_cython` (cy_jacky.py:308-510; `use_parallel` runs the same loops as
`prange`), `hogg_jackknife_likelihood_numexpr` (numexpr_jacky.py:408-588) and
`hogg_jackknife_likelihood_blas` (blas_jacky.py:450-630).  The keyword error when `verbose` is set and the
2-tuple passed to `handle_return_binning_parameters` are as in the code. -/
noncomputable def likelihoodB (B : Backend) (data : Option (List (Option ℝ))) (alphas : Option (List ℝ))
    (bins : Option (List Nat)) (phases : List ℝ) (o : Opts) : M Ret :=
  front data alphas bins o fun d as bs =>
    (customWidth o).bind fun w0 =>
    (searchLoop (fin w0, B.init, nan) (combos3 as bs phases) (evalB B o d)).bind fun s =>
    if o.verbose then .error .typeError
    else (histogramB B o d s.1 s.2.1.2 s.2.2).map fun h =>
      ⟨some h.1, some (h.2.1.map fin), some (.scalar h.2.2), binningParams o s.2.1⟩

/-! ### Histograms with a given width -/

/-- `histogram_spec_width`, numpy_iterator_jacky.py:742-787. -/
noncomputable def specWidthNumpy (data : Option (List (Option ℝ))) (n : Option Nat) (o : Opts) :
    M (Option (List X)) :=
  match n, data with
  | some n, some d =>
    if d.length = 0 then .ok Option.none
    else (npHistogram d n).map fun h =>
      some (normalise o h.1 d.length (sub (fin (h.2.getD 1 0)) (fin (h.2.getD 0 0))))
  | _, _ => .ok Option.none

/-- `histogram_cython_spec_width` (cy_jacky.py:749-839) and `histogram_numexpr_spec_width`
(numexpr_jacky.py:792-867): the counting function is called with the keyword `my_bw`, which it does not
have. -/
def specWidthKw (data : Option (List (Option ℝ))) (w : Option X) : M (Option (List X)) :=
  match w, data with
  | some _, some d => if d.length = 0 then .ok Option.none else .error .typeError
  | _, _ => .ok Option.none

/-- `histogram_blas_spec_width`, blas_jacky.py:814-889, for data without NaN. -/
noncomputable def specWidthBlas (data : Option (List ℝ)) (w : Option X) (n : Nat) (φ : X) (o : Opts)
    (minl : Nat) (mn : Option ℝ) : M (Option (List X)) :=
  match w, data with
  | some w, some d =>
    if d.length = 0 then .ok Option.none
    else (counts blas d (mn.getD (amin d)) w φ n minl o.checks).map fun c =>
      some (normaliseBl o c d.length w)
  | _, _ => .ok Option.none

end Verif.Jacky
