# Formal model of JVB11/AESolver in Lean 4 — design

## Layout

* `properties.jsonl` – the English properties (C01…).
* `lean/Verif/<Area>/Model.lean` – the model: small total functions, each citing the file and lines it models.
* `lean/Verif/<Area>/Spec.lean` (where needed) – a small specification that does not use the model's helpers.
* `lean/Verif/<Area>/Lemmas.lean` – helper lemmas.
* `lean/Verif/<Area>/Props.lean` – the property theorems (named `Cxx_…`), each followed by a
  non-vacuity `example`.
* `MANIFEST.json` – property → theorem names and status. `seeded/LOG.jsonl` – mutation experiments.

## Trusted base

* Lean 4.33.0 kernel; axioms used by any theorem: at most `propext`, `Classical.choice`, `Quot.sound`
  (printed by `#print axioms`, and checked by `vcheck`). No own axioms, no compiled evaluation.
* The reading of the code: the model is written by hand from `/repo`; nothing is extracted or run.
* C++/Cython/Fortran: buffers are lists, an access outside a buffer is the distinct outcome `none` (undefined
  behaviour). Machine `int` is unbounded `Int` (array sizes above 2^31 are outside the model).
* Floating point: where a theorem needs arithmetic laws, numbers are elements of a field / of ℝ (exact
  arithmetic). Rounding, NaN and infinities are NOT modelled there; theorems about bit-identity
  (thread independence, serial = parallel, fallbacks) are over an arbitrary type with uninterpreted
  operations, so they hold for IEEE doubles too.
* OpenMP: a `parallel for` is modelled as every possible assignment/ordering of iterations; racy code is modelled
  with atomic loads/stores of single variables interleaved arbitrarily.
* numpy / scipy / h5py / shlex / re / itertools: modelled only in the contract used here, each stated in the
  doc comment of the definition (e.g. `itertools.combinations` = position-ordered pairs, Python `set`
  iteration order = arbitrary permutation given as a parameter).
* Not modelled at all: plotting, logging, GYRE/MESA file reading, tqdm/argparse, eigenvalue solvers
  (`np.linalg.eig`; theorems hold for every output of the solver), physical content of stellar profiles (theorems
  take the equations of stellar structure and of oscillations as hypotheses, spelled out in a specification).

## What is modelled

| area (`lean/Verif/…`) | code |
|---|---|
| NumInt, Disc, Ld | C++ integrators, disc integrals, limb darkening (`num-tools/num_integrator`, `disc_integration`, `ld_funcs`) |
| Fornberg, NumDeriv | Fortran `fdcoef`/`grid_derivative`; `num_deriv.py`, `stencils.py`, `_compute_der` |
| Pairing, Combos, InputGen, PreCheck | pairing functions, combination generators, `aesolver/pre_checks`, mode-combination input |
| Stab, Freq | `aesolver/solver`, stability conditions, stationary amplitudes, frequency handler and unit conversion |
| Hist, Mask | histogram/likelihood tools, plot masks, isolation and luminosity cuts |
| Norm, Coupling, AngInt | eigenfunction normaliser, coupling coefficient terms, symmetrisation, mode norms/energies, angular integrals; radial integrals, norms and energies also for complex radial functions (the symmetrised sums and the profiles for real ones only) |
| Cheby, Hough | Chebyshev matrices, Hough functions and their derivative profiles, azimuthal convention, the arrays the coupling coefficient stores for its modes |
| Radial, Struct, Poly | radial vectors/gradients/divergence, structure derivatives, analytic polytropes |
| Assemble | construction of the coefficient object from dictionaries: extraction, interpolation to one grid, structure profiles, scales, cuts; the analytic polytropes with their dictionary from the loader |
| Tar | `get_masking_info_tar_validity`, the adjusted coupling coefficient and profile of `plot_template.py`, the printed adjusted amplitudes (figures not modelled) |
| Kernels | `AngularKernelHelper`, `RadialKernelHelper`: legends, kernel rows, declared factors (plots and label strings are in ProfRun) |
| ProfRun | profile runs: term-by-term profiles and their adjusted values, figure files and their paths, the kernel figures with curves, panels, legends and titles as strings (line styles, fonts, axis labels and the drawing itself not modelled) |
| Post | post-processing of saved triads by analyzer and plotter: loading, derived columns, masks per model, counts, sharpness data, mirroring, the point clouds and legend of the overview figure (`overview_plot`; other plots, axes, tables and printing not modelled; NaN and infinities are one missing value) |
| Runner | the three run scripts: command lines, search of the inlist, parser classes, option tables, calls of solver and saver (the computations themselves, argparse abbreviations, symbolic links and logging output not modelled) |
| Load | conversion of units and dimensional quantities of loaded data, reading of known names, directories of the loader and their inference, information folders in TOML and in the older format (`shlex` tokenizers; `ast.literal_eval` for quoted texts and bracketed lists of them, open otherwise), arguments of the loaders made by solvers and comparer (HDF5 and table parsing, floating-point rounding not modelled; `none` is any exception or exit) |
| Comparer | the figures of `ad_nad_comparer` (`comparer.py` 128-327, `plotting/*.py`): mass coordinates, curves, labels, limits, legends, titles, exceptions (fonts, ticks, layout not) |
| Poll | `input_user/user_poller.py` (called by no other code): the loop, printed messages and exceptions; the external package `simple_poller` gives an arbitrary answer; digits and white space beyond ASCII are not modelled |
| Figs | the scripts `dziembowski_subplot.py` and `compute_threshold_theta.py`: stability domains, grids, chosen points, regression (`np.argpartition` as a relation, `scipy.stats.linregress` by its formulas; drawing not modelled but for the cells of `imshow`) |
| Round | the C++ integrators, limb-darkening law and disc integrals (same models as NumInt, Ld, Disc) executed with rounded real arithmetic: after each operation any function with relative error at most u; no overflow or underflow |
| Jacky | the entry points of `histogram_maker/hogg_jacky` with equal bin widths (five automatic functions, four given-width functions): real arithmetic with NaN and the infinities (type `X`; zero has no sign), data finite or NaN, natural bin numbers; `np.product` exists (NumPy < 2, otherwise every automatic function raises); casting NaN or an infinity to int32 gives the most negative integer; `verbose` only matters through the keyword error.  The four log-scale functions (`LogModel`): `np.searchsorted` is a parameter specified on increasing numbers and bounded by the length otherwise; an array passed as the scalar of `dscal` counts as its first entry; printing is not modelled.  The sharpness figure (`SharpModel`): values finite or NaN (NaN sorts last in `searchsorted`), bars as pairs of midpoint and height; colours, labels and axes are not modelled |
| Inlist, Opts | inlist tokenizer and typing, TOML conversion, nested option lookup, command-line inlist names |
| Debug | debug records of a coupling object: making, filling up, printing (real arrays; the records of the loaded mode data and of the radial vectors, which use the same function, are not listed one by one) |
| Cmp | `pytest-util-tools`: comparison and assertion helpers of the tests (finite exact numbers, arrays of one dimension, no nested containers; an array against something else is not modelled) |
| Store, Grid, Select | HDF5 saving/loading (also over an earlier file, in each open mode) and file names, grid loop and surface fluxes, mode/profile file selection, TAR file names |

The line ranges are cited definition by definition in the `Model.lean` files. Code not listed is not modelled; in
particular `/repo`'s plotting classes beyond their masks, the GYRE inlist writer, loggers and progress bars.

## Per-property plan

| id | modelled | proof idea |
|----|----------|-----------|
| C01 | `trapz()` loop over buffers with checked reads | loop = Finset sum; telescoping |
| C02 | both branches of `trapz()` | sum manipulation; point-mass integrand for the converse |
| C03 | `simpson()` | induction on the number of panels |
| C04 | ctor + global `unordered_map` with inserting `operator[]` | invariant over all call histories |
| C05 | all reads checked, `none` = UB | case analysis, loop success lemma |
| C06 | `integrate()` over an uninterpreted scalar type | case analysis |
| C07 | reduction as arbitrary partition+order; shared temporaries as small-step interleavings | permutation invariance of sums; for the unequal-spacing version the exact set of right interleavings (independence of the products of increments and sums), and a wrong interleaving of every schedule with two busy threads (NumInt/Race.lean) |
| C08 | `adjust_data_to_integration_length` | list induction, agreement on kept indices |
| C09 | element-wise loops as writes in arbitrary order | fold over a permutation of disjoint writes |
| C10 | `perform_integration` with flag `true` | reuse C02; refutation on an uneven grid, `_partial` on uniform grids |
| C11 | checked reads/writes | case analysis |
| C12 | `compute` incl. switch fall-through, disjoint buffers | order-independence of disjoint writes, idempotence |
| C13 | the same with one aliased buffer | refutation (fall-through applies the law twice) |
| C14 | `fdcoef` recursion | induction over nodes with Newton/Lagrange recursion on polynomials |
| C15 | `grid_derivative` | reduce to C14 with window arithmetic |
| C16 | index arithmetic of all three loops, declared bounds | omega; refutation for accuracy 20 / order 8 |
| C17–C19 | pairing functions on ℕ/ℤ with integer square root | triangular-number arithmetic; refutation of the diagonal inverse |
| C20–C22 | `itertools` enumerations, set difference with arbitrary iteration order | list lemmas, inclusion–exclusion; refutation for orientation mismatch |
| C23–C24 | polynomial conditions, Jacobian in log amplitudes, Routh–Hurwitz determinants | ring identities, ordered-field reasoning |
| C25 | 4×4 matrix of the checker | determinant identity; refutation |
| C26 | amplitude formulas in ℝ | field identities with `Real.sqrt`, `arctan` |
| C27 | rule functions, mode-number indexing | case analysis; refutation outside permutations of (1,2,3) |
| C28 | generator | reuse C20/C22 |
| C29–C31 | unit tables and converters over ℝ | table case analysis, field identities; refutations for the faulty branch |
| C32–C35 | binning, likelihoods, argmax searches | list/Finset induction |
| C36–C38 | masks as list functions | Boolean algebra, minima over lists |
| C39 | normaliser as state machine over abstract energies | quadratic scaling; induction over iterations |
| C40–C43 | dictionary merges, literal typing, TOML trees, path lookup | structural induction |
| C44–C47 | Chebyshev matrices, Hough coefficients, quadrature over ℝ | HasDerivAt, matrix algebra, trigonometric sums |
| C48–C50 | angular integral driver, symmetrisation over permutations | case analysis, sum over S3 |
| C51 | HDF5 file as finite map path → dataset | case analysis |
| C52 | name patterns with greedy matching | list-of-char reasoning |
| C53 | `_sgnval` | string computation; refutation for negatives |
| C54–C55 | two-mode check and critical amplitude over ℝ | ordered-field reasoning; swapped fraction refutes soundness |
| C56 | equal-width binning variants with phase | floor arithmetic; refutations at phases in (0,1) |
| C57–C58 | threshold comparison, luminosity cut | list minima; exact characterisation + counterexample |
| C59–C61 | defaults path, quoted strings, inlist format as character lists | induction over characters |
| C62–C63 | tidal operator matrix, eigenpair selection for any solver output | matrix algebra on polynomials; argmin lemmas |
| C64 | Chebyshev–Gauss option | node arithmetic shows points outside the grid |
| C65–C68 | full coefficient (four terms) over ℂ | permutation invariance, multilinearity, selection rule |
| C69–C70 | norms, energies, conjugation setting | compare with the volume integral spec |
| C71–C73 | HDF5 store as finite map, save/load names | induction over writes, string lemmas |
| C74–C76 | grid loop over triads with surface fluxes | loop = map; ring identities |
| C77–C78 | MESA selection, loading order | regex on character lists, list induction |
| C79–C83 | polytropes as samples of exact Lane–Emden solutions | HasDerivAt from the Lane–Emden equation |
| C84 | coefficient vs. published volume integral (spec: spherical gradient) | termwise identities |
| C85 | azimuthal convention of angular arrays | exact iff-characterisation |
| C86–C87 | radial vectors, gradients, divergence; spec: oscillation equations | HasDerivAt algebra |
| C88 | structure derivatives; spec: hydrostatic star | HasDerivAt |
| C89–C91 | numerical differentiator | divided differences; set counting for the interpolation option |
| C92–C93 | chain from mode files to normalised coefficient | composition of the earlier models; rescaling invariance |
| C94–C97 | dictionaries → attributes of the coefficient object (interpolation, profiles, cuts) | induction over dictionary items; piecewise-linear spec with uniqueness |
| C98–C102 | TAR masks as lists of slices over an arbitrary boolean profile; adjusted coefficient, profile and printed numbers | recursion on runs of the profile, sums over runs, loop invariants of masked assignment |
| C103–C105 | kernel helpers as tables of terms over the sampled object of the coupling model; recombination against the energy density | table evaluation, permutation sums, ring identities; counterexample scenes |
| C106–C115 | one row of a saved file as a record of reals with missing values; columns computed by row functions; masks of C36 applied to these rows | real identities, case analysis on flags, list inductions; counterexample rows |
| C116–C124 | run scripts as functions of command line, existing files and inlist documents into an error monad; option tables as data | inversion of the monad, list inductions, exact results of the readers, non-interference; concrete run as counterexample |
| C125–C132 | data dictionaries with real, complex and compound values; tables of units as data; directory listings as a function; documents as in Opts | loops over tables reduced to a formula per name, scaling laws between unit systems, naturality of dictionary operations in the values (the names are computed in the kernel, the values stay arbitrary) |
| C133–C136 | conditions over ℝ, any result of argpartition, regression sums over `Fin n` | reduction to C24; counting; completion of squares, variance of a weighted sum |
| C137–C139 | the generic models instantiated with rounded reals (`FP R`) | error calculus `Err k a x A` by induction on loops and schedules; bounds on panels by repeated integration of a bounded derivative |
| C140–C146 | entry points as functions into `Except`, one shared model of the cython/numexpr/blas drivers with per-module index, factor, likelihood and normalisation | the search loop returns the first maximum; the summed form of the likelihood is rewritten as the leave-one-out sum over the points; concrete evaluation for the refuted parts |
| C147–C149 | the log-scale drivers as functions into `Except`, with per-module factor, likelihood (including broadcasting and `vdot`/`ddot` length rules) and normalisation | edges rewritten as `mn * (mx / mn) ^ (i / n)`; counts from `histogram_log_counts` (C32); the likelihood as a leave-one-out sum; NaN propagation for data that are not positive |
| C150 | the figure data as a function of the two lists of sharpness values | the automatic driver from C148; counting on fixed edges; concrete evaluation for the refuted parts |
| C151 | the five running profiles as lists built by one call of the coefficient per prefix of the grid | a prefix of full length is the full call; sums of four terms per prefix; adjusted sums from C100 |
| C152 | path of a figure as a string, built by path joins and name parts | injectivity of decimal numbers joined by underscores, read from the right; concrete distinctness of base names |
| C153 | labelers as string functions, figures as lists of panels with labelled curves, drawing as updates of axes by index | panels = kernel entries in order by induction over the drawing loop; symbols told apart by a separation lemma on prefixes |
| C154–C155 | the profile run as a function to the list of saved files, the printed stationary solution and the error, on top of the grid model of one triad | case analysis; success of each step from C100 and C153 |
| C156 | the loader's merged dictionary of a polytrope, the branch of the constructor for analytic derivatives, its cuts and scales | loop invariants for attribute updates; composition with C80–C82 |
| C157 | the plotter of modes with the dictionaries of the loaders, the six calls, figures as data | each call is characterised by an equivalence (success iff data complete, with the drawn figure); then induction over the calls |
| C158 | the plotter of profiles, the normaliser, the eleven calls | the same; Python's `max` characterised as greatest element |
| C159 | the assembly of the coefficient object (as for C94–C97, C156) | numbers survive each loop (extraction, interpolation, profiles, cuts): an invariant carried through the stages |
| C160 | the choice loop as a function of the list of inputs (typed line, confirmation), Python's `int` on ASCII text, Python indexing | induction over the inputs; splitting at the first input that ends the loop; refutations for the first text, negative and too large numbers |
| C161 | the parser of Runner/Model.lean (Runner/Switches.lean) | induction over the command line for each switch and for the last `--inlist_name`; the refutations compare the parser with and without the verbosity switches, show that reading fails with `--no_inlist`, and that one or two added words always make the number of arguments wrong |
| C162 | `OverviewFigure` with its scatter calls and legend on the data of Post/Model.lean (Post/Overview.lean) | induction over models and rows from the three masks of C36 to the points; counting the points by cases of the three conditions; the legend by positions |
| C163 | the named derived columns in both layouts (Post/Columns.lean) | lookup of each name; positions of the flat layout by induction over the rows; field arithmetic for shifts and dimensionless ratios |
| C164 | `value_comparison`, `compare_elements`, `compare_dicts`, `check_assertions` (Cmp) | cases of the two values; induction over dictionary and list, pigeonhole for equal key sets; explicit counterexamples |
| C165 | paths of the two plotter figures with the path model of Runner (Post/Files.lean) | joining and splitting of paths are inverse on canonical components; the text before the last dot and after it are unique |
| C166 | `_add_debug_attribute`, `_fill_debug_attributes`, their calls for the three kinds of models and for the Hough functions, the enumerations, the printed dictionary (Debug) | induction over the calls with pairwise different names; extremes by induction over the array; refutations for every profile that is not zero |
| C167 | the two `shlex` tokenizers of `_parse_custom_info_files`, the table of comments, `zip` of values and names (Load/Folders.lean) | files as lists of lines; induction over the lines with the tokenizer state, for both tokenizers; refutations for all files with the offending line |
| C168 | the four functions that histogram data on given edges (Hist/Edges.lean, on `histogram_log_counts`, the densities and the cython loop of Hist/Model.lean) | the binning is proved to be the bin of the specification `InOpenBin`, in which the outer bins are unbounded; bars by cases over version and flags; refutations from C33 |
| C169 | opening of a results file in the three modes and the sequence of writes of `save_data` on it, stopped after any number of them (Store/Again.lean, on the file model of Store/H5.lean and the actions of Store/Save.lean) | invariant over the list of actions (groups known, tree kept, what each data set becomes); four ways of writing a data set: kept, new, replaced (C51), repeated row |
| C170 | `ratio_coefficients_q4_dziembowski` (Stab/Ratio.lean), against the polynomials of the two conditions in Stab/Model.lean | limits of `f q / q ^ 4` (specification `Leading`), unique; signs for large `q`; the gap of the two coefficients is `6 S (S - 1)²` |
| C171 | `get_relevant_hough_output`, `_store_houghs` (Hough/Handler.lean) on top of Hough/Model.lean and Kernels/Model.lean | name table against the functions and derivatives of Hough/Spec.lean; distinctness of the 42 attribute names by the kernel; products by `Kernels.construct` |
| C172 | the nine arrays of `storeHoughs` read by `Coupling.Samples` (Hough/Field.lean) | existence of a `Coupling.Spec.Mode` with these arrays reduced to an equation for the azimuthal order; the two signs of C171 and C85 decide it |
| C173 | `_rad_int`, `_compute_radial_integral_complex`, the norms and energies with complex arrays (Coupling/Complex.lean) | trapezoidal sums over the complex numbers; positivity of the weights on an increasing grid for the converse; refinement to the real model of C50 and C69 |
| C174 | the two initialisation modes of the parser with collected exceptions, over arbitrary argument values | case analysis; nearest parent of a path by reversal |

Not expressible in a model of this kind (not claimed): "the package imports" — `gyre-tools/lam_tar_gyre/lam_tar_gyre.py`
line 89 has an unterminated f-string, so at this commit Python cannot import it (nor the coupling-coefficient module that
imports it); this is a fact about the Python grammar, recorded here only.

## Findings (claims refuted of the code, each a theorem `…_wrong` or an exact characterisation; generated from the manifest)

* C07: Equal spacing and Simpson: every schedule, proved. Unequal spacing: the temporaries are shared, so the result is right for all data exactly if no addition mixes two iterations (C07_uneven_exact); right without overlap of loop bodies (C07_uneven_no_overlap) and with one thread; every schedule with two busy threads has an interleaving and data with a wrong result (C07_uneven_every_schedule_wrong).
* C10: Proved for equally spaced visible samples; the equal-spacing flag is hard-wired, so on every increasing grid that is not equally spaced some profile gets a wrong first integral (C10_every_uneven_grid_wrong, C10_uneven_grid_wrong).
* C13: Refuted: with one buffer for input and output the fall-through applies the law twice (C13_inplace_applies_twice); C13_inplace_correct_iff_partial is the exact set of inputs for which the result is still right.
* C16: C16_safe_iff is the exact condition; the guard admits accuracy 20, orders above 7 and short grids, all out of bounds (C16_guard_too_weak).
* C17: Bijectivity proved; the inverse is right for numpy offsets, and always raises for plain Python integer offsets, including the default (C17_inverse_raises).
* C18: Symmetry and injectivity proved; the inverse is wrong for equal entries (C18_diagonal_wrong) and raises for plain Python integer offsets (C18_inverse_raises).
* C19: Symmetry, injectivity and (numpy offsets) inverse proved; plain Python integer offsets raise (C19_inverse_raises).
* C22: Right exactly if both inputs and their differences are iterated in the order of the union (C22_exact); then count and diagonal are right too (C22_symmetric_product_partial). Not true for other orders of sets: C22_orientation_wrong.
* C25: The claim is false of the code in exact arithmetic: the constructed matrix is singular for every parametric triad (C25_flag_wrong), so the flag is constantly False; in floating point the outcome is rounding noise. Proved part: no false positives.
* C26: Amplitudes: stationary and unique, proved. Returned phase arctan(-1/q) is on the wrong branch (off by pi) unless eta*q>0 (C26_returned_phase_iff). Detuning 0 excluded (division by zero in the phase).
* C27: Proved for all triads whose mode numbers index back into the triad (the (1,2,3) the solver uses, any reordering, (1,2,2)); for other triads the code uses mode numbers as positions in the triad's own lists, so it accepts forbidden triads or raises (C27_meridional_wrong). C27_exact_partial/C27_exact_list_partial give the exact set: fifteen triads are checked rightly for all modes, every other one is not; C27_defined_iff: a triad is refused exactly if it has a mode number above three.
* C28: Single damped range: fully proved. Two damped ranges: proved when the sets are iterated in increasing order; CPython's order for e.g. {7,8,9} is 8,9,7 and then a triple with neither damped order in the second range is listed (C28_two_ranges_wrong). C28_two_ranges_exact: right exactly if both ranges and their differences are iterated in the order of their union.
* C29: All outputs proved to depend only on the physical frequencies except the co-rotating cyclic frequency for angular requested units and inertial-frame data, which is uninitialised memory / 2 pi (C29_corot_freq_wrong); for uHz and cycles/day the 'dimensionless' frequencies are off by the squared unit ratio (C29_dimensionless_wrong).
* C30: Factor table proved consistent, round trips included; the object-level converter is wrong for the targets NONE and HZ (C30_object_converter_wrong).
* C33: Probabilities sum to one (proved). Density integrates to one only if the minimal bin number equals the bin number or the last bin is occupied: otherwise the shorter count array is broadcast against the widths, giving an integral of n or a broadcasting error (C33_density_first_bin_wrong, C33_density_empty_last_bin_raises). The numexpr log version divides by the length including NaNs (C33_numexpr_nan_sum). The cython loop is right.
* C34: Proved whenever some likelihood is above -inf; in the degenerate case the two searches differ (C34_degenerate_disagree).
* C35: All likelihoods agree for one conversion factor; the conversion factors of numpy, cython loop, numexpr and BLAS agree, but the loop-free cython factor actually used multiplies (1+alpha) by the number of bins instead of summing counts (C35_cython_no_loop_factor_wrong, C35_cython_likelihood_wrong).
* C37: Proved for tables with separated thresholds (> 1e-14) when no other valued triad contains all modes of the flagged one; otherwise false: a triad with equal daughters is flagged although a triad sharing parent and daughter has a lower threshold (C37_equal_daughters_wrong). The converse (lowest triads pass) holds always. C37_exact_partial says exactly which triads are flagged (when the lowest of the parent is unique); C37_contained_wrong: in every table a triad contained in the lowest one gets its flag, however high its own threshold.
* C38: Refuted as stated: argpartition(.,1) raises for a parent occurring in one valued triad only; the exact condition is proved.
* C39: Proved for all energy computations and refinement histories (factor = total factor, budget, flags) and exact hit of the target in exact arithmetic. Fails: refinement with budget 0 raises UnboundLocalError (C39_zero_budget_raises); the Schenk convention compares a dimensionless norm with a dimensional target (C39_schenk_dimension_wrong).
* C40: Proved for all well-formed inlists (any comments, blanks, quoting); a value containing a blank (e.g. [1, 2]) is cut by the tokenizer and raises (C40_blank_in_list_wrong).
* C41: All decimal literals except negative ones with exponent and no point (C41_negative_exponent_wrong) and ones with a plus sign (C41_plus_wrong); floats are exact rationals.
* C42: Proved for tables under key paths; tables inside arrays and an empty document are not converted (C42_array_elements_wrong).
* C43: Lookup and negation proved; below a None/number the lookup raises instead of returning None (C43_below_none_wrong); read_in_to_list misreads a leading two-key path as (name, negate) (C43_list_two_keys_wrong).
* C45: Radial and latitudinal derivatives proved for all definitions; azimuthal derivative proved for prat and refuted for lee_saio_equivalent (opposite sign) and townsend (adjust_phi_sign never applied to the derivative). C45_azimuthal_everywhere_wrong gives the error at every point and exactly where it vanishes.
* C46: All profiles and first derivatives proved; second radial derivatives refuted: the southern half always has the wrong sign (_mul_kgrav_1 used instead of _mul_kgrav).
* C49: Refuted: the integrator is always called with the equal-spacing flag on the Chebyshev grid, so every non-negative integrand is underestimated (strictly from four points on) and the Lee (2012) normalisation is off; proved only for equally spaced grids.
* C50: C50_S_operator(+_single): each symmetrised term equals the sum over all 6 distributions of the modes (independent Spec.S) for any term lists, factors, uninitialised arrays; C50_radial: the radial factor is the trapezoid sum; C50_relabel: invariance. For self-coupling the shortcut ignores the angular and radial factors (C50_self_coupling_wrong), only unit factors agree (_partial).
* C51: C51_update_partial: proved for every file, path and value described by Replaceable; refuted when the new value has the stored type and can be repeated to the stored shape (C51_repeated_wrong, C51_one_row_wrong: n copies of the row), for None over flags (C51_none_over_flags_wrong) and over arrays without entries (C51_no_rows_wrong). What h5py does when writing to a null data space is left open (parameter NullWrite): the theorems hold for every choice.
* C52: C52_selected_partial, C52_usual: proved for names in which nothing after the tagged numbers looks like a tag. Refuted otherwise: C52_later_number_wrong (a later 'l<digits>', as in _model12, is taken for the degree), C52_negative_order_wrong (names without n+<digits>, as GYRE gives for g modes, are never selected).
* C53: C53_path_partial: the path is GYRE's exactly for m >= 0 and |m| <= l. C53_retrograde_wrong: for m < 0 the name has two minus signs and the program exits. The module itself does not parse (line 89 of lam_tar_gyre.py has an unterminated f-string), so the theorems are about the functions as written.
* C54: Direct case exact; parametric case complete but unsound because numerator and denominator of the q^2 bound are swapped in the code (C54_parametric_unsound). C54_parametric_exact_wrong gives exactly the detunings that are accepted wrongly, and shows there are some at every ratio above the limit.
* C56: Holds at phase 0 only; for phases in (0,1) the cython version always fails, numexpr truncates towards zero and BLAS adds instead of subtracts the phase.
* C58: Exact characterisation proved; the code compares daughters slot by slot, so a daughter shared across slots is missed (C58_other_slot_wrong).
* C59: Proved for all root/dir/base.ext; paths with fewer than two slashes raise (C59_relative_raises); for a name without extension the nearest dotted directory is taken for the file, for all such paths, and a path without a dot raises (C59_no_extension_wrong).
* C60: Proved for strings without inner quotes and without both square brackets; nested quotes are stripped and tuples of strings stay text (C60_nested_quotes_wrong).
* C61: Proved for file names with exactly one dot and no command-line override; the default inlist is the file given exactly if its name has one dot (C61_dotted_name_wrong); inlists named on the command line are read in the format of the default one (C61_command_line_format_wrong).
* C63: Selection, normalisation and sign proved for every solver output. Repeated calls are refuted: the stored guess is overwritten by the (sign-adjusted) target, so a second call keeps the eigenvalue nearest zero, whatever the first one kept (C63_second_call_wrong).
* C64: Refuted for every multiplier >= 2 (default 4): the rule always needs points outside the grid, so the option always ends the program and the protection never acts. Proved (exact arithmetic) for multiplier 1.
* C69: Quadratic dependence and the radial factor proved; the value is refuted: the integral over the azimuth is counted twice, so norm and energy are 2π times the volume integral (C69_norm_doubled_wrong, C69_energy_doubled_wrong).
* C70: False is replaced by the default (True, False, False): C70_false_wrong shows that allowed triads then get coefficient zero. Everything else proved (_partial).
* C71: C71_saved_partial: all paths except 'wu' and the three absolute values. Refuted for those: C71_wu_wrong (the average radial order, truncated, is stored), C71_kappa_sign_wrong (signed values stored under |.| names). C71_no_triads: a run without triads raises.
* C72: Proved for names of word characters without subdirectory (C72_name_partial, C72_distinct). Refuted otherwise: C72_hyphen_wrong (no quantum numbers, runs overwrite each other), C72_dotted_base_wrong (numbers inserted in a directory name), C72_subdir_wrong (file beside the created subdirectory).
* C74: Refuted: the perturbations are multiplied by the adiabatic flag instead of the normalisation factor (C74_not_normalised_wrong), so that non-adiabatic runs store zero (C74_nonadiabatic_zero_wrong). C74_flux_partial: holds for adiabatic runs with unit normalisation factors. The solver parts (frequencies, checks, coupler, amplitudes) are parameters here; they are modelled in other areas.
* C77: C77_selected_partial and C77_rejected; refuted: C77_suffix_inside_wrong (the suffix may be anywhere, a backup copy makes the profile unloadable), C77_gyre_first_wrong (names that start with gyre are selected), C77_string_raises (a plain string as substring raises).
* C83: True for radius, mass, density, pressure, gravity and the first and third derivatives; refuted for the second derivatives (0/0 replaced by 0, true limit 4 pi G rho_c/3) and for V_2, U, c1, N^2 (NaN).
* C84: C84_value_partial: each part is exactly the integral (spherical-coordinate gradient, C84_gradient) when no or all modes are flagged, or the flagged ones are axisymmetric without azimuthal displacement. C84_conjugation_ignored: in general the computed value is that of unconjugated polarisations with the azimuthal selection rule of the conjugated fields, which can have the wrong sign (C84_conjugation_wrong). The hypothesis Samples asks for angular arrays in one azimuthal convention; C85 shows that the Hough class delivers such arrays for axisymmetric modes only, and C172 that even then the colatitude derivative of the azimuthal profile has the wrong sign in a rotating star.
* C85: Refuted: C85_consistent_iff shows that no azimuthal order fits unless m = 0 (the product m*Hr is formed with -m, the two combinations with +m), whatever the definition; C85_sectoral_wrong is a case. C85_divergence: the divergence identity holds for 'prat' and is off by 2 m Hphi/sin(theta) for 'lee_saio_equivalent', the definition the coupling coefficients use. Proved for axisymmetric modes (C85_axisymmetric_partial).
* C88: Proved for the symbolic option with the buoyancy definition and for the numerical option. Refuted for polytropes with symbolic derivatives and use_brunt_def off: the attribute that is differentiated does not exist (C88_polytrope_raises_wrong).
* C89: np.gradient is modelled from its documentation, in exact arithmetic. Partial for complex profiles: the derivatives of the parts are exact (C89_complex_partial), but the message is bound in the real branch only, so with messages on (the default, used by every caller) each complex profile raises UnboundLocalError, and with it the numerical radial gradients of modes with complex functions (C89_complex_message_wrong).
* C90: Proved where the stencil fits (the five-point stencil on equal spacing). Refuted: zero at the ends of the grid for all functions (C90_ends_wrong), five-point stencil exact on quartics exactly where the five points are equally spaced (C90_uneven_wrong), order-2 forward and backward differences raise (C90_missing_kernel_wrong).
* C91: Refuted: the number of values equals the number of original points that are points of the refined equally spaced grid (C91_length_partial gives the exact condition; C91_points_lost_wrong a grid of four points that keeps two).
* C94: Exact real arithmetic. Refuted in full: structure arrays are always taken from the first file and never interpolated, so if the first mode is not the finest of the three, the constructor fails for every input (C94_coarse_first_wrong). Proved for the inputs that remain (C94_one_grid_partial) and acceptance of all well-formed inputs with the finest mode first (C94_accepted). The mode profiles that the coefficient does not use are interpolated but never cut, so with a cut they have more points than the radial coordinate (C94_uncut_wrong).
* C95: Proved when the numbers of points differ (C95_regridded_partial). Refuted in full: with the same number of points nothing is interpolated, so at other radii the profiles belong to other points than the grid (C95_other_radii_wrong, for every such input); and a polytrope with another number of points than the finest mode is never accepted, because the central pressure is then stored under another name than the one read (C95_polytrope_regrid_wrong).
* C99: Refuted: a star that is valid everywhere, and a star with no valid point where one criterion holds everywhere or both hold somewhere, raise PhysicsError. C99_outcome_partial is the exact condition for success.
* C101: Refuted for models with a valid core: valid masks are paired with the contribution of the following invalid zone, and with a valid surface the last zone is dropped by zip and stays zero. Proved for an invalid core, and at invalid points always.
* C102: Refuted when the adjustment flips the sign of the coefficient: amplitudes, threshold and fluxes are printed negative. Proved for equal signs.
* C103: Refuted: the computed scaling of a row is discarded, so the rows are the bare products; exactly the 15 listed terms declare a factor or division (C103_scaling_wrong). Rows and legends themselves are right (C103_rows_partial).
* C104: Refuted: without the isentropic derivative of the adiabatic exponent the helper fails although the coefficient can be computed (C104_missing_derivative_wrong, _coefficient). With it the rows are right (C104_rows_partial).
* C105: The pairing of radial with angular terms is not written in the code; it is the one fixed in Spec.products1-4. Contributions 1, 2 and 4 combine exactly; the third needs sign changes of terms 6-9, 17 (and of 1, 2 with the third radial term) and no sine division in terms 18, 19 (C105_third_partial); without them it is wrong (C105_third_wrong). C105_unique: the combined value is determined by the data.
* C107: Refuted: the difference of inertial and co-rotating frequency of the first daughter (its azimuthal order times the rotation frequency) is taken as the rotation frequency; wrong whenever that order is not one (C107_other_order_wrong).
* C110: Refuted: between two and three Nyquist frequencies below zero, and from four on, the result stays negative (C110_stays_negative_wrong); right elsewhere (C110_alias_partial).
* C111: Refuted: if each model is a single file all models are merged into one data set (C111_merged_wrong), and a list that starts with a single file and has a linked one further on raises (C111_mixed_wrong); right if the first model is linked (C111_separate_partial). Assumes the multimethod dispatch on the first list element.
* C113: Refuted: the loop zips the models with the model names, of which there are seven by default, so further models are silently left out of the totals (C113_dropped_wrong, C113_first_models_wrong); right with enough names (C113_totals_partial); counts per model proved (C113_model).
* C115: Refuted: only radial orders are compared, so two different daughters (other degree or azimuthal order) of equal radial order are removed (C115_distinct_removed_wrong); right if the daughters share k and m (C115_harmonics_partial).
* C116: refuted: the word of the tens is chosen by the digit of the hundreds (20 to 99 give an empty word), and thousands are not named; exact set of correct numbers below 1000 proved, and the counts the scripts use are right
* C117: refuted: the method that registers the option has another name than the hook, so the option is never registered and every solve run ends with an AttributeError before computing; proved for a class with the right name
* C118: refuted for an empty directory argument, which means the root directory; proved for the default and for all relative directories of ordinary names (no symbolic links)
* C119: refuted: solve looks for a parent directory named like AESolver, plot and analyze for amplitude_equations_solver; each starts if its own name occurs
* C120: refuted for coefficient profiles of polytropes, which get the directories of the stellar models; proved for all grid computations and for profiles of stars
* C121: refuted: the option is never read, and nr_omp_threads is never passed; only the switch parallel_mode_coupling reaches the solver
* C122: refuted for custom inlists, whose reader is not implemented: every such run fails; proved for TOML
* C126: Proved for all quantities but the perturbation of the specific entropy, for which it is refuted (C126_entropy_wrong): lag_S is made dimensional with the radius.
* C127: Proved for names that are SI in no spelling. Refuted: 'si' gives the SI gravitational constant with cgs data; six MESA columns are never converted; mass and radius of polytropes stay as given while G is the SI one.
* C129: Proved: with a base directory, directories given are used exactly as given (C129_as_given_partial). The documented behaviour is refuted: the condition is inverted, so that paths are never relative to the base directory, and without base directory are put behind the word 'None'; the loader exits for directories that are not needed; a directory that is not given is replaced by the working directory.
* C132: Proved which directories are searched for stars and polytropes. Refuted: without base directory the path begins with 'None'; for polytropes the mode path and base directory of the inlist are ignored; GYRE.default and POLY directories are required but of no effect for stars.
* C134: Proved: the original domain contains the corrected one, and the image is displaced by less than one step. Refuted: the original domain contains points without stable fixed point (documented in the code as the error that was corrected); the image is displaced by half a step against the contour lines. C134_original_exact_partial says what the original condition is; C134_original_everywhere_wrong: at every pair of ratios for which it is ever true there is a detuning for which it is true without a stable fixed point.
* C135: Proved if there are at least k points on each side; refuted otherwise: points of the wrong side are used.
* C136: Proved for the value, and for the uncertainty if the points are on a line. Refuted for the uncertainty: the covariance of slope and intercept is left out, which for positive ratios always overestimates it.
* C141: numpy, iterator, numexpr and blas: exactly. cython: uses another normalisation and returns another histogram (`C141_cython_wrong`).
* C142: Fails: with verbose every automatic function raises TypeError on every data set with two different values (`C142_verbose_wrong`); only the early returns are unaffected.
* C143: numpy: yes. blas: at phase 0 with min_nr_bins given; otherwise trailing empty bins are dropped (`C143_short_wrong`). cython and numexpr: every call raises TypeError (`C143_keyword_wrong`).
* C144: With at least two numbers among the data: yes, for every option. With one number and NaNs, or a single NaN, the functions raise (`C144_one_number_wrong`).
* C145: At phase 0; another phase is reported as 0 (`C145_phase_wrong`), and a single point has no parameters (`C146_width_wrong`).
* C146: A single point: one bar of height 1, but the returned width is the custom width and not the distance of the edges (`C146_width_wrong`). Equal points: four of five functions raise or exit (`C146_equal_wrong`).
* C147: Proved for numbers that are not all equal, for every function, except: numexpr divides by the length of the data including NaNs (`C147_numexpr_nan_wrong`); the densities of blas are all scaled by the width of the first bin (`C147_blas_density_wrong`); equal data give an exception or one bar with several equal edges (`C147_equal_wrong`).
* C148: Proved for iterator, numexpr and blas; cython uses a factor that depends on the number of bins instead of the number of points and selects another histogram (`C148_cython_wrong`).
* C150: Proved for values that are not zero and not all equal, except: NaN is counted in the last bin (`C150_nan_wrong`); a single triad raises TypeError (`C150_single_wrong`); a sharpness of zero raises ValueError (`C150_zero_wrong`); equal values give bars without width (`C150_equal_wrong`).
* C152: Proved except for the stellar model: the last MESA substring is dropped from the directory, so runs for models that differ in it overwrite each other (`C152_star_wrong`).
* C153: Proved except for the factors: the angular curves do not contain the factors their legends announce (`C153_angular_multiplier_wrong`), and the radial curves contain numbers that neither title nor legend shows (`C153_radial_factor_wrong`: two panels with equal titles and legends, curves differing by the factor -2).
* C154: Proved for stellar models. Runs for polytropes always raise AttributeError (`C154_polytrope_wrong`). Failing of loading, of `savefig` and of the eigenvalue routine is not modelled.
* C155: Proved for triads that pass the check. With `stationary_solving` off, a triad that fails the selection rules has zero amplitudes in a grid run, but the profile run prints amplitudes as if it passed (`C155_check_wrong`).
* C163: refuted in the flat layout only, which no script requests
* C164: refuted for None, complex, functions, arrays of length one, empty containers, length zero
* C166: C166_normed_wrong: '_add_debug_attribute(x, normed=True)' reads the attribute x, not x_normed, so for MESA and polytrope models the records called normed repeat the un-normalised ones; C166_polytrope_wrong: polytropes are recorded under _p_profile and _rho_profile while the enumeration lists P and rho, which stay None. Complex arrays are not modelled.
* C167: refuted in part: C167_shift_wrong, C167_hash_wrong, C167_unknown_wrong, C167_blank_in_tuple_wrong, C167_indent_wrong, C167_given_dictionary_wrong
* C168: refuted in part: C168_default_wrong, C168_outside_wrong
* C169: Proved for the default mode (the only one the runner uses): the file is the one saved at a new path, and a save that stops early holds only data of the new run (the earlier results are lost). Read-and-write mode: proved when the run has at least two triads or as many as before, and is not a polytrope over a stellar model; refuted for one triad over several (every data set holds as many copies of the row as there were triads before) and for a polytrope over a stellar model (results that only stellar models have stay). Append mode: refuted, exactly: data sets already there are kept without a message while the attributes become those of the new run; the file is right if and only if the earlier file's data sets are those of the run. h5py's buffering and damage of a file by a crash are not modelled.
* C171: Proved for ten of the fourteen names (C171_stored_partial), the common grid and the frame (C171_grid). False for the two derivatives of the azimuthal function, stored with the opposite sign under the definition lee_saio_equivalent that the coupling coefficients pass (C171_azimuthal_wrong, exact condition), and for the two second derivatives, negated in the southern half (C171_second_wrong). C171_kernels_wrong: a product of one array per mode has a factor -1 for every derivative of an azimuthal function in it.
* C172: C172_exact: the arrays are those of such a displacement exactly when the colatitude derivative of the azimuthal function vanishes at all latitudes (its stored array has the opposite sign) and the mode is axisymmetric, or its radial function, or both horizontal functions vanish at all latitudes. C172_order_exact is the same for displacements with arbitrary profiles, without the first condition; C172_order_wrong is the refutation for every other mode. Proved for axisymmetric modes without rotation (C172_axisymmetric_partial); with rotation the displacement found for an axisymmetric mode has one profile with the wrong sign (C172_rotating_wrong).
* C173: Refuted for complex numbers requested: the integrator returns a float, which has no shape, so every radial integral and every mode energy raises (C173_complex_wrong). Otherwise the real part is taken of the product, not of the factors: C173_value; the radial factor is the one of the real parts exactly when an integral of the imaginary parts vanishes (C173_real_parts_exact), in particular when at most one function is complex at each point (C173_real_parts_partial); the norm is the one of the real parts only for functions real at every grid point (C173_norm_wrong); multiplying a mode by i negates its norm and its energy (C173_phase_wrong). Proved for real functions, as those of adiabatic modes (C173_energy_partial).
