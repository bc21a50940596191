{"id": "C01", "title": "Trapezoid rule returns the trapezoid sum", "statement": "Calling the numerical integrator with method 'trapz' on an unequally spaced grid returns the sum over consecutive samples of (x[i+1]-x[i])*(f[i]+f[i+1])/2; in particular every affine integrand is integrated exactly, and the integral over a grid is the sum of the integrals over its two parts when the grid is cut at a sample.", "quantifier": "all array lengths, all grids (not necessarily monotone), all integrands, exact arithmetic", "why_tests_cant": "the grid length and contents are unbounded; tests fix a few arrays", "anchors": ["cpp-numintegrator/num_integrator/num_integration.cpp:trapz", "cpp-numintegrator/num_integrator/num_integration.cpp:integrate"]}
{"id": "C02", "title": "Equal-spacing shortcut is sound exactly on equally spaced grids", "statement": "With equally_spaced=True the integrator returns the same value as with equally_spaced=False for every integrand if the grid is equally spaced, and if the grid is not equally spaced there is an integrand on which the two differ (so callers must not set the flag for an uneven grid).", "quantifier": "all lengths >= 2, all grids, all integrands", "why_tests_cant": "needs all integrands on all grids; a test only shows agreement on chosen samples", "anchors": ["cpp-numintegrator/num_integrator/num_integration.cpp:trapz"]}
{"id": "C03", "title": "Simpson's rule is exact for cubics", "statement": "With method 'simpson', equally_spaced=True and an odd number >= 3 of equally spaced samples, the result is the exact integral of every polynomial of degree at most three between the first and the last sample.", "quantifier": "all odd lengths, all steps (also negative), all start points, all cubic coefficients", "why_tests_cant": "unbounded lengths and a four-parameter family of integrands", "anchors": ["cpp-numintegrator/num_integrator/num_integration.cpp:simpson"]}
{"id": "C04", "title": "Method selection is total and stateless", "statement": "'simpson' on an even number of samples or with equally_spaced=False, and every unknown method name, give exactly the 'trapz' result; the outcome of a call does not depend on which method names were used in earlier calls of the process.", "quantifier": "all method names, all inputs, all histories of earlier calls", "why_tests_cant": "constructing an integrator writes to a process-wide table; independence must hold for every call history", "anchors": ["cpp-numintegrator/num_integrator/num_integration.cpp:my_integration_mapper", "cpp-numintegrator/num_integrator/num_integration.cpp:integrate", "cpp-numintegrator/num_integrator/num_integration.cpp:NumericalDoubleInputIntegrator"]}
{"id": "C05", "title": "The integrator reads inside its arrays exactly when ...", "statement": "A call reads only inside the two arrays (no undefined behaviour) iff: with equally_spaced=True, the variable array has at least two elements, the integrand at least one, and not exactly one for a Simpson call; with equally_spaced=False, the integrand has at most one element or the variable array has at least as many elements as the integrand.", "quantifier": "all pairs of array lengths, both flags, all method names", "why_tests_cant": "out-of-bounds reads are silent; tests do not see them", "anchors": ["cpp-numintegrator/num_integrator/num_integration.cpp:trapz", "cpp-numintegrator/num_integrator/num_integration.cpp:simpson", "cpp-numintegrator/num_integrator/libcpp_num_integrator.pyx"]}
{"id": "C06", "title": "Thread settings never change an integral", "statement": "The value returned by integrate() is identical, bit for bit, for all values of the 'use parallel' flag and of the number of threads.", "quantifier": "all flags, thread counts and inputs, without assuming any arithmetic law", "why_tests_cant": "bit-identity across all thread counts and inputs", "anchors": ["cpp-numintegrator/num_integrator/num_integration.cpp:integrate"]}
{"id": "C07", "title": "Parallel trapezoid/Simpson reductions", "statement": "The OpenMP versions return the serial value (in exact arithmetic) for every distribution of the iterations over threads and every interleaving.", "quantifier": "all team sizes, iteration distributions and interleavings", "why_tests_cant": "schedules are chosen by the runtime; a race shows only on some of them", "anchors": ["cpp-numintegrator/num_integrator/num_integration.cpp:trapz_parallel", "cpp-numintegrator/num_integrator/num_integration.cpp:simpson_parallel"]}
{"id": "C08", "title": "Disc integrals use exactly the samples with 0 <= mu <= 1", "statement": "The disc-integral computation keeps, in order and aligned across its arrays, exactly the samples whose mu lies in [0,1]; values at any other sample never influence the result.", "quantifier": "all grids and sample values", "why_tests_cant": "ranges over arbitrary grids with arbitrarily placed out-of-range samples", "anchors": ["cpp-disc-integrator/disc_integrator/disc_integrals.cpp:adjust_data_to_integration_length"]}
{"id": "C09", "title": "Serial and parallel disc integrals agree", "statement": "The two disc integrals are bit-identical between serial and parallel mode for every thread count and every order in which the loop iterations execute.", "quantifier": "all inputs, thread counts and iteration orders", "why_tests_cant": "schedule space", "anchors": ["cpp-disc-integrator/disc_integrator/disc_integrals.cpp:serial_first", "cpp-disc-integrator/disc_integrator/disc_integrals.cpp:parallel_first"]}
{"id": "C10", "title": "Disc integrals equal the documented quadrature", "statement": "The first integral is the trapezoid sum of mu*f*ld and the second that of 2*mu^2*f'*ld-(mu-mu^3)*f''*ld over the samples with mu in [0,1], as the README's numpy.trapz comparison states.", "quantifier": "all grids, profiles and limb-darkening laws", "why_tests_cant": "the claim is for arbitrary grids; the tests use one uniform grid", "anchors": ["cpp-disc-integrator/disc_integrator/disc_integrals.cpp", "cpp-disc-integrator/README.md"]}
{"id": "C11", "title": "Disc integrals are memory safe when two samples are kept", "statement": "The disc-integral computation reads and writes only inside its buffers iff at least two samples have mu in [0,1] and every such sample's index lies inside the three profile arrays.", "quantifier": "all array lengths and contents", "why_tests_cant": "silent out-of-bounds access", "anchors": ["cpp-disc-integrator/disc_integrator/disc_integrals.cpp"]}
{"id": "C12", "title": "Limb-darkening array is the Eddington law pointwise", "statement": "After compute, element k of the result is 1+1.5*mu[k] for every k < n, for every selection string, thread setting and iteration order, and nothing else in memory changes.", "quantifier": "all arrays, disjoint buffers, all selection strings, schedules", "why_tests_cant": "all schedules and all unknown selection strings", "anchors": ["cpp-ld-funcs/ld_funcs/ld_functions.cpp:compute", "cpp-ld-funcs/ld_funcs/ld_functions.cpp:eddington", "cpp-ld-funcs/ld_funcs/ld_functions.cpp:eddington_parallel"]}
{"id": "C13", "title": "Limb-darkening computation may be done in place", "statement": "Passing the same array for mu and for the result gives the Eddington law of the old contents.", "quantifier": "all arrays", "why_tests_cant": "aliasing is not covered by tests", "anchors": ["cpp-ld-funcs/ld_funcs/ld_functions.cpp:compute"]}
{"id": "C14", "title": "Finite-difference weights are exact on polynomials", "statement": "For every set of pairwise distinct nodes and every evaluation point, the weights computed for derivative order m applied to the samples of a polynomial of degree < number of nodes give its exact m-th derivative at the point.", "quantifier": "all distinct nodes in any order (up to 20 nodes and order 7, the declared work-array sizes), evaluation points, polynomials", "why_tests_cant": "unbounded node counts and polynomial families", "anchors": ["fornberg-num-deriv/fornberg_num_deriv/fornberg.f90:fdcoef"]}
{"id": "C15", "title": "Grid derivative is exact on polynomials at every grid point", "statement": "grid_derivative of requested order and accuracy returns at every grid point, including both edges, the exact derivative of every polynomial of degree at most the accuracy, on every grid of distinct points with more points than the accuracy.", "quantifier": "all grid sizes, spacings, polynomials; orders up to 7 and accuracies up to 19 (accuracy 20: see C16)", "why_tests_cant": "edge stencils vary with accuracy parity; tests cover few", "anchors": ["fornberg-num-deriv/fornberg_num_deriv/fornberg.f90:grid_derivative"]}
{"id": "C16", "title": "Finite-difference stencils stay inside the grid and the work arrays", "statement": "Every stencil used by grid_derivative consists of consecutive grid indices inside the grid and contains the point, and no work array is indexed outside its declared bounds for any accuracy accepted by the guard.", "quantifier": "all grid sizes, accuracies and derivative orders accepted by the guard", "why_tests_cant": "array bounds are not checked at run time", "anchors": ["fornberg-num-deriv/fornberg_num_deriv/fornberg.f90:grid_derivative", "fornberg-num-deriv/fornberg_num_deriv/fornberg.f90:fdcoef"]}
{"id": "C17", "title": "Cantor pairing is a bijection with the documented inverse", "statement": "cantor pairing maps distinct pairs to distinct integers, reaches every natural number, and the inversion recovers the pair, for every offset 'lowest'.", "quantifier": "all naturals and offsets", "why_tests_cant": "infinite domain", "anchors": ["py-combinations/pairing_functions/cantor_pairing.py"]}
{"id": "C18", "title": "Symmetric pairing", "statement": "The symmetric pairing ignores the order of the pair, maps different unordered pairs to different integers, and its inversion returns the pair in increasing order.", "quantifier": "all naturals >= lowest", "why_tests_cant": "infinite domain; the diagonal is a measure-zero corner", "anchors": ["py-combinations/pairing_functions/symmetric_pairing.py"]}
{"id": "C19", "title": "Xie pairing", "statement": "The Xie symmetric pairing ignores the order of the pair, is injective on unordered pairs, and its inversion recovers the pair.", "quantifier": "all naturals >= lowest", "why_tests_cant": "infinite domain", "anchors": ["py-combinations/pairing_functions/xie_pairing.py"]}
{"id": "C20", "title": "Single-set combinations enumerate every unordered pair once", "statement": "The combination list of a set of distinct values contains each unordered pair of different elements exactly once, no element is paired with itself, and the reported count equals the list's length.", "quantifier": "all finite lists of distinct values", "why_tests_cant": "all sizes", "anchors": ["py-combinations/py_combinations/single_set_combinations.py"]}
{"id": "C21", "title": "Cartesian combinations enumerate the product", "statement": "The Cartesian combination list contains exactly the ordered pairs of the two inputs, each once per occurrence, and the reported count equals its length.", "quantifier": "all finite lists", "why_tests_cant": "all sizes", "anchors": ["py-combinations/py_combinations/cartesian_combinations.py"]}
{"id": "C22", "title": "Symmetric product of two sets", "statement": "The symmetric-product list contains each unordered pair with one element in A and one in B exactly once (plus the diagonal of the intersection if requested), nothing else, and the reported count equals the list's length.", "quantifier": "all pairs of finite sets, whatever order the sets are iterated in", "why_tests_cant": "hash iteration order varies by value and interpreter", "anchors": ["py-combinations/py_combinations/symmetric_product.py"]}
{"id": "C23", "title": "The two published stability conditions agree", "statement": "For a parametric triad (gamma1>0, gamma2,gamma3<0, negative damping sum) the corrected Dziembowski condition and the 'equivalent' additional condition accept the same detunings.", "quantifier": "all driving/damping rates and detunings", "why_tests_cant": "continuous parameter space", "anchors": ["aesolver/aesolver/stability_checker/three_mode/stab_checker_quadratic_three_sum.py"]}
{"id": "C24", "title": "Stability check decides linear stability of the fixed point", "statement": "For non-harmonic couplings the stability check accepts iff the three-mode amplitude equations have a fixed point with all three modes excited whose Jacobian has only eigenvalues with negative real part.", "quantifier": "all rates of any sign, frequencies, detunings, coupling strengths", "why_tests_cant": "continuous parameter space", "anchors": ["aesolver/aesolver/stability_checker/three_mode/stab_checker_quadratic_three_sum.py"]}
{"id": "C25", "title": "Hyperbolicity flag", "statement": "The hyperbolicity check of the four-dimensional real amplitude-equation system reports True whenever the fixed point of the true system has no eigenvalue on the imaginary axis and a regular Jacobian.", "quantifier": "all parametric triads", "why_tests_cant": "continuous parameter space", "anchors": ["aesolver/aesolver/stability_checker/hyperbolicity/hyperbolicity_checker.py"]}
{"id": "C26", "title": "Stationary amplitudes solve the amplitude equations", "statement": "For every parametric triad with nonzero coupling and detuning, the returned stationary amplitudes and phase make all three amplitude equations and the phase equation stationary.", "quantifier": "all rates, frequencies, detunings and coupling coefficients meeting the pre-checks", "why_tests_cant": "continuous parameter space; sign branches of the phase", "anchors": ["aesolver/aesolver/stationary_solving/three_mode/three_mode_stationary.py"]}
{"id": "C27", "title": "Selection rules", "statement": "A triad passes the azimuthal check iff the signed sum of its azimuthal orders (sign flipped for conjugated modes) vanishes, and the meridional check iff the sum of the meridional orders l-|m| is even; generic checks are their conjunction.", "quantifier": "all degrees, azimuthal orders, conjugation flags and triads of mode numbers", "why_tests_cant": "integer-valued infinite domain", "anchors": ["aesolver/aesolver/pre_checks/generic/generic_quadratic_checks.py"]}
{"id": "C28", "title": "Mode-combination generation", "statement": "The generated radial-order triples are [driven, damped1, damped2] for every driven order in its inclusive range and every unordered pair of damped orders; counts, mean orders and the Wu statistic match the list.", "quantifier": "all radial-order ranges", "why_tests_cant": "unbounded ranges", "anchors": ["aesolver/aesolver/mode_input_generator/input_generator.py"]}
{"id": "C29", "title": "Frequencies do not depend on the stored unit or frame", "statement": "For every supported unit and frame in which the oscillation code stored the frequencies, the handler yields the same inertial and co-rotating frequencies and the same dimensionless frequencies for the same physical mode.", "quantifier": "all frequencies, rotation rates, azimuthal orders, supported units and frames", "why_tests_cant": "product of a continuous space with the unit table", "anchors": ["aesolver/aesolver/frequency_handling/frequency_handler.py", "aesolver/aesolver/frequency_handling/enumeration_files/enumeration_freq_converter_normalization.py"]}
{"id": "C30", "title": "Frequency conversion factors are consistent", "statement": "Converting between any two supported units and back is the identity, and converting through an intermediate unit equals converting directly.", "quantifier": "all pairs/triples of supported units, all values", "why_tests_cant": "the whole table must be coherent, not sampled entries", "anchors": ["aesolver/aesolver/frequency_handling/enumeration_files/enumeration_freq_converter_normalization.py"]}
{"id": "C31", "title": "Detuning and damping summary", "statement": "Detuning is the parent frequency minus the daughters' sum, gamma is the sum of the rates, q their ratio, quality factors are frequency over rate with products ordered (Q2Q1,Q3Q1,Q3Q2), for every triad.", "quantifier": "all triads", "why_tests_cant": "continuous", "anchors": ["aesolver/aesolver/frequency_handling/frequency_handler.py"]}
{"id": "C32", "title": "Histogram counts conserve and localise the data", "statement": "For every data set and bin layout covering it, counts sum to the number of points, each point is counted in the bin whose edges enclose it, and boundary points go to one bin only.", "quantifier": "all data sets and bin edges", "why_tests_cant": "boundary coincidences", "anchors": ["histogram_maker/hogg_jacky/shared/shared_computation_functions.py"]}
{"id": "C33", "title": "Probability and density histograms are normalised", "statement": "The probability histogram sums to one and the density histogram integrates to one over the bins.", "quantifier": "all non-empty data sets and bin layouts", "why_tests_cant": "all inputs", "anchors": ["histogram_maker/hogg_jacky/shared/shared_computation_functions.py"]}
{"id": "C34", "title": "Optimal-binning search returns a maximiser", "statement": "The selected (bin width, phase/alpha) combination maximises the jackknife likelihood among all tried combinations, and the first maximiser in iteration order is returned, in the numpy and the iterator implementation alike.", "quantifier": "all parameter grids and likelihood values", "why_tests_cant": "ties, infinities", "anchors": ["histogram_maker/hogg_jacky/numpy_iterator_jacky.py"]}
{"id": "C35", "title": "All likelihood implementations agree", "statement": "The loop and loop-free jackknife likelihoods compute the same value for the same counts, width and smoothing constant.", "quantifier": "all count vectors, widths and alphas", "why_tests_cant": "all inputs", "anchors": ["histogram_maker/hogg_jacky/cython_jacky", "histogram_maker/hogg_jacky/numpy_iterator_jacky.py"]}
{"id": "C36", "title": "Plot masks partition the stable triads", "statement": "The three overview masks (stable only; stable and valid; stable, valid and isolated) are pairwise disjoint and together are exactly the stable non-harmonic triads; the isolated/non-isolated masks partition the stable valid triads passing the optional cuts.", "quantifier": "all data sets and cut settings", "why_tests_cant": "all boolean data", "anchors": ["aesolver/aeplotter/library_functions/masking.py"]}
{"id": "C37", "title": "Isolation mask keeps only the lowest-threshold triad of its modes", "statement": "A triad flagged isolated has the lowest threshold amplitude among all valued triads that share its parent (as parent) or one of its daughters (as daughter).", "quantifier": "all triad tables", "why_tests_cant": "combinatorial", "anchors": ["aesolver/ae_analyzer/library_functions/masking.py"]}
{"id": "C38", "title": "Isolation analysis is defined for every data set", "statement": "The isolation mask is computed without error for every table of triads, including parents that occur once.", "quantifier": "all triad tables", "why_tests_cant": "corner sizes", "anchors": ["aesolver/ae_analyzer/library_functions/masking.py"]}
{"id": "C39", "title": "Eigenfunction normalisation", "statement": "After normalisation every mode energy equals the convention's target, the stored normalising factor is the total factor applied to the eigenfunctions, and the refinement loop stops within its iteration budget.", "quantifier": "all modes, energies, budgets and refinement histories", "why_tests_cant": "iteration histories", "anchors": ["gyre-tools/gyre_eigen_norm/gyre_eigen_norm.py"]}
{"id": "C40", "title": "Inlist values: user settings override defaults", "statement": "The merged inlist has the user's value for every key the user sets, the default for all others, the last assignment winning.", "quantifier": "all inlist contents", "why_tests_cant": "all key sequences", "anchors": ["util-tools/inlist_handler/inlist_handler.py"]}
{"id": "C41", "title": "Inlist numbers are typed as numbers", "statement": "Every integer or decimal/exponent literal in an inlist is read as that number.", "quantifier": "all literals", "why_tests_cant": "infinite literal space", "anchors": ["util-tools/inlist_handler/inlist_handler.py:_typer"]}
{"id": "C42", "title": "TOML empty tables become None", "statement": "After reading a TOML inlist, every empty table at any nesting depth reads as None, everything else is unchanged, and the adjustment is idempotent.", "quantifier": "all TOML documents", "why_tests_cant": "unbounded nesting", "anchors": ["util-tools/inlist_handler/toml_inlist_handler.py"]}
{"id": "C43", "title": "Nested option lookup", "statement": "Looking up an option path returns the value at that path, None iff some key on the path is missing, and a negated option returns the boolean complement.", "quantifier": "all nested option tables and paths", "why_tests_cant": "unbounded nesting", "anchors": ["util-tools/generic_parser/generic_parser.py"]}
{"id": "C44", "title": "Chebyshev differentiation matrices", "statement": "The first and second derivative matrices differentiate exactly every function in the span of the (parity-restricted) Chebyshev basis, at every collocation point.", "quantifier": "all matrix sizes, both parities, both sine factors, all coefficient vectors", "why_tests_cant": "all sizes", "anchors": ["hough-func-tools/cheby_transform/cheby_transform.py"]}
{"id": "C45", "title": "Hough-function derivative profiles", "statement": "The mu- and theta-derivative profiles returned for the latitudinal and azimuthal Hough functions are the derivatives of the returned profiles, for each supported definition.", "quantifier": "all spin parameters, azimuthal orders, points, smooth radial functions, definitions", "why_tests_cant": "continuous", "anchors": ["hough-func-tools/hough_function/hough_function.py"]}
{"id": "C46", "title": "Hough-function profiles on the full range", "statement": "The profiles on mu in (-1,1) are the parity-consistent extension of the profiles on (0,1), for every function and derivative.", "quantifier": "all (l,m), all profiles", "why_tests_cant": "parity depends on l,m and on the derivative order", "anchors": ["hough-func-tools/hough_function/hough_function.py"]}
{"id": "C47", "title": "Chebyshev-Gauss quadrature is exact", "statement": "The Chebyshev-Gauss rule of order n integrates p(x)/sqrt(1-x^2) over (-1,1) exactly for every polynomial of degree below 2n.", "quantifier": "all orders and polynomials", "why_tests_cant": "all orders", "anchors": ["aesolver/aesolver/angular_integration/rotating_tar_angular/hough_integration.py:_chebyshev_gauss_quad"]}
{"id": "C48", "title": "Angular integrals vanish by the azimuthal selection rule", "statement": "The angular integral is zero, without evaluating profiles, when the conjugation-adjusted azimuthal orders do not sum to zero, and 2*pi times the latitudinal integral otherwise.", "quantifier": "all triads, conjugation settings and profiles", "why_tests_cant": "all inputs", "anchors": ["aesolver/aesolver/angular_integration/rotating_tar_angular/hough_integration.py"]}
{"id": "C49", "title": "Angular integrals over the Hough grid are trapezoid integrals", "statement": "The latitudinal integrals and the Hough normalisation over the collocation grid equal the trapezoid integral of the integrand over mu.", "quantifier": "all collocation grids and integrands", "why_tests_cant": "all grids", "anchors": ["aesolver/aesolver/angular_integration/rotating_tar_angular/hough_integration.py", "hough-func-tools/hough_function/hough_normalizer.py"]}
{"id": "C50", "title": "Coupling terms are symmetric under relabelling of the modes", "statement": "A symmetrised coupling term is unchanged when the three modes (with their azimuthal orders and conjugation flags) are relabelled.", "quantifier": "all permutations, radial and angular term lists, profiles", "why_tests_cant": "all inputs", "anchors": ["aesolver/aesolver/coupling_coefficients/quadratic_coupling_coefficient_rotating.py"]}
{"id": "C51", "title": "Saving results replaces stored values", "statement": "Writing a data set in update mode leaves the file with the new value at that path and every other path unchanged, whatever was stored before.", "quantifier": "all files, values, dtypes", "why_tests_cant": "all file states", "anchors": ["aesolver/aesolver/data_handling/data_specific/hdf5_saver.py", "aesolver/aesolver/data_handling/data_specific/hdf5_specific/overwrite_dataset.py"]}
{"id": "C52", "title": "Mode files are selected by their quantum numbers", "statement": "A mode file named with degree l, azimuthal order m and radial order n is selected exactly for the request (l, m, n) and mode type in its name.", "quantifier": "all integers l, m, n and name decorations", "why_tests_cant": "infinite name space; greedy regex", "anchors": ["aesolver/aesolver/model_handling/subselection_classes.py"]}
{"id": "C53", "title": "TAR fit file names", "statement": "The TAR eigenvalue file requested for (l, m) is the one GYRE names with signed m and k.", "quantifier": "all l, m", "why_tests_cant": "sign handling over all integers", "anchors": ["gyre-tools/lam_tar_gyre/lam_tar_gyre.py:_sgnval"]}
{"id": "C54", "title": "Two-mode (harmonic) stability check", "statement": "For harmonic couplings the stability check accepts iff the two-mode amplitude equations have a linearly stable fixed point with both modes excited.", "quantifier": "all rates, detunings and coupling strengths", "why_tests_cant": "continuous parameter space", "anchors": ["aesolver/aesolver/stability_checker/two_mode/stab_checker_quadratic_two_sum.py", "aesolver/aesolver/pre_checks/specific/three_mode_checks.py:_check_linearly_stable_fp"]}
{"id": "C55", "title": "Critical parent amplitude is the parametric-instability threshold", "statement": "With the parent held at a constant amplitude, growing daughter modes exist iff that amplitude exceeds the reported critical parent amplitude.", "quantifier": "all rates, frequencies, detunings, couplings and parent amplitudes", "why_tests_cant": "continuous parameter space", "anchors": ["aesolver/aesolver/stationary_solving/three_mode/three_mode_stationary.py:_compute_theoretical_amps"]}
{"id": "C56", "title": "Equal-width binning implementations agree", "statement": "For the same data, bin width, bin number and binning phase, the cython, numexpr and BLAS histogram implementations assign every point to the same bin and return the same counts.", "quantifier": "all data sets, bin widths, bin numbers and phases", "why_tests_cant": "tests fix phase 0; the rounding direction and sign conventions only show for other phases", "anchors": ["histogram_maker/hogg_jacky/cython_jacky/cy_jacky.py", "histogram_maker/hogg_jacky/numexpr_jacky.py", "histogram_maker/hogg_jacky/blas_jacky.py", "_cython_binning_serial_loop", "_numexpr_binning", "_blas_binning"]}
{"id": "C57", "title": "Isolated triads respect the second-lowest threshold", "statement": "Whenever a triad is flagged isolated, the equilibrium amplitude (in ppm) of the lowest-threshold triad of its parent is a number below the threshold amplitude of every other valued triad with that parent.", "quantifier": "all triad tables and tie-breaking choices of the partition routine", "why_tests_cant": "combinatorial tables; numpy's tie-breaking is unspecified", "anchors": ["aesolver/ae_analyzer/library_functions/masking.py:compare_second_lowest_thresholds_with_lowest_threshold_equilibrium_amp"]}
{"id": "C58", "title": "Luminosity cut removes all triads sharing a mode with a too faint triad", "statement": "A triad kept by the minimum-threshold-luminosity cut has a threshold of at least the minimum, and shares no mode in the same role (parent or daughter) with a triad whose threshold is below the minimum or undefined.", "quantifier": "all triad tables and cut values", "why_tests_cant": "combinatorial", "anchors": ["aesolver/aeplotter/library_functions/masking.py:_get_threshold_lum_mask"]}
{"id": "C59", "title": "Location of the defaults inlist", "statement": "For an inlist at root/dir/base.ext the defaults are read from root/defaults/base.defaults.", "quantifier": "all paths", "why_tests_cant": "A greedy regular expression over arbitrary paths; tests use one directory layout.", "anchors": ["util-tools/inlist_handler/inlist_handler.py:compiled_regex_defaults", "util-tools/inlist_handler/inlist_handler.py:InlistHandler._get_default_inlist_values"]}
{"id": "C60", "title": "Quoted inlist strings are read as their content", "statement": "A quoted string in an inlist is read as the text between the quotes.", "quantifier": "all quoted strings", "why_tests_cant": "The type inference looks for substrings (True, None, brackets, dots) in arbitrary text.", "anchors": ["util-tools/inlist_handler/inlist_handler.py:InlistHandler._typer"]}
{"id": "C61", "title": "The selected inlist file is the one read, in its own format", "statement": "When a full inlist path is given, the parser's default inlist is that file, its base directory is the nearest parent directory containing the base-directory name, and the file that is read is parsed in the format of its suffix.", "quantifier": "all paths, base-directory names and command-line choices", "why_tests_cant": "Quantifies over all directory structures and names.", "anchors": ["util-tools/generic_parser/generic_parser.py:GenericParser._initialization_mode_1", "util-tools/generic_parser/generic_parser.py:GenericParser._prepare_to_read_args"]}
{"id": "C62", "title": "Hough functions satisfy Laplace's tidal equations", "statement": "The eigenpairs computed for the radial Hough function are those of Laplace's tidal operator at every collocation point, and the radial, latitudinal and azimuthal profiles returned for an eigenpair satisfy the continuity equation with that eigenvalue at every point.", "quantifier": "all grid sizes, spin parameters without critical latitude on the grid, degrees, azimuthal orders, eigenpairs", "why_tests_cant": "continuous parameters and all grid sizes", "anchors": ["hough-func-tools/hough_function/hough_function.py:_colloc", "hough-func-tools/hough_function/hough_function.py:_get_latitudinal_hough", "hough-func-tools/hough_function/hough_function.py:_get_azimuthal_hough"]}
{"id": "C63", "title": "Selection and normalisation of the Hough eigenpair", "statement": "Whatever eigenpairs the solver returns, the eigenvalue kept is the real negative one nearest the requested value (or an error if there is none), the radial profile is an eigenvector for it, its maximum modulus is one and its last value is not negative; calling the object again gives the same result.", "quantifier": "all sets and orders of eigenpairs, all guesses", "why_tests_cant": "solver output order and degeneracies are unbounded", "anchors": ["hough-func-tools/hough_function/hough_function.py:_get_eigenvalue_and_radial_hough"]}
{"id": "C64", "title": "Chebyshev-Gauss option for angular integrals", "statement": "With the Chebyshev-Gauss option the angular integral of a profile on the collocation grid is evaluated by the rule (of order multiplier times the number of points) applied to the interpolated profile; with blow-up protection it replaces results above the threshold.", "quantifier": "all grid sizes, order multipliers, profiles and options", "why_tests_cant": "all grid sizes and multipliers", "anchors": ["aesolver/aesolver/angular_integration/rotating_tar_angular/hough_integration.py:_compute_theta_integral"]}
{"id": "C65", "title": "The coupling coefficient does not depend on the order of the modes", "statement": "Relabelling the three modes, with all their profiles, azimuthal orders and conjugation flags, leaves the coupling coefficient and each of its four terms unchanged, on the whole radius and on every radial slice.", "quantifier": "all permutations of the modes, all profiles, grids, slices and contents of uninitialised arrays", "why_tests_cant": "all inputs and permutations; results must not depend on uninitialised memory", "anchors": ["aesolver/aesolver/coupling_coefficients/quadratic_coupling_coefficient_rotating.py"]}
{"id": "C66", "title": "Forbidden triads have coupling coefficient zero", "statement": "When the azimuthal orders, with reversed sign for the conjugated modes, do not sum to zero the coupling coefficient and its terms are exactly zero.", "quantifier": "all azimuthal orders, conjugation settings, profiles", "why_tests_cant": "all integers and profiles", "anchors": ["aesolver/aesolver/coupling_coefficients/quadratic_coupling_coefficient_rotating.py", "aesolver/aesolver/angular_integration/rotating_tar_angular/hough_integration.py"]}
{"id": "C67", "title": "Radial profile of the coupling coefficient", "statement": "The coupling coefficient profile has one entry for each radial point, starts at zero, has as entry j the coefficient restricted to the first j+1 points, and ends in the coupling coefficient.", "quantifier": "all grids and profiles", "why_tests_cant": "all grid sizes", "anchors": ["aesolver/aesolver/coupling_coefficients/quadratic_coupling_coefficient_rotating.py:coupling_coefficient_profile"]}
{"id": "C68", "title": "The coupling coefficient is linear in each mode", "statement": "Multiplying the eigenfunctions of one of the modes by a constant multiplies the coupling coefficient and each of its terms by that constant.", "quantifier": "all profiles and factors, all radial slices", "why_tests_cant": "all real profiles", "anchors": ["aesolver/aesolver/coupling_coefficients/quadratic_coupling_coefficient_rotating.py"]}
{"id": "C69", "title": "Mode norms and energies", "statement": "The norm of a mode is the volume integral of density times the squared displacement and the energy follows from it and the Coriolis term; both are quadratic in the amplitude of the mode.", "quantifier": "all profiles and frequencies", "why_tests_cant": "all real profiles", "anchors": ["aesolver/aesolver/coupling_coefficients/quadratic_coupling_coefficient_rotating.py"]}
{"id": "C70", "title": "The conjugation setting is honoured", "statement": "The coupling coefficient is computed with the conjugations asked for: none for False, the first mode for True or when nothing is given, the flagged modes for a tuple.", "quantifier": "all settings and azimuthal orders", "why_tests_cant": "every triad must be treated with the setting", "anchors": ["aesolver/aesolver/coupling_coefficients/quadratic_coupling_coefficient_rotating.py:__init__"]}
{"id": "C71", "title": "A saved file holds the results of all triads", "statement": "A run with at least one triad produces a file with, at every documented path, an array with one row per triad, in the order of the triads, holding the documented quantity, together with the documented attributes and nothing else.", "quantifier": "all lists of triads and all their results", "why_tests_cant": "ranges over all result lists; a wrong column or index shows only for particular values", "anchors": ["aesolver/aesolver/data_handling/data_specific/hdf5_saver.py:HDF5Saver"]}
{"id": "C72", "title": "Every run has its own file in the output directory", "statement": "The file of a run lies in the output directory below the base directory, is named after the given name and the quantum numbers, and runs that differ in base directory, name or quantum numbers have different files.", "quantifier": "all base directories, names and quantum numbers", "why_tests_cant": "ranges over all strings and integers", "anchors": ["aesolver/aesolver/data_handling/data_specific/hdf5_saver.py:_adjust_file_path", "aesolver/aesolver/data_handling/storer.py"]}
{"id": "C73", "title": "Loading finds the saved file", "statement": "The path that is loaded for the base directory, name and quantum numbers of a run is the path of the file the run has saved; with lists of names every name gets its path.", "quantifier": "all base directories, names, specification names and quantum numbers, and all lists of them", "why_tests_cant": "two independent name builders must agree on every input", "anchors": ["aesolver/aesolver/read_load_info/load_name_plots.py:LoadFileName", "aesolver/aesolver/data_handling/data_specific/hdf5_saver.py:_adjust_file_path"]}
{"id": "C74", "title": "Surface flux variations use the normalised perturbations", "statement": "The stored flux variation of a mode is its amplitude times the modulus of the combination of its normalised surface perturbations with its disc integrals.", "quantifier": "all triads, models and configurations", "why_tests_cant": "all real perturbations and norms", "anchors": ["aesolver/aesolver/solver/solver_base_classes/quadratic_solver.py", "aesolver/aesolver/solver/quadratic_grid.py"]}
{"id": "C75", "title": "Relative luminosity phase", "statement": "The relative luminosity phase of a triad is its relative phase plus the azimuthal term of the observer; it does not depend on the observer when the azimuthal orders of the daughters add up to that of the parent.", "quantifier": "all angles, azimuthal orders and perturbations", "why_tests_cant": "all real angles", "anchors": ["aesolver/aesolver/stationary_solving/three_mode/three_mode_stationary.py:ThreeModeStationary"]}
{"id": "C76", "title": "Triads are independent", "statement": "The results stored for a triad do not depend on the other triads of the run, on their order, or on what was computed before; a triad that fails its pre-check gets zero amplitudes and no coupling.", "quantifier": "all triad lists, orders and earlier states", "why_tests_cant": "all histories of the solver object", "anchors": ["aesolver/aesolver/solver/quadratic_grid.py:_call_grid_computations", "aesolver/aesolver/solver/solver_base_classes/quadratic_solver.py"]}
{"id": "C77", "title": "MESA profiles are selected by suffix, and files for GYRE left out", "statement": "A file is selected as MESA profile exactly when its suffix is the one asked for, it is not a file for GYRE and the additional substrings are in its name; with one such file in the directory it is loaded.", "quantifier": "all names, suffixes and substrings", "why_tests_cant": "infinite name space", "anchors": ["aesolver/aesolver/model_handling/subselection_classes.py:MESAProfileSubSelector", "aesolver/aesolver/model_handling/load_models.py:read_data_files"]}
{"id": "C78", "title": "Loaded modes correspond to the requested modes", "statement": "If the mode files are loaded, there is one set of data for each requested mode, in the requested order, each from the only file selected for that mode, whatever the order in which the directory lists its files; if every mode has exactly one readable file, loading succeeds.", "quantifier": "all directories, listings and requests", "why_tests_cant": "all directory contents and listing orders", "anchors": ["aesolver/aesolver/model_handling/load_models.py:read_data_files", "aesolver/aesolver/model_handling/read_models.py:data_file_reader"]}
{"id": "C79", "title": "Analytic polytrope is a star of the requested mass and radius", "statement": "For every polytropic index n>0, gravitational constant, mass and radius, and every grid that samples a Lane-Emden solution up to its first zero, the radius, density, pressure and enclosed mass reported at each grid point belong to one and the same polytropic star: mass continuity, hydrostatic equilibrium and P=K rho^(1+1/n) hold, the mass tends to 0 at the centre and to exactly the requested mass at exactly the requested radius, the pressure vanishes there, and the outermost point reports radius R, mass M, gravity GM/R^2, zero density and pressure.", "quantifier": "all n>0, G, M, R > 0, all Lane-Emden solutions, all grids ending at the surface", "why_tests_cant": "A continuum of indices, masses, radii and grids; the identity depends on cancelling exponents 1/n.", "anchors": ["aesolver/aesolver/polytropic_computations/poly_struct_comps.py:142-185,435-454,501-509 (PolytropicAdditionalStructureInformation)"]}
{"id": "C80", "title": "Polytropic density and pressure derivatives are exact", "statement": "The first, second and third radial derivatives of density and pressure reported for an analytic polytrope equal, at every grid point strictly inside the star, the derivatives with respect to radius of that star's density and pressure.", "quantifier": "all n>0, G, M, R > 0, all Lane-Emden solutions, all grids, all interior grid points", "why_tests_cant": "Finite differences only test approximately and on sampled indices; here the derivative formulas must agree for all n.", "anchors": ["aesolver/aesolver/polytropic_computations/poly_struct_comps.py:201-352,395-433", "aesolver/aesolver/polytropic_computations/enumeration_files/polytropic_struct_enumeration.py:74-110"]}
{"id": "C81", "title": "Polytropic gravity and its derivatives are exact", "statement": "The gravitational acceleration reported for an analytic polytrope (both entries) equals G m(r)/r^2 of the star, the reported next two derivatives are its exact radial derivatives, and hydrostatic equilibrium dP/dr = -rho g holds between the reported numbers, at every interior grid point.", "quantifier": "all n>0, G, M, R > 0, all Lane-Emden solutions, all grids, all interior grid points", "why_tests_cant": "Requires the Lane-Emden equation for all indices and grids.", "anchors": ["aesolver/aesolver/polytropic_computations/poly_struct_comps.py:354-433,505-509", "aesolver/aesolver/polytropic_computations/enumeration_files/polytropic_struct_enumeration.py:69-96"]}
{"id": "C82", "title": "Polytropic dimensionless structure functions", "statement": "V, V_2, U, c1, As and the squared buoyancy frequency reported for an analytic polytrope have their standard definitions (logarithmic derivatives of pressure, mass and density, Gamma_1) at every interior grid point.", "quantifier": "all n>0, G, M, R > 0, Gamma_1 profiles, Lane-Emden solutions, grids, interior grid points", "why_tests_cant": "A continuum of indices and structure profiles.", "anchors": ["aesolver/aesolver/polytropic_computations/poly_struct_comps.py:456-515"]}
{"id": "C83", "title": "Polytropic profiles at the centre", "statement": "At a grid point in the centre the reported profiles are the limits of the star's profiles.", "quantifier": "all n>0, G, M, R > 0, all Lane-Emden solutions, all grids containing the centre", "why_tests_cant": "Needs the limit of a Lane-Emden solution for every index; a test only sees that finite numbers come out.", "anchors": ["aesolver/aesolver/polytropic_computations/poly_struct_comps.py:208-220,477-515"]}
{"id": "C84", "title": "The coupling coefficient is the third-order energy integral", "statement": "The coupling coefficient of three modes is the volume integral of the published third-order energy density (compression, adiabatic-exponent, tidal and gravity parts) of their displacement fields, with the displacements of the modes flagged as conjugated replaced by their complex conjugates; each of the four stored parts is the corresponding part of the integral.", "quantifier": "all stars, all triads of modes, all radial slices, all conjugation settings, all contents of uninitialised arrays", "why_tests_cant": "The coefficient is a sum of 15 symmetrised terms with some 250 products; equality with the covariant formula is an algebraic identity over all profiles, and a test can only compare numbers for single triads with another implementation of the same expansion.", "anchors": ["aesolver/aesolver/coupling_coefficients/quadratic_coupling_coefficient_rotating.py: adiabatic_coupling_rot, _kappa_1_abc, _kappa_2_abc, _kappa_3_abc, _kappa_4_abc"]}
{"id": "C85", "title": "The angular arrays of a mode belong to one azimuthal convention", "statement": "For every mode there is one azimuthal order k such that the arrays handed to the coupling computation as m*Hr, theta-phi and phi-phi combinations are the azimuthal derivatives of the displacement (Hr, Ht, i Hp) e^{ik phi} formed from the arrays Hr, Ht and Hp; hence the horizontal divergence formed from them is the tidal eigenvalue times Hr.", "quantifier": "all degrees, azimuthal orders, spin parameters, grid sizes, latitudes and definitions of the Hough functions", "why_tests_cant": "The tests compare the arrays with stored values of the same formulae; a sign convention that differs between the arrays shows up only when the arrays are related to each other for every mode.", "anchors": ["hough-func-tools/hough_function/hough_function.py: hr_range_m, theta_phi_hough_tilde, phi_phi_hough_tilde, hp_range", "aesolver/aesolver/angular_integration/rotating_tar_angular/hough_function_handler.py: HoughFunctionHandler"]}
{"id": "C86", "title": "Radial displacements and their gradients", "statement": "For modes that satisfy the oscillation equations the stored radial vectors are the radial and horizontal displacement over the radius, and the gradients stored with the symbolic option are their exact radial derivatives.", "quantifier": "all spherical stars, all modes (degree, eigenvalue, frequency), all radial grids of positive radii, polytropic or not", "why_tests_cant": "The symbolic gradients replace differentiation by a formula that uses the oscillation equations and mass conservation; that it is the derivative for every star and mode is a statement about all solutions, while tests compare a few arrays.", "anchors": ["aesolver/aesolver/coupling_coefficients/coefficient_support_classes/coupling_coefficient_rotating.py: _compute_radial_vectors, _compute_radial_gradients"]}
{"id": "C87", "title": "The stored divergence is the divergence of the displacement", "statement": "The radial part of the divergence times the radial Hough function equals the trace of the displacement gradient built from the other stored arrays, and is the Lagrangian compression of the mode.", "quantifier": "all stars, modes, radii and latitudes", "why_tests_cant": "The divergence is stored from a different formula than the gradients; their agreement is an identity over all modes.", "anchors": ["aesolver/aesolver/coupling_coefficients/coefficient_support_classes/coupling_coefficient_rotating.py: _compute_divergence_radial_part, _compute_radial_gradients"]}
{"id": "C88", "title": "Derivatives of the stellar structure", "statement": "For a star in hydrostatic equilibrium the symbolic option sets gravity and its first two derivatives, the density gradient, and the first two derivatives of pressure to their exact values at every radius (the third pressure derivative to the accuracy of the numerical second density derivative), for MESA models and for polytropes and whatever the definition of the density gradient; the numerical option differentiates step by step; the normalised profiles are the profiles over their normalisation factors.", "quantifier": "all stars in hydrostatic equilibrium, all grids of interior radii, all numerical differentiators, all settings of the options", "why_tests_cant": "The formulae stand for derivatives of functions of the radius; that they are derivatives for every star is a calculus statement, not a comparison of arrays.", "anchors": ["aesolver/aesolver/coupling_coefficients/coefficient_support_classes/super_coupling_coefficients.py: _get_profiles_MESA_GYRE, _get_profiles_polytrope_MESA_GYRE"]}
{"id": "C89", "title": "Numerical derivatives are exact on polynomials of the order of the method", "statement": "The differentiator with its default method returns the function and its exact first derivative on every quadratic, also for complex profiles; the Fornberg method returns all derivatives up to the requested order exactly on polynomials up to its interpolation order; orders that a method does not support are listed as None; with first-order edges only the two ends are off, by the curvature times the spacing.", "quantifier": "all increasing (Fornberg: distinct) grids with enough points, equally spaced or not; all polynomials; all derivative orders", "why_tests_cant": "A test differentiates a few functions on a few grids; exactness on all polynomials and all unequal spacings characterises the method.", "anchors": ["num-tools/num_deriv/num_deriv.py: NumericalDifferentiator", "aesolver/aesolver/coupling_coefficients/coefficient_support_classes/super_coupling_coefficients.py: _compute_der"]}
{"id": "C90", "title": "Stencil derivatives are exact to their order on the whole grid", "statement": "The stencil method returns at every grid point a derivative that is exact on polynomials of the order of the stencil, for each of the listed differencing types and orders.", "quantifier": "all increasing grids, polynomials, differencing types and orders", "why_tests_cant": "Boundaries and unequal spacings are where stencils fail; a test on smooth data inside an equally spaced grid does not meet them.", "anchors": ["num-tools/num_deriv/stencils.py: forward_order1, backward_order1, center_order1, center_order2, DifferentiationStencils", "num-tools/num_deriv/num_deriv.py: _stencil_differentiation"]}
{"id": "C91", "title": "Interpolation before differentiation keeps the grid", "statement": "With the interpolation option the derivative arrays have one value per point of the original grid.", "quantifier": "all methods, orders, refinement factors at least 2, increasing grids and data", "why_tests_cant": "Whether an original point is also a point of the refined grid depends on arithmetic of all grids and factors.", "anchors": ["num-tools/num_deriv/num_deriv.py: differentiate"]}
{"id": "C92", "title": "Hough functions are normalised, independently of their input amplitude", "statement": "When a coupling-coefficient object is constructed, all Hough functions and derived angular functions of one mode are multiplied by one positive factor, no radial function changes, and afterwards the radial Hough function satisfies the chosen convention: unit integral of its square over the sphere ('lee2012') or unit peak ('prat2019'). The result is independent of the amplitude of the input functions except for their sign, and normalising again changes nothing.", "quantifier": "every set of Hough functions of three modes on every latitudinal grid, both conventions, and every nonzero rescaling of the inputs", "why_tests_cant": "the invariance under rescaling ranges over all real factors and all function tables", "anchors": ["aesolver/aesolver/coupling_coefficients/quadratic_coupling_coefficient_rotating.py:_normalize_houghs", "hough-func-tools/hough_function/hough_normalizer.py:HoughNormalizer", "aesolver/aesolver/angular_integration/rotating_tar_angular/hough_function_handler.py:get_functional_names"]}
{"id": "C93", "title": "The normalised coupling coefficient does not depend on input eigenfunction amplitudes", "statement": "After construction every mode has energy G M^2 / R (both recorded and recomputed from the stored functions); the normalised coupling coefficient is the computed coefficient times R/(G M^2), Lee's eta is twice it; and multiplying the radial eigenfunctions of each mode by any nonzero factor and its Hough functions by any nonzero factor changes them at most by the product of the signs.", "quantifier": "every object with positive mode energies, all nonzero rescaling factors of the three modes, any contents of uninitialised arrays", "why_tests_cant": "GYRE and the Hough solver return eigenfunctions with arbitrary amplitude; invariance must hold for all real factors", "anchors": ["aesolver/aesolver/coupling_coefficients/quadratic_coupling_coefficient_rotating.py:__init__", "aesolver/aesolver/coupling_coefficients/quadratic_coupling_coefficient_rotating.py:normed_coupling_coefficient", "aesolver/aesolver/coupling_coefficients/quadratic_coupling_coefficient_rotating.py:eta_lee_coupling_coefficient"]}
{"id": "C94", "title": "The three modes are brought to one radial grid", "statement": "When the constructor of the coupling-coefficient object finishes for a MESA/GYRE triad, the radial coordinate is that of the finest of the three files (without the cut end points); every mode quantity is the piecewise linear function through that mode's own points on that grid, cut in the same way (unchanged if the mode is already on it, exact if it is affine in radius); the structure arrays are those of the first file, cut in the same way; and well-formed input is accepted.", "quantifier": "all dictionaries of the three modes and the structure file, all grids and array values, all four settings of the center and surface cuts", "why_tests_cant": "the claim is about all combinations of grid sizes and values, and all attribute names; the example data have equal grids", "anchors": ["aesolver/aesolver/coupling_coefficients/coefficient_support_classes/super_coupling_coefficients.py:_interpolation_modes", "aesolver/aesolver/coupling_coefficients/coefficient_support_classes/super_coupling_coefficients.py:_interpolator", "aesolver/aesolver/coupling_coefficients/coefficient_support_classes/super_coupling_coefficients.py:_extract_common_info_dictionary", "aesolver/aesolver/coupling_coefficients/quadratic_coupling_coefficient_rotating.py:__init__"]}
{"id": "C95", "title": "Structure profiles are given on the grid of the modes", "statement": "The structure profiles read from the MESA or polytrope file are delivered on the grid of the modes: values of the piecewise linear function of scaled radius through the stored points, from center to surface.", "quantifier": "all structure files, all grids of the modes, every profile in the file", "why_tests_cant": "the claim is about all pairs of grids; the failing pairs (same number of points at other radii) are exactly those a test on one data set does not contain", "anchors": ["aesolver/aesolver/coupling_coefficients/coefficient_support_classes/super_coupling_coefficients.py:_extract_additional_profile_info"]}
{"id": "C96", "title": "All arrays of a polytrope triad are on one grid", "statement": "When the constructor finishes for a polytrope, the first mode has the finest grid, the structure file has as many points, the pressure and density scales are the central values of the file, and every array the coefficient uses is that of its file, brought to that grid and without the cut end points, each cut exactly once; well-formed input of this kind is accepted.", "quantifier": "all dictionaries of modes and structure, all grids and values, all settings of the cuts", "why_tests_cant": "an array that is cut twice or not at all still has plausible values; the statement is about each of the arrays, all inputs and all cut settings", "anchors": ["aesolver/aesolver/coupling_coefficients/coefficient_support_classes/super_coupling_coefficients.py:_store_polytropic_structure_coefficients", "aesolver/aesolver/coupling_coefficients/coefficient_support_classes/super_coupling_coefficients.py:_mode_structure_cuts", "gyre-tools/gyre_cutter/gyre_cutter.py"]}
{"id": "C97", "title": "Normalisation scales of a MESA model", "statement": "The pressure and density scales of a MESA model are the largest values in the pressure and density arrays the object holds after its end points have been cut.", "quantifier": "all input dictionaries, all settings of the cuts", "why_tests_cant": "the largest value is usually the center, which is one of the points that may be cut: the claim couples the two slices for all settings", "anchors": ["aesolver/aesolver/coupling_coefficients/coefficient_support_classes/super_coupling_coefficients.py:_set_normalization_factors"]}
{"id": "C98", "title": "TAR-validity masks are exactly the valid and invalid zones", "statement": "For a triad on the slow manifold in a model with both kinds of points, the masking information marks as valid exactly the grid points where a tenth of the Brunt-Vaisala frequency exceeds twice the rotation frequency and all mode frequencies; its valid (invalid) masks select exactly the maximal valid (invalid) zones, once each and from centre to surface; the index pair of an invalid zone runs from its first point to the first point after it (last grid point at the surface); the logged message names the state of core and surface.", "quantifier": "every Brunt-Vaisala profile (any length, negative entries included), rotation, mode frequencies and quality factors", "why_tests_cant": "the number and position of the transitions is unbounded and four index-pairing branches have to agree for all of them", "anchors": ["aesolver/aesolver/solver/quadratic_profile.py: get_masking_info_tar_validity"]}
{"id": "C99", "title": "Masking information exists for every slow triad", "statement": "For every non-empty model and every triad on the slow manifold masking information is returned: no invalid zone when the approximation holds everywhere, the whole star when it holds nowhere.", "quantifier": "every profile and triad", "why_tests_cant": "depends on the joint pattern of two criteria over all grid points", "anchors": ["aesolver/aesolver/solver/quadratic_profile.py: get_masking_info_tar_validity"]}
{"id": "C100", "title": "The adjusted coupling coefficient keeps exactly the valid increments", "statement": "The adjusted coefficient equals the profile value at the first grid point plus the increments of the profile over exactly the intervals whose inner end point is valid; the reported contributions are one per invalid zone, ordered outwards, and add up to the difference with the unadjusted value; adjusted terms add up to the adjusted sum.", "quantifier": "every successful masking result and every profile of matching length", "why_tests_cant": "holds for every number and position of zones", "anchors": ["aesolver/aesolver/solver/profile_plot_classes/coupling_coefficient_plots/plot_template.py: get_contribution_due_to_convective_zone, double_masking_integrated_radial_profile_figure_template_function"]}
{"id": "C101", "title": "The adjusted profile accumulates the valid increments", "statement": "At every grid point the adjusted profile equals the first value plus the increments over the valid intervals up to that point; in particular it ends at the adjusted coefficient.", "quantifier": "every successful masking result, profile and grid point", "why_tests_cant": "depends on the pairing of valid masks with cumulative contributions for every zone pattern", "anchors": ["aesolver/aesolver/solver/profile_plot_classes/coupling_coefficient_plots/plot_template.py: double_masking_integrated_radial_profile_figure_template_function"]}
{"id": "C102", "title": "Printed adjusted amplitudes are those of the adjusted coefficient", "statement": "The adjusted amplitudes, parent threshold, fluxes and threshold flux printed for a profile are those the stationary solver computes when given the adjusted coupling coefficient.", "quantifier": "every driving rates, frequencies, detuning, disc factors and pair of non-zero coefficients", "why_tests_cant": "real-valued identity for all parameters", "anchors": ["aesolver/aesolver/solver/profile_print_functions/coupling_coefficient_print_functions.py: print_normed_cc_and_get_adjust_ratio, print_theoretical_amplitudes, print_surface_luminosities"]}
{"id": "C103", "title": "Angular kernel data: one row per legend entry, scaled as the entry declares", "statement": "For each of the four energy contributions the angular kernel data hold, for every term, one row per legend entry; the legend lists every distinct distribution of the three functions over the modes once (one entry only if the term is symmetric), and a row is the product of those functions times the factors the entry declares (numeric factor, cosine of colatitude, division by the sine).", "quantifier": "every object with sampled Hough functions, every contribution number, term, legend entry and latitude", "why_tests_cant": "array-valued identity over all sampled functions", "anchors": ["aesolver/aesolver/solver/profile_helper_classes/angular_kernels/angular_kernel_helper.py: AngularKernelHelper", "py-combinations/py_combinations: symmetric products"]}
{"id": "C104", "title": "Radial kernel data: one row per legend entry with the structural multipliers", "statement": "For each of the four contributions the radial kernel data of a star and triad exist whenever the coupling coefficient does, and hold, for every term, one row per legend entry equal to a constant times the product of the radial functions, the cube of the radius over the energy, and the structural multipliers the entry names.", "quantifier": "every star, triad, contribution number, term, legend entry and radius", "why_tests_cant": "array-valued identity over all sampled functions and stars", "anchors": ["aesolver/aesolver/solver/profile_helper_classes/radial_kernels/radial_kernel_helper.py: RadialKernelHelper"]}
{"id": "C105", "title": "The kernels recombine to the energy density of the coupling coefficient", "statement": "Pairing each radial kernel with the angular kernels it multiplies, scaled as declared, and summing over the distributions of the modes gives, at every radius and latitude, the energy density whose integral is the coupling coefficient, for each of the four contributions.", "quantifier": "every star, triad, contribution, radius and latitude off the poles", "why_tests_cant": "pointwise real identity with dozens of permuted products", "anchors": ["aesolver/aesolver/solver/profile_helper_classes/angular_kernels/angular_kernel_helper.py: AngularKernelHelper", "aesolver/aesolver/solver/profile_helper_classes/radial_kernels/radial_kernel_helper.py: RadialKernelHelper", "aesolver/aesolver/coupling_coefficients/quadratic_coupling_coefficient_rotating.py"]}
{"id": "C106", "title": "Nonlinear frequencies of the analysis are locked", "statement": "The nonlinear frequencies listed by the analyzer for a triad are exactly resonant (parent = sum of the daughters), each shifted from the linear inertial frequency by the share of the linear detuning that its growth rate has in the sum of growth rates; the smallest frequency used by the overview plot is the smallest of these.", "quantifier": "every saved triad of a rotating star satisfying the selection rule with non-vanishing summed growth rates", "why_tests_cant": "real identity over all frequencies and rates", "anchors": ["aesolver/ae_analyzer/quadratic_stationary_analyzer.py: _compute_freq_shifts", "aesolver/aeplotter/quadratic_plotter.py: _compute_minimal_inertial_frequencies"]}
{"id": "C107", "title": "Spin parameters of the analysis are those of the star", "statement": "The rotation frequency and the spin parameters that analyzer and plotter derive from the saved frequencies are the rotation frequency of the star and twice that over the mode frequencies.", "quantifier": "every saved triad of every rotating star, for all azimuthal orders", "why_tests_cant": "depends on the azimuthal order of the first daughter; a test uses one", "anchors": ["aesolver/ae_analyzer/quadratic_stationary_analyzer.py: _compute_frequency_data", "aesolver/aeplotter/quadratic_plotter.py: _compute_frequency_data"]}
{"id": "C108", "title": "Threshold luminosity of a triad", "statement": "The luminosity threshold (ppm) of a parametric triad is the threshold amplitude converted with the factor between luminosity variation and amplitude of the parent; it is missing exactly for triads without a parametric solution, amplitude, luminosity or threshold; and comparing luminosities with it is comparing amplitudes with the threshold amplitude.", "quantifier": "every saved triad", "why_tests_cant": "all real data and all patterns of missing values", "anchors": ["aesolver/ae_analyzer/quadratic_stationary_analyzer.py: _compute_threshold_surface_luminosity_variations", "aesolver/aeplotter/quadratic_plotter.py: _compute_threshold_surface_luminosity_variations"]}
{"id": "C109", "title": "Luminosity ratios of a triad", "statement": "The listed ratios are daughter over parent for parametric triads, first mode over the others for direct triads, and missing for all others.", "quantifier": "every saved triad with finite luminosities", "why_tests_cant": "all real data and flags; masked in-place divisions", "anchors": ["aesolver/ae_analyzer/quadratic_stationary_analyzer.py: _compute_amp_ratios", "aesolver/ae_analyzer/utility_functions.py: compute_single_amplitude_ratio"]}
{"id": "C110", "title": "Mirrored frequencies are Nyquist aliases", "statement": "A negative inertial frequency is shown at its alias: the frequency between zero and the Nyquist frequency that differs from it or its opposite by a multiple of the sampling frequency; other frequencies are kept.", "quantifier": "every real frequency", "why_tests_cant": "continuum of frequencies; only some intervals are wrong", "anchors": ["aesolver/aeplotter/quadratic_plotter.py: _perform_frequency_mirroring"]}
{"id": "C111", "title": "Models stay separate in analysis and plots", "statement": "The triads of each requested model are loaded as a data set of their own: the files linked to one model are joined in order, those of different models are not mixed.", "quantifier": "every request of models and files", "why_tests_cant": "any mixture of single and linked files", "anchors": ["aesolver/ae_analyzer/quadratic_stationary_analyzer.py: _load_analysis_data", "aesolver/aeplotter/quadratic_plotter.py: _load_sharpness_overview_data"]}
{"id": "C112", "title": "Classes of triads in terms of the saved data", "statement": "The analyzer's classes (stable, valid, isolated, valid and isolated, all three) hold for a triad exactly if its saved stability checks hold, its linear detuning is at most a tenth of each of its three mode frequencies, and it is isolated; an isolated triad has a parametric solution with amplitude, luminosity and threshold.", "quantifier": "every table of triads and every position", "why_tests_cant": "all tables of any length", "anchors": ["aesolver/ae_analyzer/quadratic_stationary_analyzer.py: _store_masks_for_analysis", "aesolver/ae_analyzer/library_functions/masking.py"]}
{"id": "C113", "title": "Counts of the quality factor condition", "statement": "Per model the counts are the numbers of triads whose ratio of detuning and summed growth rates is above the quality factor of the parent, with luminosity ratios above one, with both, and by class with the numbers in and out of the class adding up; the printed totals are the sums over all models.", "quantifier": "every list of models and triads", "why_tests_cant": "all numbers of models and triads", "anchors": ["aesolver/ae_analyzer/quadratic_stationary_analyzer.py: generate_counts_q_quality_factor_1_condition"]}
{"id": "C114", "title": "Resonance sharpness data", "statement": "The sharpness figure shows, for the isolated and the other triads, the detuning over the summed daughter rates of exactly the stable and valid triads of all models; the full data set is both together, with none lost or counted twice, and the counts per model are the numbers of those triads.", "quantifier": "every list of models and triads", "why_tests_cant": "all numbers of models and triads", "anchors": ["aesolver/aeplotter/quadratic_plotter.py: _generate_plotting_masks_sharpness", "aesolver/aeplotter/quadratic_plotter.py: _generate_resonance_sharpness_figure_data"]}
{"id": "C115", "title": "Only harmonics are removed from the overview", "statement": "The overview masks together contain exactly the stable triads whose two daughters are different modes.", "quantifier": "every table of triads and all quantum numbers of the daughters", "why_tests_cant": "all tables and quantum numbers", "anchors": ["aesolver/aeplotter/quadratic_plotter.py: _get_harmonic_mask", "aesolver/aeplotter/library_functions/masking.py: theoretical_plotting_masks_overview"]}
{"id": "C116", "title": "Counts in messages are spelled correctly", "statement": "The conversion of a count to words gives the English words of the number.", "quantifier": "every non-negative integer", "why_tests_cant": "all integers", "anchors": ["aesolver/aerunners/data_modules/utility_functions.py: _convert_integer_to_count_string"]}
{"id": "C117", "title": "The save name of the command line is used", "statement": "A solve run with an accepted command line uses the argument after --save_file_name as save name.", "quantifier": "every command line, file system and inlist", "why_tests_cant": "all command lines and inlists", "anchors": ["aesolver/aerunners/solve_quadratic.py: _set_up_specific_argparser, get_save_name", "util-tools/generic_parser/generic_parser.py: _set_up_specific_argparser_groups_arguments"]}
{"id": "C118", "title": "Which inlist a script reads", "statement": "Each script accepts exactly two forms of command line; the inlist is taken below the working directory, otherwise below the parent of the directory of the script, otherwise it is reported missing.", "quantifier": "every command line, script path, working directory and set of existing files", "why_tests_cant": "all paths and file systems", "anchors": ["aesolver/aerunners/solve_quadratic.py: _get_path_to_inlist", "util-tools/path_resolver/resolve_paths.py: resolve_path_to_file", "aesolver/aerunners/data_modules/utility_functions.py: check_save_file_name"]}
{"id": "C119", "title": "One checkout serves all scripts", "statement": "In the directory in which the solve script starts, the plot and analysis scripts start too.", "quantifier": "every location of the inlist and every command line", "why_tests_cant": "all directory names", "anchors": ["aesolver/aerunners/plot_quadratic.py: QuadraticPlotParser", "aesolver/aerunners/analyze_quadratic.py", "aesolver/aerunners/solve_quadratic.py", "util-tools/generic_parser/generic_parser.py: _initialization_mode_1"]}
{"id": "C120", "title": "Options of the inlist reach the solver", "statement": "Every computation option of the inlist is passed to the solver under its keyword, None if it is not in the inlist, and the model directories are those of the requested kind of model.", "quantifier": "every inlist document", "why_tests_cant": "all documents", "anchors": ["aesolver/aerunners/solve_quadratic.py: read_toml_args, _perform_computations", "aesolver/aesolver/solver/quadratic_grid.py", "aesolver/aesolver/solver/quadratic_profile.py"]}
{"id": "C121", "title": "Number of parallel processes", "statement": "The number of parallel processes in the inlist determines how many processes or threads are used.", "quantifier": "every inlist document and value", "why_tests_cant": "non-interference over all documents", "anchors": ["aesolver/aerunners/solve_quadratic.py: read_toml_args, _perform_computations", "inlists/inlist.toml: computation.nr_parallel_processes"]}
{"id": "C122", "title": "Inlists in the custom format", "statement": "A run reads its options from a TOML or from a custom inlist.", "quantifier": "every inlist path and content", "why_tests_cant": "all files", "anchors": ["util-tools/generic_parser/generic_parser.py: read_args, read_custom_args", "aesolver/aerunners/solve_quadratic.py"]}
{"id": "C123", "title": "Verbosity options", "statement": "Debug mode sets the debug level, otherwise non-verbose mode the warning level, otherwise the level is kept; the two options are removed from the solver arguments and all others stay.", "quantifier": "every dictionary and level", "why_tests_cant": "all dictionaries", "anchors": ["util-tools/log_formatter/log_formatter.py: adjust_root_logger_level"]}
{"id": "C124", "title": "One computation per run, and what is saved", "statement": "A usable inlist leads to a computation exactly if one of grid and profile is switched on and not both, otherwise to a runtime error; grids, and only grids, are passed to the saver, with the save name and the saving options.", "quantifier": "every inlist document, save name and command line", "why_tests_cant": "all documents and command lines", "anchors": ["aesolver/aerunners/solve_quadratic.py: _perform_computations, _save_data, perform_complete_solve_run", "aesolver/aesolver/data_handling/storer.py: NumericalSaver"]}
{"id": "C125", "title": "Dimensional quantities of a loaded mode", "statement": "For a GYRE mode file loaded in cgs units, every eigenfunction quantity that GYRE stores in stellar units is available under its name with '_dim', multiplied by the documented unit (radius, GM/R, GM/R^2, dynamical frequency, MR^2, GM^2/R, or the local profile of pressure, density, temperature, total luminosity), point by point and with real and imaginary parts kept; what was read stays under its own name with the same numbers, and no other names appear but G. For polytropes nothing but G, mass and radius is added.", "quantifier": "every data dictionary with distinct names, every stellar mass, radius and gravitational constant, scalar and array quantities of every length", "why_tests_cant": "over fifty quantities, all numbers and array lengths", "anchors": ["aesolver/aesolver/model_handling/load_models.py: dimensionalize, unit_convert, load_polytrope_data", "aesolver/aesolver/model_handling/enumeration_files/enumeration_dimensions.py", "num-tools/carr_conv/carr_conv.py: re_im"]}
{"id": "C126", "title": "SI loading gives the same physical quantities", "statement": "Loading a GYRE mode file in SI units succeeds exactly if loading it in cgs units does, and every loaded quantity is the same physical quantity: its SI number is its cgs number times the ratio of the units of its dimension.", "quantifier": "every data dictionary and every gravitational constant in consistent units", "why_tests_cant": "all files, all quantities", "anchors": ["aesolver/aesolver/model_handling/load_models.py: unit_convert, dimensionalize", "aesolver/aesolver/model_handling/enumeration_files/enumeration_models.py: GYREDetailFiles", "aesolver/aesolver/model_handling/enumeration_files/enumeration_dimensions.py"]}
{"id": "C127", "title": "One unit system for everything that is loaded", "statement": "The unit system option means the same for every quantity: with SI everything that is loaded (gravitational constant, mode data, MESA profile columns, polytrope mass and radius) is in SI units, with any other name everything is in cgs units.", "quantifier": "every name of the unit system, every data dictionary", "why_tests_cant": "all names and all data", "anchors": ["aesolver/aesolver/model_handling/load_models.py: ModelLoader", "aesolver/aesolver/model_handling/enumeration_files/enumeration_models.py: MESAProfileFiles"]}
{"id": "C128", "title": "What is read from a data file", "statement": "From a file exactly the known quantities it contains are read, each once; a data set or column takes precedence over an attribute or header entry of the same name; the unit conversion refuses none of the names that were read, and in cgs units leaves the data as read.", "quantifier": "every file (columns and header entries), every table of known names", "why_tests_cant": "all files", "anchors": ["aesolver/aesolver/model_handling/read_models.py: read_data_files", "aesolver/aesolver/model_handling/load_models.py: unit_convert"]}
{"id": "C129", "title": "Directories of the loader are those documented", "statement": "As documented, a directory given together with a base directory is a subdirectory of the base directory, and one given without a base directory is an absolute path; directories that are not needed need not be given.", "quantifier": "every base directory, every four directories, every state of the file system, with and without inference", "why_tests_cant": "all directories and file systems", "anchors": ["aesolver/aesolver/model_handling/load_models.py: _init_dir_path, _initialize_dirs, _infer_dirs"]}
{"id": "C130", "title": "Inference of directories", "statement": "A directory that is not given is inferred to be the subdirectory of the base directory whose name contains the keyword, in any case, if there is exactly one such subdirectory; if there is none or more than one, the directory stays undefined.", "quantifier": "every base directory and listing, every set of given directories", "why_tests_cant": "all listings", "anchors": ["aesolver/aesolver/model_handling/load_models.py: _infer_dirs", "aesolver/aesolver/model_handling/read_models.py: ReadModels._infer_output_dir"]}
{"id": "C131", "title": "Information folders reach the loaders", "statement": "Every loader made by the solver (for adiabatic and non-adiabatic modes of stars, or for polytropes) and by the comparer has exactly the selection options and directories of the information folders at their documented places, lists being made tuples exactly where the document asks for it, and the quantum numbers of the mode combination; no option is unknown to the loader or given twice; a document in which any of the sixteen entries is missing is refused.", "quantifier": "every TOML document, base directory, mode paths, rotation rate and quantum numbers", "why_tests_cant": "all documents", "anchors": ["aesolver/aesolver/read_load_info/read_info_dirs.py: InfoDirectoryReader", "aesolver/aesolver/solver/solver_base_classes/quadratic_solver.py: load_nonradial_mode_triad", "aesolver/aesolver/ad_nad_comparer/comparer.py: load_modes"]}
{"id": "C132", "title": "The directories searched by a solver are those configured", "statement": "A solver searches the mode files in the base directory plus mode path of the inlist, and models in the output directories of the information folders; every directory that must be configured is used.", "quantifier": "every complete document with textual directories, every base directory, mode path and rotation rate", "why_tests_cant": "all documents and inlists", "anchors": ["aesolver/aesolver/solver/solver_base_classes/quadratic_solver.py: __init__, load_nonradial_mode_triad", "aesolver/aesolver/model_handling/load_models.py: ModelLoader"]}
{"id": "C133", "title": "The corrected stability domain of the figures", "statement": "A point (theta2, theta3) of the figures is in the corrected stability domain for a given detuning over parent driving rate exactly if every triad with a driven parent, damped daughters and these ratios has a linearly stable fixed point of the amplitude equations with all three modes excited; the domain is symmetric in the daughters and in the sign of the detuning.", "quantifier": "every pair of positive ratios, every detuning, every triad with these ratios, all frequencies and nonzero couplings", "why_tests_cant": "continuous parameter space", "anchors": ["VB_et_al_2024_additional_plot_compute_scripts/dziembowski_subplot.py: corrected_dziembowski"]}
{"id": "C134", "title": "The original stability domain, and where the domains are drawn", "statement": "The hatched domain of the original condition is a stability domain, too, and both domains are drawn at the parameter values they were computed for.", "quantifier": "every pair of ratios, every detuning, every grid", "why_tests_cant": "continuous parameter space", "anchors": ["VB_et_al_2024_additional_plot_compute_scripts/dziembowski_subplot.py: original_dziembowski, comp_meshgrid"]}
{"id": "C135", "title": "Points used for the threshold", "statement": "The points of the regression are the k points with amplitude ratio closest to one from above and the k points closest to one from below, none twice, with matching theta and ratio.", "quantifier": "every number of points, all ratios, every k, every result that argpartition may return", "why_tests_cant": "all data and all partition results", "anchors": ["VB_et_al_2024_additional_plot_compute_scripts/compute_threshold_theta.py: get_difference_arrays, get_k_smallest_points_masks, get_k_smallest_points"]}
{"id": "C136", "title": "Threshold and its uncertainty", "statement": "The reported threshold is the value at ratio one of the least-squares line through the chosen points, and the reported uncertainty is the standard error of this value.", "quantifier": "all points, any number", "why_tests_cant": "all data", "anchors": ["VB_et_al_2024_additional_plot_compute_scripts/compute_threshold_theta.py: perform_linear_regression"]}
{"id": "C137", "title": "Rounding errors of the integrator", "statement": "With operations that round with relative error at most u, the integrator returns a value, and it differs from the trapezoid or Simpson sum of the given numbers by at most ((1+u)^k - 1) times the sum of the sizes of the terms, with k = n + 3 (uneven), n + 2 (even), m + 5 (Simpson, m panels); for a non-negative integrand on an increasing grid that is a relative error, and the result is not negative; with double precision and up to a million samples it has nine correct digits. The OpenMP versions meet the same kind of bound, with k the largest number of iterations of a thread plus the number of threads plus a constant, for every distribution and order of the iterations.", "quantifier": "every rounding function with relative error at most u, all numbers, array lengths, distributions of iterations over threads", "why_tests_cant": "all roundings, all data, all schedules", "anchors": ["cpp-numintegrator/num_integrator/num_integration.cpp: trapz, simpson, trapz_parallel, simpson_parallel"]}
{"id": "C138", "title": "The integrator approximates integrals", "statement": "For an integrand with second derivative bounded by M the trapezoid rule of the integrator on any increasing grid is off from the integral by at most M/12 times the sum of the cubed spacings, so by M h^2 (b-a)/12 for spacings up to h; Simpson's rule for an integrand with fourth derivative bounded by M is off by at most M h^4 (b-a)/180; for every continuous integrand the results converge to the integral as the grid is refined. With rounding and with values of the integrand known up to eps, the error is at most the sum of the rule's error, eps (b-a), and the rounding bound.", "quantifier": "all intervals, grids, integrands of the stated smoothness, roundings", "why_tests_cant": "all integrands and grids; a limit", "anchors": ["cpp-numintegrator/num_integrator/num_integration.cpp: trapz, simpson"]}
{"id": "C139", "title": "Rounding errors of limb darkening and disc integrals", "statement": "With rounded operations every value of the Eddington law is off by at most (1+u)^3 - 1 relative to the size of its terms, and the two disc integrals differ from the rule applied to the exact integrands by at most ((1+u)^k - 1) times the rule applied to the sizes of the terms, with k = n + 7 and n + 11 (trapezoid, n visible samples), m + 10 and m + 14 (Simpson, m panels), in serial and in parallel.", "quantifier": "every rounding function with relative error at most u, all samples, thread counts and iteration orders", "why_tests_cant": "all roundings, all data", "anchors": ["cpp-disc-integrator/disc_integrator/disc_integrals.cpp", "cpp-ld-funcs/ld_funcs/ld_functions.cpp"]}
{"id": "C140", "title": "An automatically binned histogram is a histogram of the data", "statement": "Each of the five automatic histogram functions (numpy, iterator, cython, numexpr, blas), called on data with at least two different values, positive smoothing constants one of which exceeds 1, and positive bin numbers, returns for some tried bin number n the bars of n equal bins between the least and the largest value, the n+1 edges and their distance: counts sum to the number of values, probabilities to one, densities integrate to one.", "quantifier": "all data arrays (with NaNs), grids of smoothing constants and bin numbers, options", "why_tests_cant": "all data and grids", "anchors": ["histogram_maker/hogg_jacky/numpy_iterator_jacky.py: hogg_jackknife_likelihood_numpy, hogg_jackknife_likelihood_iterator", "histogram_maker/hogg_jacky/cython_jacky/cy_jacky.py: hogg_jackknife_likelihood_cython", "histogram_maker/hogg_jacky/numexpr_jacky.py: hogg_jackknife_likelihood_numexpr", "histogram_maker/hogg_jacky/blas_jacky.py: hogg_jackknife_likelihood_blas"]}
{"id": "C141", "title": "The automatic histogram maximises the leave-one-out likelihood", "statement": "The returned histogram belongs to the first combination of smoothing constant and bin number whose leave-one-out log-likelihood (the sum over the points of the log of the smoothed density estimated from all other points) is largest among the tried ones for which it is considered; so all five implementations return the same.", "quantifier": "all data arrays, grids, options", "why_tests_cant": "a maximum over all grids and data sets, and equality of five implementations on all of them", "anchors": ["histogram_maker/hogg_jacky/numpy_iterator_jacky.py: hogg_jackknife_likelihood_numpy, hogg_jackknife_likelihood_iterator", "histogram_maker/hogg_jacky/cython_jacky/cy_jacky.py: hogg_jackknife_likelihood_cython", "histogram_maker/hogg_jacky/numexpr_jacky.py: hogg_jackknife_likelihood_numexpr", "histogram_maker/hogg_jacky/blas_jacky.py: hogg_jackknife_likelihood_blas"]}
{"id": "C142", "title": "Printing does not change the result", "statement": "Setting verbose only prints: the functions return what they return without it.", "quantifier": "all data, grids, options", "why_tests_cant": "all inputs", "anchors": ["histogram_maker/hogg_jacky/numpy_iterator_jacky.py: hogg_jackknife_likelihood_numpy, hogg_jackknife_likelihood_iterator", "histogram_maker/hogg_jacky/cython_jacky/cy_jacky.py: hogg_jackknife_likelihood_cython", "histogram_maker/hogg_jacky/numexpr_jacky.py: hogg_jackknife_likelihood_numexpr", "histogram_maker/hogg_jacky/blas_jacky.py: hogg_jackknife_likelihood_blas", "histogram_maker/hogg_jacky/shared/shared_log_functions.py: print_maximal_values"]}
{"id": "C143", "title": "Histograms with a given bin width count the points per bin", "statement": "The histogram functions with a given width return bar by bar the count, probability or density of the points in each of the given number of equal bins from the given minimum.", "quantifier": "all data, widths, bin numbers, minima", "why_tests_cant": "all data and widths", "anchors": ["histogram_maker/hogg_jacky/numpy_iterator_jacky.py: histogram_spec_width", "histogram_maker/hogg_jacky/cython_jacky/cy_jacky.py: histogram_cython_spec_width", "histogram_maker/hogg_jacky/numexpr_jacky.py: histogram_numexpr_spec_width", "histogram_maker/hogg_jacky/blas_jacky.py: histogram_blas_spec_width"]}
{"id": "C144", "title": "NaNs are ignored", "statement": "The automatic histogram functions return for data with NaNs what they return for the data without them.", "quantifier": "all data, grids, phases, options", "why_tests_cant": "all data", "anchors": ["histogram_maker/hogg_jacky/numpy_iterator_jacky.py: hogg_jackknife_likelihood_numpy, hogg_jackknife_likelihood_iterator", "histogram_maker/hogg_jacky/cython_jacky/cy_jacky.py: hogg_jackknife_likelihood_cython", "histogram_maker/hogg_jacky/numexpr_jacky.py: hogg_jackknife_likelihood_numexpr", "histogram_maker/hogg_jacky/blas_jacky.py: hogg_jackknife_likelihood_blas"]}
{"id": "C145", "title": "The reported binning parameters are those of the histogram", "statement": "When asked for, the returned parameters are the smoothing constant, number of bins and phase for which the returned histogram was computed; otherwise None.", "quantifier": "all data, grids, phases, options", "why_tests_cant": "all data and grids", "anchors": ["histogram_maker/hogg_jacky/numpy_iterator_jacky.py: hogg_jackknife_likelihood_numpy, hogg_jackknife_likelihood_iterator", "histogram_maker/hogg_jacky/cython_jacky/cy_jacky.py: hogg_jackknife_likelihood_cython", "histogram_maker/hogg_jacky/numexpr_jacky.py: hogg_jackknife_likelihood_numexpr", "histogram_maker/hogg_jacky/blas_jacky.py: hogg_jackknife_likelihood_blas", "histogram_maker/hogg_jacky/shared/shared_handling_functions.py: handle_return_binning_parameters"]}
{"id": "C146", "title": "Data without spread still give a histogram", "statement": "For a single point, or several equal points, the automatic functions return one bar containing all points, with consistent edges and width.", "quantifier": "all values, numbers of copies, grids, options", "why_tests_cant": "all inputs", "anchors": ["histogram_maker/hogg_jacky/numpy_iterator_jacky.py: hogg_jackknife_likelihood_numpy, hogg_jackknife_likelihood_iterator", "histogram_maker/hogg_jacky/cython_jacky/cy_jacky.py: hogg_jackknife_likelihood_cython", "histogram_maker/hogg_jacky/numexpr_jacky.py: hogg_jackknife_likelihood_numexpr", "histogram_maker/hogg_jacky/blas_jacky.py: hogg_jackknife_likelihood_blas", "histogram_maker/hogg_jacky/shared/shared_handling_functions.py: handle_single_data_point"]}
{"id": "C147", "title": "Log-binned automatic histograms count every number once", "statement": "For positive data the four log-scale histogram functions return, for one of the tried combinations, edges in a constant ratio from the smallest to the largest number and one bar per bin; the counts sum to the number of numbers, the probabilities to one, and the densities integrate to one over the returned edges.", "quantifier": "all positive data (with or without NaN), grids, phases, options", "why_tests_cant": "all data", "anchors": ["histogram_maker/hogg_jacky/numpy_iterator_jacky.py: hogg_jackknife_likelihood_iterator_log", "histogram_maker/hogg_jacky/cython_jacky/cy_jacky.py: hogg_jackknife_likelihood_cython_log", "histogram_maker/hogg_jacky/numexpr_jacky.py: hogg_jackknife_likelihood_numexpr_log", "histogram_maker/hogg_jacky/blas_jacky.py: hogg_jackknife_likelihood_blas_log", "histogram_maker/hogg_jacky/shared/shared_computation_functions.py: histogram_log_counts_and_edges"]}
{"id": "C148", "title": "Log-binned histograms maximise the leave-one-out likelihood", "statement": "The combination chosen by a log-scale function is the first one with the largest leave-one-out likelihood over the tried combinations.", "quantifier": "all positive data, grids, phases, options", "why_tests_cant": "all data and grids", "anchors": ["histogram_maker/hogg_jacky/numpy_iterator_jacky.py: hogg_jackknife_likelihood_iterator_log", "histogram_maker/hogg_jacky/cython_jacky/cy_jacky.py: hogg_jackknife_likelihood_cython_log", "histogram_maker/hogg_jacky/numexpr_jacky.py: hogg_jackknife_likelihood_numexpr_log", "histogram_maker/hogg_jacky/blas_jacky.py: hogg_jackknife_likelihood_blas_log", "histogram_maker/hogg_jacky/shared/shared_computation_functions.py: histogram_log_counts_and_edges"]}
{"id": "C149", "title": "Numbers without a logarithm never give log bins", "statement": "If some number is zero or negative, a log-scale function returns None values when `negative_values` is set and otherwise raises ValueError or returns a single bin between the extreme values; it returns no NaN edges.", "quantifier": "all data with a number that is not positive, grids, phases, options", "why_tests_cant": "all data", "anchors": ["histogram_maker/hogg_jacky/numpy_iterator_jacky.py: hogg_jackknife_likelihood_iterator_log", "histogram_maker/hogg_jacky/cython_jacky/cy_jacky.py: hogg_jackknife_likelihood_cython_log", "histogram_maker/hogg_jacky/numexpr_jacky.py: hogg_jackknife_likelihood_numexpr_log", "histogram_maker/hogg_jacky/blas_jacky.py: hogg_jackknife_likelihood_blas_log", "histogram_maker/hogg_jacky/shared/shared_computation_functions.py: histogram_log_counts_and_edges"]}
{"id": "C150", "title": "Resonance sharpness figure", "statement": "The histograms of the isolated and of the not isolated triads use the edges of the best log-scale histogram (2 to 100 bins, not more than triads) of the absolute sharpness of all triads. For each class with triads one bar per bin is drawn at the middle of the bin, its height is the percentage of the triads of the class in the bin, and the heights sum to 100. Nothing is drawn for a class without triads.", "quantifier": "all lists of sharpness values of the two classes", "why_tests_cant": "all data; the chosen number of bins depends on all values", "anchors": ["aesolver/aeplotter/resonance_sharpness/histogram.py: _sharpness_histogram, get_sharpness_histogram_plot_data", "aesolver/aeplotter/resonance_sharpness/plot.py: _get_x_coordinates, generate_sharpness_histogram_plot", "aesolver/aeplotter/library_functions/generic_histograms.py: create_setup_histogram_likelihood_arrays", "histogram_maker/hogg_jacky/blas_jacky.py: histogram_blas_log_spec_edges"]}
{"id": "C151", "title": "Term profiles add up to the total profile", "statement": "In a profile run the cumulative profiles of the four contributions add up, at every grid point, to the profile of the normalised coupling coefficient. All five profiles start at zero and end at the values of the full coupling coefficient calculation. The values printed for the four terms, adjusted or not for the traditional approximation, add up to those of the total.", "quantifier": "all sets of three modes, grids, normalisations, masks", "why_tests_cant": "all grids and mode functions", "anchors": ["aesolver/aesolver/coupling_coefficients/quadratic_coupling_coefficient_rotating.py: adiabatic_coupling_rot_profile, normed_contributions_coupling_coefficient_profile", "aesolver/aesolver/solver/quadratic_profile.py: compute_mode_triad_profile", "aesolver/aesolver/solver/profile_plot_classes/coupling_coefficient_plots/plot_template.py"]}
{"id": "C152", "title": "Profile runs do not overwrite each other's figures", "statement": "All figures of a profile run have different file names. Figures of two runs have the same path only if it is the same kind of figure of the same stellar model, rotation percentage, save name and the same radial orders, degrees and azimuthal orders.", "quantifier": "all pairs of profile runs and all their figures", "why_tests_cant": "all names and pairs of runs", "anchors": ["aesolver/aesolver/solver/profile_plot_classes/setup_for_plotting.py: get_model_dependent_part_save_name, get_figure_output_base_path, save_fig", "aesolver/aesolver/solver/quadratic_profile.py: compute_mode_triad_profile", "aesolver/aesolver/solver/profile_plot_classes/kernel_plots/kernel_figure.py"]}
{"id": "C153", "title": "Kernel figures show what their legends say", "statement": "Every kernel of the four contributions is drawn in one panel, in order, in the files of the contribution; each curve shows the product of functions named by its legend, times the factors its legend and title announce, against the grid; within a panel all legends differ; radial panels carry the mask of the traditional approximation, and a mask of another length is an error.", "quantifier": "all mode functions, stellar structures, grids, masks, and the four contributions", "why_tests_cant": "all functions and grids", "anchors": ["aesolver/aesolver/solver/profile_helper_classes/angular_kernels/angular_kernel_labeler.py", "aesolver/aesolver/solver/profile_helper_classes/angular_kernels/angular_kernel_label_enumeration.py", "aesolver/aesolver/solver/profile_helper_classes/radial_kernels/radial_kernel_labeler.py", "aesolver/aesolver/solver/profile_helper_classes/radial_kernels/radial_kernel_label_enumeration.py", "aesolver/aesolver/solver/profile_plot_classes/kernel_plots/angular_kernel_plots.py", "aesolver/aesolver/solver/profile_plot_classes/kernel_plots/radial_kernel_plots.py", "aesolver/aesolver/solver/profile_plot_classes/kernel_plots/kernel_figure.py", "aesolver/aesolver/solver/quadratic_profile.py"]}
{"id": "C154", "title": "A profile run writes all figures or none", "statement": "A profile run either writes all requested figures, or raises an error and writes no figure. It raises an error only if the triad fails the check of the stationary solution (when asked for) or the validity masks of the traditional approximation are refused.", "quantifier": "all triads, stellar models, polytropes and options of profile runs", "why_tests_cant": "all inputs and points of failure", "anchors": ["aesolver/aesolver/solver/quadratic_profile.py: compute_mode_triad_profile, compute_coupling_coefficient_profile, get_masking_info_tar_validity", "aesolver/aesolver/solver/solver_base_classes/quadratic_solver.py: compute_coupling_one_triad"]}
{"id": "C155", "title": "Profile runs and grid runs agree on the stationary solution", "statement": "The stationary amplitudes, flux variations and phases that a profile run prints for a triad are those that a grid run with the same settings stores for the triad.", "quantifier": "all triads and settings", "why_tests_cant": "all triads and settings", "anchors": ["aesolver/aesolver/solver/quadratic_profile.py: compute_mode_triad_profile", "aesolver/aesolver/solver/quadratic_grid.py: _call_grid_computations", "aesolver/aesolver/stationary_solving/three_mode/three_mode_stationary.py: __call__"]}
{"id": "C156", "title": "Analytic polytropes reach the coefficient with the exact derivatives of the star", "statement": "When a polytropic structure file is loaded with a mass and a radius and a coupling coefficient with analytic polytropic derivatives is constructed from it, the object holds, at every grid point strictly inside the star that was not cut away, the density, pressure, mass, the exact first three radial derivatives of density, pressure and gravitational potential, and the dimensionless structure functions, of one polytropic star of that mass and radius at that radius; the normalised profiles are these divided by the central density and pressure. The constructor accepts every well-formed input whose first mode is on the finest grid and whose structure has as many points, and no other number of points.", "quantifier": "every polytropic index, mass, radius, Lane-Emden solution, grid, mode files and end cuts", "why_tests_cant": "an infinite family of stars and grids; a test compares stored numbers for one model", "anchors": ["aesolver/aesolver/coupling_coefficients/coefficient_support_classes/super_coupling_coefficients.py:_get_profiles_polytrope_analytic", "aesolver/aesolver/coupling_coefficients/coefficient_support_classes/super_coupling_coefficients.py:_get_and_interpolate_if_needed", "aesolver/aesolver/polytropic_computations/enumeration_files/polytropic_struct_enumeration.py:PolytropicStructureOutput", "aesolver/aesolver/model_handling/load_models.py", "gyre-tools/gyre_cutter/gyre_cutter.py:PROFILE_LOAD_CUTS_ANALYTIC_POLY"]}
{"id": "C157", "title": "Figures comparing adiabatic and non-adiabatic modes", "statement": "The comparison makes six figures, two per mode: the radial and the horizontal displacement, real parts in the upper and imaginary parts in the lower panel, each panel with the adiabatic and the non-adiabatic curve, each drawn against the coordinate of its own mode (fractional radius, or enclosed mass over stellar mass, which stays within the drawn limits 0 to 1). The title gives the numbers of the adiabatic mode, both frequencies, and the unit and frame of the adiabatic one. Every figure that is finished is right, also in runs that fail later; all six are finished exactly if masses, displacements, coordinates and the entries of the title are in the data with fitting lengths. Calls with a list of labels of another length than two raise UnboundLocalError instead of giving the message.", "quantifier": "all loaded adiabatic and non-adiabatic data (equal numbers of modes), both kinds of coordinate, all positions of figures", "why_tests_cant": "the figures must be right for all data of all modes, and the set of data for which the run completes is infinite", "anchors": ["aesolver/aesolver/ad_nad_comparer/comparer.py: AdNadComparer.generate_mode_eigenfunction_comparison_figures, load_modes", "aesolver/aesolver/ad_nad_comparer/plotting/gyre_plotter.py: AdNadComparisonGYREPlotter", "gyre-tools/gyre_unit_converter/gyre_unit_converter.py: GYREFreqUnitConverter.convert"]}
{"id": "C158", "title": "Figures of the profiles of the stellar model", "statement": "The profile figures are eleven: each shows the columns it names, with their entries of the legend, against radius or mass over its greatest value (for non-negative values that are not all zero: within 0 to 1, with a point at 1); the fifth shows the difference of the two sides of hydrostatic equilibrium. Every finished figure is right; all eleven are finished exactly if the coordinate is not empty and all 22 columns are there with its length. A call with lists of columns and labels of different lengths makes a figure without curves instead of failing.", "quantifier": "all profile tables, both coordinates, all positions of figures; for the last part all arguments", "why_tests_cant": "holds for all tables of all lengths, including incomplete ones", "anchors": ["aesolver/aesolver/ad_nad_comparer/comparer.py: AdNadComparer.generate_profile_figures", "aesolver/aesolver/ad_nad_comparer/plotting/mesa_plotter.py: AdNadComparisonMESAPlotter", "aesolver/aesolver/ad_nad_comparer/plotting/plotter.py: SuperAdNadComparisonPlotter._normalizer"]}
{"id": "C159", "title": "Numbers of the modes and of the star in the coefficient object", "statement": "When a coefficient object is made from three mode files and a structure dictionary, every number in the file of mode i (degree, orders, frequencies, number of points, …) that is not one of the quantities of the star is found in the object under its own name with the number of the mode, unchanged by interpolation and cuts; mass and radius of the star are those of the file of the first mode. This holds for stellar models, polytropes and polytropes with analytic derivatives.", "quantifier": "all mode files, structure dictionaries (whose own numbers have other names) and cuts for which the object is made", "why_tests_cant": "holds for every number under every name in files of any content", "anchors": ["aesolver/aesolver/coupling_coefficients/coefficient_support_classes/super_coupling_coefficients.py:_extract_mode_dependent_info_dictionary", "aesolver/aesolver/coupling_coefficients/coefficient_support_classes/super_coupling_coefficients.py:_extract_common_info_dictionary", "aesolver/aesolver/coupling_coefficients/coefficient_support_classes/super_coupling_coefficients.py:_interpolation_modes", "aesolver/aesolver/coupling_coefficients/quadratic_coupling_coefficient_rotating.py:__init__"]}
{"id": "C160", "title": "Interactive choice of a combination of radial orders", "statement": "The choice of a combination asks until the user has typed one of the offered numbers (0 to n-1) and accepted the combination shown for it, returns that number, and answers everything else with a request for a valid integer. Proved: the outcome of every history of inputs; a returned number was typed and accepted, and its combination was the last one shown. Refuted: text that is no number raises UnboundLocalError if no number was typed before (afterwards the request names the previous number); numbers from -n to -1 are accepted; all other numbers raise IndexError.", "quantifier": "all lists of combinations and all histories of typed lines and confirmations", "why_tests_cant": "the loop must behave for every history of inputs of any length", "anchors": ["aesolver/aesolver/solver/profile_helper_classes/input_user/user_poller.py: poll_user_profile_for_combination_number, _verify_user_input"]}
{"id": "C161", "title": "Switches of the command line", "statement": "The documented switches of the run scripts do what their help says: --debug and --no_verbose set the verbosity of the run, --no_inlist takes the options from the command line, --inlist_name reads another inlist. (The parser records the switches and the inlist correctly; but nothing reads the two verbosity switches, --no_inlist makes every run fail, and the scripts refuse any command line with a switch added to it.)", "quantifier": "every command line, every set of files and inlists", "why_tests_cant": "all command lines; the scripts are only ever run with fixed ones", "anchors": ["util-tools/generic_parser/generic_parser.py: _set_up_generic_argparser_groups_arguments, _prepare_to_read_args", "aesolver/aerunners/solve_quadratic.py: _get_path_to_inlist", "aesolver/aerunners/plot_quadratic.py: get_path_to_inlist"]}
{"id": "C162", "title": "Overview figure of all triads", "statement": "The overview figure shows every stable triad whose daughters differ in radial order exactly twice (once for each daughter-parent luminosity ratio), in exactly one of three categories: not valid, valid but not isolated, valid and isolated; each category with its own colour, opacity and legend entry, markers of triads with a negative smallest frequency with 0.005 times the opacity. The horizontal position is the smallest shifted frequency, or its alias if it is negative (above minus twice the Nyquist frequency). No other triad is shown, and each category has one entry of the legend.", "quantifier": "all lists of models with any numbers of triads, all choices of the partition pivot", "why_tests_cant": "holds for every catalogue of triads, of any length and content", "anchors": ["aesolver/aeplotter/overview_plot/figure_class.py: OverviewFigure", "aesolver/aeplotter/overview_plot/plot.py: plot_predicted_data_on_target_figure, _create_legend_for_figure, _get_plotting_kwargs", "aesolver/aeplotter/data_files/overview_plot_data.py: OverviewPlotOptions", "aesolver/aeplotter/quadratic_plotter.py: _perform_frequency_mirroring, _get_overview_plotting_masks"]}
{"id": "C163", "title": "Units and layout of the derived columns", "statement": "The derived columns of analyzer and plotter hold, row by row and under their names, the saved frequencies of parent and daughters, detuning, rotation frequency, rates and frequency shifts in \u00b5Hz (10^6 per Hz) and cycles per day (86400 per Hz); additional ones are there only on request; the sum of the rates is in cycles per day; the dimensionless ratios q, q1, q3, theta2, theta3, theta23 are those of detuning and rates. In the layout with two daughter columns (the one the programs use) all is proved; in the flat layout the shifts are right for one triad only (with two, detuning and sum of the wrong triad are used), the sum of rates adds cycles per day and Hz, and the flat luminosity ratios are ordered daughter by daughter while all other flat columns are ordered triad by triad.", "quantifier": "all lists of triads of any length, both layouts, with and without additional frequencies", "why_tests_cant": "holds for every list of triads and all names of columns", "anchors": ["aesolver/ae_analyzer/quadratic_stationary_analyzer.py: _compute_frequency_data, _compute_driv_damp_info, _compute_freq_shifts, _compute_dimensionless_validity_estimators", "aesolver/aeplotter/quadratic_plotter.py: _compute_frequency_data, _compute_driv_damp_info, _compute_freq_shifts", "aesolver/ae_analyzer/utility_functions.py: hz_to_cpd, hz_to_muhz"]}
{"id": "C164", "title": "Comparisons used by all tests", "statement": "The comparison helpers say that two dictionaries (lists, values) are equal exactly if they are: same keys, values of the same type, numbers within 1e-9 relative, arrays of the same dtype and length within 1e-8 + 1e-5 relative, strings, lists and tuples equal. Proved for all values but these refuted cases: a dictionary with a None or complex value is not equal to itself; functions are equal when their byte code is, although they return different constants; an array of length one equals any array of copies, even an empty one; empty containers of different types are equal; array comparison is not symmetric. The assertion helper checks types and lengths, but a required length of zero is not checked.", "quantifier": "all dictionaries, lists and values of the modelled kinds", "why_tests_cant": "the helpers are what all tests rely on; they must be right for every pair of values", "anchors": ["pytest-util-tools/pytest_util_functions/comparison.py: value_comparison, compare_elements, compare_dicts", "pytest-util-tools/pytest_util_functions/assertion_checker.py: check_assertions"]}
{"id": "C165", "title": "Files of the plotter", "statement": "The plotter writes each requested figure (sharpness, overview) once in each requested format to base directory/save directory/subdirectory/name[_extra].format (a later absolute directory replaces the earlier ones) and gives that format to the writer; no file of a run overwrites another exactly if no format is repeated and the two figures differ in name or directory. Names are non-empty and without slashes, formats without slashes and dots; without name and extra part the file is hidden and the writer gets an empty format; equal names and subdirectories make the overview figure replace the sharpness figure.", "quantifier": "all base, save and subdirectories (any text), all names and lists of formats", "why_tests_cant": "holds for all texts of the options", "anchors": ["aesolver/aeplotter/quadratic_plotter.py: _store_generic_save_information, _store_specific_save_info, generate_plots", "aesolver/aeplotter/resonance_sharpness/figure_class.py: _store_save_path_and_info, _save_plot, save_plots", "aesolver/aeplotter/overview_plot/figure_class.py: _store_save_path_and_info, _save_plot, save_plots"]}
{"id": "C166", "title": "Debug properties of a coupling object", "statement": "With debugging on, each recorded profile gets a record with its largest and smallest value and its three innermost and outermost values, under its own name with a suffix that tells normalised and polytropic ones apart (no two records share a name); attributes that do not exist get None, values that are not arrays get nothing, an empty array ends the run; after the profiles are made every name on the list of debug properties has a value and nothing else has changed; everything recorded is printed and nothing else. For the Hough functions the normalised record describes the normalised function. Not true of the code: the normalised records of pressure, density and their derivatives are those of the profiles before normalisation, and for polytropes the listed properties of pressure and density are always None.", "quantifier": "all profiles of any length, all normalisation factors, all three kinds of models, all attribute names and states of the object", "why_tests_cant": "the records are only printed; a test would have to compare every printed record with the profile it names, for every profile, model kind and normalisation", "anchors": ["aesolver/aesolver/coupling_coefficients/coefficient_support_classes/super_coupling_coefficients.py:_add_debug_attribute", "aesolver/aesolver/coupling_coefficients/coefficient_support_classes/super_coupling_coefficients.py:_fill_debug_attributes", "aesolver/aesolver/coupling_coefficients/quadratic_coupling_coefficient_rotating.py:print_all_debug_properties", "aesolver/aesolver/coupling_coefficients/enumeration_files/enumerated_debug_properties.py:get_attrs"]}
{"id": "C167", "title": "Older format of the information file", "statement": "In an information file of the older format every comment `# words` announces the value in the next non-empty line: the handler then holds each value (a text in quotes, or texts in brackets) under the name that belongs to the words, a later announcement of the same name wins, other names keep what they had; the names are those of the TOML format. Proved for files of known comments, texts without # and backslash, tuples without blanks, no indentation. Not true of the code: names and values are matched by their number, so that one value without a comment moves all values below to the next name; a # inside a text, other words or a blank at the end of a comment, or a blank in a tuple end the run; whether an indented value is read depends on its characters; a dictionary given to be filled stays empty.", "quantifier": "all files made of empty lines, comments and values in any number and order; all previous contents of the handler", "why_tests_cant": "files of any length and any texts", "anchors": ["aesolver/aesolver/read_load_info/read_info_dirs.py: _parse_custom_info_files, parse_info_directories", "aesolver/aesolver/read_load_info/enumeration_files/enumeration_read.py: InfoDictConverter.convert"]}
{"id": "C168", "title": "Histograms on given edges", "statement": "The numpy, BLAS, numexpr and cython functions that histogram data on given bin edges return, for increasing edges and any data when the number of bins is given as the minimal number of bins, the same bars: one per bin, and every point is counted exactly once, in the bin between its two edges (right edge included), points outside of the edges in the first or last bin. The bars are counts, counts divided by the number of points, or that divided by the width of the bin; they sum to the number of points, sum to one, or integrate to one. Missing data or edges, empty data and data said to be negative give None. Not true of the code: with the default minimal number of bins the versions differ for densities (all but cython raise a broadcasting error if the last bin is empty), and points outside of the edges are not left out but counted in an outer bin, without a message.", "quantifier": "all increasing edges, all data without NaN, all flags, the four versions", "why_tests_cant": "for every data set, on, between, below and above the edges; tests fix a few arrays and the bins that happen to be filled", "anchors": ["histogram_maker/hogg_jacky/numpy_iterator_jacky.py: histogram_log_spec_edges", "histogram_maker/hogg_jacky/blas_jacky.py: histogram_blas_log_spec_edges", "histogram_maker/hogg_jacky/numexpr_jacky.py: histogram_numexpr_log_spec_edges", "histogram_maker/hogg_jacky/cython_jacky/cy_jacky.py: histogram_cython_log_spec_edges", "histogram_maker/hogg_jacky/shared/shared_computation_functions.py: histogram_log_counts"]}
{"id": "C169", "title": "Saving over the results file of an earlier run", "statement": "After a run has been saved, the results file holds the data sets and attributes of that run and nothing of an earlier run whose file was at the path, in whichever way the file open mode was chosen (default, append, read and write), and also when the save stops after any number of writes.", "quantifier": "every two runs with at least one triad of three modes each (polytropic or stellar, any numbers of triads), every choice of the two mode flags, every content of the path, every number of completed writes", "why_tests_cant": "the outcome depends on the history of the file, on the numbers of triads of both runs and on the point at which the save stops; a test saves once to an empty directory", "anchors": ["aesolver/aesolver/data_handling/data_specific/hdf5_saver.py: HDF5Saver.h5_mode, HDF5Saver.save_data, HDF5Saver._create_overwrite_dataset", "aesolver/aesolver/data_handling/storer.py: NumericalSaver.__call__"]}
{"id": "C170", "title": "The ratio of the coefficients of the two stability polynomials", "statement": "The reported ratio is the limit, for large detuning parameter q, of the left side of the corrected over that of the original condition; for a parametric triad with a negative sum of rates it is never one, it is negative only when the original condition accepts and the corrected one rejects all large detunings, and when it is positive the two conditions agree for all large detunings.", "quantifier": "every three rates (first rate not zero) for which the original polynomial really is of the fourth degree; the second part: every such parametric triad with a negative sum of rates", "why_tests_cant": "the ratio is a number computed by formulas written a second time, apart from the two conditions; that it describes them is a statement on all rates and on arbitrarily large detunings", "anchors": ["aesolver/aesolver/stability_checker/three_mode/stab_checker_quadratic_three_sum.py: ratio_coefficients_q4_dziembowski, check_original_dziembowski_conditions, check_corrected_dziembowski_conditions"]}
{"id": "C171", "title": "The Hough functions a coupling coefficient stores for its three modes", "statement": "Building a coupling coefficient stores, for each of its three modes and for every listed name, the samples of the function the name stands for (the three Hough functions, their first derivatives with respect to mu and theta, the combinations with the azimuthal order, the second derivatives of the radial function) on one grid of latitudes common to the three modes; nothing else changes, and products of one stored array of every mode are the products of those functions.", "quantifier": "every three modes (degree, azimuthal order, spin without a singular latitude), every number of latitudes, every radial eigenvector of each mode, every listed name, every choice of three of the names", "why_tests_cant": "the arrays are functions of the spin, the degrees and the grid size; a test compares a few values of a few modes, and the names, signs and halves of the range are mixed up by an index or a sign", "anchors": ["aesolver/aesolver/angular_integration/rotating_tar_angular/hough_function_handler.py: HoughFunctionHandler.get_relevant_hough_output", "aesolver/aesolver/coupling_coefficients/quadratic_coupling_coefficient_rotating.py: _store_houghs"]}
{"id": "C172", "title": "The angular arrays of a mode are those of a displacement field", "statement": "For every mode of a coupling coefficient the nine angular arrays that enter its gradient (three Hough functions, their derivatives with respect to the colatitude, the three combinations with the azimuthal order) are the samples of one displacement of definite azimuthal order whose profiles are the Hough functions of the mode.", "quantifier": "every mode (degree, azimuthal order, spin without a singular latitude), every number of latitudes, every radial eigenvector, every candidate displacement", "why_tests_cant": "whether any displacement fits is a statement about all azimuthal orders and all profiles, for arrays that depend on the spin, the degree and the grid", "anchors": ["aesolver/aesolver/angular_integration/rotating_tar_angular/hough_function_handler.py: HoughFunctionHandler.get_relevant_hough_output", "aesolver/aesolver/coupling_coefficients/quadratic_coupling_coefficient_rotating.py: _store_houghs"]}
{"id": "C173", "title": "Complex eigenfunctions in the radial integrals and mode energies", "statement": "A coupling coefficient of modes with complex (non-adiabatic) radial eigenfunctions is computed with the complex functions when complex numbers are requested and with their real parts otherwise: every radial integral, classic norm and mode energy is the one of those functions, and the norm and energy of a mode do not change when its eigenfunctions are multiplied by a phase.", "quantifier": "every grid, every three complex eigenfunctions on it, every multiplier, density and cut of the integral, every mode number, frequency and rotation rate", "why_tests_cant": "the tests use adiabatic modes, whose imaginary parts are zero; that products and squares of complex arrays are taken before the real part is only visible for arbitrary complex profiles", "anchors": ["aesolver/aesolver/coupling_coefficients/quadratic_coupling_coefficient_rotating.py: _rad_int, _compute_radial_integral_complex, _compute_radial_integral_real, _compute_traditional_norms_modes, compute_b_a_mode_energy", "cpp-numintegrator/num_integrator/libcpp_num_integrator.pyx: integrate", "aesolver/aesolver/solver/solver_base_classes/quadratic_solver.py: use_complex"]}
{"id": "C174", "title": "Two ways of naming the inlist of a parser", "statement": "A parser constructed with a full inlist path below a directory with the given base name takes base directory, inlist directory, name and suffix from that path alone, whatever the other arguments are; otherwise a base directory and a name given as strings are used, with the default inlist directory; otherwise construction is refused with one exception for each wrong argument. The four attributes never mix the two sources.", "quantifier": "all argument values (None, strings, paths, other objects), all directory and file names", "why_tests_cant": "A test constructs a few parsers; the claim is about every combination of argument values.", "anchors": ["util-tools/generic_parser/generic_parser.py: GenericParser._initialize_path_info, _initialization_mode_1, _initialization_mode_2, _check_if_string"]}
