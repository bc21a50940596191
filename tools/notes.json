{
 "C07": {
  "note": "Equal spacing and Simpson: every schedule, proved. Unequal spacing: the temporaries are shared, so the result is right for all data exactly if no addition mixes two iterations (C07_uneven_exact); right without overlap of loop bodies (C07_uneven_no_overlap) and with one thread; every schedule with two busy threads has an interleaving and data with a wrong result (C07_uneven_every_schedule_wrong)."
 },
 "C25": {
  "note": "The claim is false of the code in exact arithmetic: the constructed matrix is singular for every parametric triad (C25_flag_wrong), so the flag is constantly False; in floating point the outcome is rounding noise. Proved part: no false positives."
 },
 "C26": {
  "note": "Amplitudes: stationary and unique, proved. Returned phase arctan(-1/q) is on the wrong branch (off by pi) unless eta*q>0 (C26_returned_phase_iff). Detuning 0 excluded (division by zero in the phase)."
 },
 "C54": {
  "note": "Direct case exact; parametric case complete but unsound because numerator and denominator of the q^2 bound are swapped in the code (C54_parametric_unsound). C54_parametric_exact_wrong gives exactly the detunings that are accepted wrongly, and shows there are some at every ratio above the limit."
 },
 "C27": {
  "note": "Proved for all triads whose mode numbers index back into the triad (the (1,2,3) the solver uses, any reordering, (1,2,2)); for other triads the code uses mode numbers as positions in the triad's own lists, so it accepts forbidden triads or raises (C27_meridional_wrong). C27_exact_partial/C27_exact_list_partial give the exact set: fifteen triads are checked rightly for all modes, every other one is not; C27_defined_iff: a triad is refused exactly if it has a mode number above three."
 },
 "C28": {
  "note": "Single damped range: fully proved. Two damped ranges: proved when the sets are iterated in increasing order; CPython's order for e.g. {7,8,9} is 8,9,7 and then a triple with neither damped order in the second range is listed (C28_two_ranges_wrong). C28_two_ranges_exact: right exactly if both ranges and their differences are iterated in the order of their union."
 },
 "C29": {
  "note": "All outputs proved to depend only on the physical frequencies except the co-rotating cyclic frequency for angular requested units and inertial-frame data, which is uninitialised memory / 2 pi (C29_corot_freq_wrong); for uHz and cycles/day the 'dimensionless' frequencies are off by the squared unit ratio (C29_dimensionless_wrong)."
 },
 "C33": {
  "note": "Probabilities sum to one (proved). Density integrates to one only if the minimal bin number equals the bin number or the last bin is occupied: otherwise the shorter count array is broadcast against the widths, giving an integral of n or a broadcasting error (C33_density_first_bin_wrong, C33_density_empty_last_bin_raises). The numexpr log version divides by the length including NaNs (C33_numexpr_nan_sum). The cython loop is right."
 },
 "C34": {
  "note": "Proved whenever some likelihood is above -inf; in the degenerate case the two searches differ (C34_degenerate_disagree)."
 },
 "C35": {
  "note": "All likelihoods agree for one conversion factor; the conversion factors of numpy, cython loop, numexpr and BLAS agree, but the loop-free cython factor actually used multiplies (1+alpha) by the number of bins instead of summing counts (C35_cython_no_loop_factor_wrong, C35_cython_likelihood_wrong)."
 },
 "C56": {
  "note": "Holds at phase 0 only; for phases in (0,1) the cython version always fails, numexpr truncates towards zero and BLAS adds instead of subtracts the phase."
 },
 "C37": {
  "note": "Proved for tables with separated thresholds (> 1e-14) when no other valued triad contains all modes of the flagged one; otherwise false: a triad with equal daughters is flagged although a triad sharing parent and daughter has a lower threshold (C37_equal_daughters_wrong). The converse (lowest triads pass) holds always. C37_exact_partial says exactly which triads are flagged (when the lowest of the parent is unique); C37_contained_wrong: in every table a triad contained in the lowest one gets its flag, however high its own threshold."
 },
 "C38": {
  "note": "Refuted as stated: argpartition(.,1) raises for a parent occurring in one valued triad only; the exact condition is proved."
 },
 "C58": {
  "note": "Exact characterisation proved; the code compares daughters slot by slot, so a daughter shared across slots is missed (C58_other_slot_wrong)."
 },
 "C39": {
  "note": "Proved for all energy computations and refinement histories (factor = total factor, budget, flags) and exact hit of the target in exact arithmetic. Fails: refinement with budget 0 raises UnboundLocalError (C39_zero_budget_raises); the Schenk convention compares a dimensionless norm with a dimensional target (C39_schenk_dimension_wrong)."
 },
 "C59": {
  "note": "Proved for all root/dir/base.ext; paths with fewer than two slashes raise (C59_relative_raises); for a name without extension the nearest dotted directory is taken for the file, for all such paths, and a path without a dot raises (C59_no_extension_wrong)."
 },
 "C60": {
  "note": "Proved for strings without inner quotes and without both square brackets; nested quotes are stripped and tuples of strings stay text (C60_nested_quotes_wrong)."
 },
 "C61": {
  "note": "Proved for file names with exactly one dot and no command-line override; the default inlist is the file given exactly if its name has one dot (C61_dotted_name_wrong); inlists named on the command line are read in the format of the default one (C61_command_line_format_wrong)."
 },
 "C40": {
  "note": "Proved for all well-formed inlists (any comments, blanks, quoting); a value containing a blank (e.g. [1, 2]) is cut by the tokenizer and raises (C40_blank_in_list_wrong)."
 },
 "C41": {
  "note": "All decimal literals except negative ones with exponent and no point (C41_negative_exponent_wrong) and ones with a plus sign (C41_plus_wrong); floats are exact rationals."
 },
 "C42": {
  "note": "Proved for tables under key paths; tables inside arrays and an empty document are not converted (C42_array_elements_wrong)."
 },
 "C43": {
  "note": "Lookup and negation proved; below a None/number the lookup raises instead of returning None (C43_below_none_wrong); read_in_to_list misreads a leading two-key path as (name, negate) (C43_list_two_keys_wrong)."
 },
 "C62": {
  "note": "Proved in exact real arithmetic: the matrix is the self-adjoint tidal operator (C62_tidal_operator) and the continuity equation holds for the prat definition (the other definitions are fixed rescalings of it, C45_profiles)."
 },
 "C63": {
  "note": "Selection, normalisation and sign proved for every solver output. Repeated calls are refuted: the stored guess is overwritten by the (sign-adjusted) target, so a second call keeps the eigenvalue nearest zero, whatever the first one kept (C63_second_call_wrong)."
 },
 "C44": {
  "note": "Proved in exact real arithmetic for every grid size, both parities and both sine factors."
 },
 "C45": {
  "note": "Radial and latitudinal derivatives proved for all definitions; azimuthal derivative proved for prat and refuted for lee_saio_equivalent (opposite sign) and townsend (adjust_phi_sign never applied to the derivative). C45_azimuthal_everywhere_wrong gives the error at every point and exactly where it vanishes."
 },
 "C46": {
  "note": "All profiles and first derivatives proved; second radial derivatives refuted: the southern half always has the wrong sign (_mul_kgrav_1 used instead of _mul_kgrav)."
 },
 "C64": {
  "note": "Refuted for every multiplier >= 2 (default 4): the rule always needs points outside the grid, so the option always ends the program and the protection never acts. Proved (exact arithmetic) for multiplier 1."
 },
 "C47": {
  "note": "Exactness proved from the code's points and weights, plus failure propagation."
 },
 "C48": {
  "note": "Selection rule proved for all conjugation settings, also as the azimuthal integral of the product of exponentials."
 },
 "C49": {
  "note": "Refuted: the integrator is always called with the equal-spacing flag on the Chebyshev grid, so every non-negative integrand is underestimated (strictly from four points on) and the Lee (2012) normalisation is off; proved only for equally spaced grids."
 },
 "C50": {
  "note": "C50_S_operator(+_single): each symmetrised term equals the sum over all 6 distributions of the modes (independent Spec.S) for any term lists, factors, uninitialised arrays; C50_radial: the radial factor is the trapezoid sum; C50_relabel: invariance. For self-coupling the shortcut ignores the angular and radial factors (C50_self_coupling_wrong), only unit factors agree (_partial)."
 },
 "C68": {
  "note": "With the Chebyshev options (whose blow-up protection is not linear) proved for the radial profiles only (hypothesis Linear)."
 },
 "C69": {
  "note": "Quadratic dependence and the radial factor proved; the value is refuted: the integral over the azimuth is counted twice, so norm and energy are 2\u03c0 times the volume integral (C69_norm_doubled_wrong, C69_energy_doubled_wrong)."
 },
 "C70": {
  "note": "False is replaced by the default (True, False, False): C70_false_wrong shows that allowed triads then get coefficient zero. Everything else proved (_partial)."
 },
 "C51": {
  "note": "C51_update_partial: proved for every file, path and value described by Replaceable; refuted when the new value has the stored type and can be repeated to the stored shape (C51_repeated_wrong, C51_one_row_wrong: n copies of the row), for None over flags (C51_none_over_flags_wrong) and over arrays without entries (C51_no_rows_wrong). What h5py does when writing to a null data space is left open (parameter NullWrite): the theorems hold for every choice."
 },
 "C71": {
  "note": "C71_saved_partial: all paths except 'wu' and the three absolute values. Refuted for those: C71_wu_wrong (the average radial order, truncated, is stored), C71_kappa_sign_wrong (signed values stored under |.| names). C71_no_triads: a run without triads raises."
 },
 "C72": {
  "note": "Proved for names of word characters without subdirectory (C72_name_partial, C72_distinct). Refuted otherwise: C72_hyphen_wrong (no quantum numbers, runs overwrite each other), C72_dotted_base_wrong (numbers inserted in a directory name), C72_subdir_wrong (file beside the created subdirectory)."
 },
 "C73": {
  "note": "C73_found, C73_found_specification, C73_lists. C73_shortest: with lists of different lengths the number of paths is that of the shortest list (silently)."
 },
 "C74": {
  "note": "Refuted: the perturbations are multiplied by the adiabatic flag instead of the normalisation factor (C74_not_normalised_wrong), so that non-adiabatic runs store zero (C74_nonadiabatic_zero_wrong). C74_flux_partial: holds for adiabatic runs with unit normalisation factors. The solver parts (frequencies, checks, coupler, amplitudes) are parameters here; they are modelled in other areas."
 },
 "C52": {
  "note": "C52_selected_partial, C52_usual: proved for names in which nothing after the tagged numbers looks like a tag. Refuted otherwise: C52_later_number_wrong (a later 'l<digits>', as in _model12, is taken for the degree), C52_negative_order_wrong (names without n+<digits>, as GYRE gives for g modes, are never selected)."
 },
 "C53": {
  "note": "C53_path_partial: the path is GYRE's exactly for m >= 0 and |m| <= l. C53_retrograde_wrong: for m < 0 the name has two minus signs and the program exits. The module itself does not parse (line 89 of lam_tar_gyre.py has an unterminated f-string), so the theorems are about the functions as written."
 },
 "C77": {
  "note": "C77_selected_partial and C77_rejected; refuted: C77_suffix_inside_wrong (the suffix may be anywhere, a backup copy makes the profile unloadable), C77_gyre_first_wrong (names that start with gyre are selected), C77_string_raises (a plain string as substring raises)."
 },
 "C79": {
  "note": "Real arithmetic; grids sample exact Lane-Emden solutions."
 },
 "C83": {
  "note": "True for radius, mass, density, pressure, gravity and the first and third derivatives; refuted for the second derivatives (0/0 replaced by 0, true limit 4 pi G rho_c/3) and for V_2, U, c1, N^2 (NaN)."
 },
 "C84": {
  "note": "C84_value_partial: each part is exactly the integral (spherical-coordinate gradient, C84_gradient) when no or all modes are flagged, or the flagged ones are axisymmetric without azimuthal displacement. C84_conjugation_ignored: in general the computed value is that of unconjugated polarisations with the azimuthal selection rule of the conjugated fields, which can have the wrong sign (C84_conjugation_wrong). The hypothesis Samples asks for angular arrays in one azimuthal convention; C85 shows that the Hough class delivers such arrays for axisymmetric modes only, and C172 that even then the colatitude derivative of the azimuthal profile has the wrong sign in a rotating star."
 },
 "C85": {
  "note": "Refuted: C85_consistent_iff shows that no azimuthal order fits unless m = 0 (the product m*Hr is formed with -m, the two combinations with +m), whatever the definition; C85_sectoral_wrong is a case. C85_divergence: the divergence identity holds for 'prat' and is off by 2 m Hphi/sin(theta) for 'lee_saio_equivalent', the definition the coupling coefficients use. Proved for axisymmetric modes (C85_axisymmetric_partial)."
 },
 "C86": {
  "note": "C86_vectors, C86_gradients. C86_gradients_effective_degree: if the variables are scaled with another degree l_i than the l of the mode (GYRE's effective degree in the TAR) the gradients are off by (l_i - l) times the displacement; that assumption about the external program is explicit in the hypothesis. Numerical-derivative option: see C14, C15."
 },
 "C87": {
  "note": "C87_divergence is an equivalence: the trace agrees exactly where the horizontal divergence of the angular arrays is -lambda*Hr (true for 'prat' and for m = 0, false for other modes with the definition used, see C85_divergence) or the horizontal displacement vanishes."
 },
 "C88": {
  "note": "Proved for the symbolic option with the buoyancy definition and for the numerical option. Refuted for polytropes with symbolic derivatives and use_brunt_def off: the attribute that is differentiated does not exist (C88_polytrope_raises_wrong)."
 },
 "C89": {
  "note": "np.gradient is modelled from its documentation, in exact arithmetic. Partial for complex profiles: the derivatives of the parts are exact (C89_complex_partial), but the message is bound in the real branch only, so with messages on (the default, used by every caller) each complex profile raises UnboundLocalError, and with it the numerical radial gradients of modes with complex functions (C89_complex_message_wrong)."
 },
 "C90": {
  "note": "Proved where the stencil fits (the five-point stencil on equal spacing). Refuted: zero at the ends of the grid for all functions (C90_ends_wrong), five-point stencil exact on quartics exactly where the five points are equally spaced (C90_uneven_wrong), order-2 forward and backward differences raise (C90_missing_kernel_wrong)."
 },
 "C91": {
  "note": "Refuted: the number of values equals the number of original points that are points of the refined equally spaced grid (C91_length_partial gives the exact condition; C91_points_lost_wrong a grid of four points that keeps two)."
 },
 "C10": {
  "note": "Proved for equally spaced visible samples; the equal-spacing flag is hard-wired, so on every increasing grid that is not equally spaced some profile gets a wrong first integral (C10_every_uneven_grid_wrong, C10_uneven_grid_wrong)."
 },
 "C13": {
  "note": "Refuted: with one buffer for input and output the fall-through applies the law twice (C13_inplace_applies_twice); C13_inplace_correct_iff_partial is the exact set of inputs for which the result is still right."
 },
 "C16": {
  "note": "C16_safe_iff is the exact condition; the guard admits accuracy 20, orders above 7 and short grids, all out of bounds (C16_guard_too_weak)."
 },
 "C17": {
  "note": "Bijectivity proved; the inverse is right for numpy offsets, and always raises for plain Python integer offsets, including the default (C17_inverse_raises)."
 },
 "C18": {
  "note": "Symmetry and injectivity proved; the inverse is wrong for equal entries (C18_diagonal_wrong) and raises for plain Python integer offsets (C18_inverse_raises)."
 },
 "C19": {
  "note": "Symmetry, injectivity and (numpy offsets) inverse proved; plain Python integer offsets raise (C19_inverse_raises)."
 },
 "C22": {
  "note": "Right exactly if both inputs and their differences are iterated in the order of the union (C22_exact); then count and diagonal are right too (C22_symmetric_product_partial). Not true for other orders of sets: C22_orientation_wrong."
 },
 "C30": {
  "note": "Factor table proved consistent, round trips included; the object-level converter is wrong for the targets NONE and HZ (C30_object_converter_wrong)."
 },
 "C94": {
  "note": "Exact real arithmetic. Refuted in full: structure arrays are always taken from the first file and never interpolated, so if the first mode is not the finest of the three, the constructor fails for every input (C94_coarse_first_wrong). Proved for the inputs that remain (C94_one_grid_partial) and acceptance of all well-formed inputs with the finest mode first (C94_accepted). The mode profiles that the coefficient does not use are interpolated but never cut, so with a cut they have more points than the radial coordinate (C94_uncut_wrong)."
 },
 "C95": {
  "note": "Proved when the numbers of points differ (C95_regridded_partial). Refuted in full: with the same number of points nothing is interpolated, so at other radii the profiles belong to other points than the grid (C95_other_radii_wrong, for every such input); and a polytrope with another number of points than the finest mode is never accepted, because the central pressure is then stored under another name than the one read (C95_polytrope_regrid_wrong)."
 },
 "C96": {
  "note": "Exact real arithmetic; polytropes without analytic derivatives."
 },
 "C97": {
  "note": "Exact real arithmetic."
 },
 "C99": {
  "note": "Refuted: a star that is valid everywhere, and a star with no valid point where one criterion holds everywhere or both hold somewhere, raise PhysicsError. C99_outcome_partial is the exact condition for success."
 },
 "C101": {
  "note": "Refuted for models with a valid core: valid masks are paired with the contribution of the following invalid zone, and with a valid surface the last zone is dropped by zip and stays zero. Proved for an invalid core, and at invalid points always."
 },
 "C102": {
  "note": "Refuted when the adjustment flips the sign of the coefficient: amplitudes, threshold and fluxes are printed negative. Proved for equal signs."
 },
 "C103": {
  "note": "Refuted: the computed scaling of a row is discarded, so the rows are the bare products; exactly the 15 listed terms declare a factor or division (C103_scaling_wrong). Rows and legends themselves are right (C103_rows_partial)."
 },
 "C104": {
  "note": "Refuted: without the isentropic derivative of the adiabatic exponent the helper fails although the coefficient can be computed (C104_missing_derivative_wrong, _coefficient). With it the rows are right (C104_rows_partial)."
 },
 "C105": {
  "note": "The pairing of radial with angular terms is not written in the code; it is the one fixed in Spec.products1-4. Contributions 1, 2 and 4 combine exactly; the third needs sign changes of terms 6-9, 17 (and of 1, 2 with the third radial term) and no sine division in terms 18, 19 (C105_third_partial); without them it is wrong (C105_third_wrong). C105_unique: the combined value is determined by the data."
 },
 "C107": {
  "note": "Refuted: the difference of inertial and co-rotating frequency of the first daughter (its azimuthal order times the rotation frequency) is taken as the rotation frequency; wrong whenever that order is not one (C107_other_order_wrong)."
 },
 "C110": {
  "note": "Refuted: between two and three Nyquist frequencies below zero, and from four on, the result stays negative (C110_stays_negative_wrong); right elsewhere (C110_alias_partial)."
 },
 "C111": {
  "note": "Refuted: if each model is a single file all models are merged into one data set (C111_merged_wrong), and a list that starts with a single file and has a linked one further on raises (C111_mixed_wrong); right if the first model is linked (C111_separate_partial). Assumes the multimethod dispatch on the first list element."
 },
 "C113": {
  "note": "Refuted: the loop zips the models with the model names, of which there are seven by default, so further models are silently left out of the totals (C113_dropped_wrong, C113_first_models_wrong); right with enough names (C113_totals_partial); counts per model proved (C113_model)."
 },
 "C115": {
  "note": "Refuted: only radial orders are compared, so two different daughters (other degree or azimuthal order) of equal radial order are removed (C115_distinct_removed_wrong); right if the daughters share k and m (C115_harmonics_partial)."
 },
 "C116": {
  "note": "refuted: the word of the tens is chosen by the digit of the hundreds (20 to 99 give an empty word), and thousands are not named; exact set of correct numbers below 1000 proved, and the counts the scripts use are right"
 },
 "C117": {
  "note": "refuted: the method that registers the option has another name than the hook, so the option is never registered and every solve run ends with an AttributeError before computing; proved for a class with the right name"
 },
 "C118": {
  "note": "refuted for an empty directory argument, which means the root directory; proved for the default and for all relative directories of ordinary names (no symbolic links)"
 },
 "C119": {
  "note": "refuted: solve looks for a parent directory named like AESolver, plot and analyze for amplitude_equations_solver; each starts if its own name occurs"
 },
 "C120": {
  "note": "refuted for coefficient profiles of polytropes, which get the directories of the stellar models; proved for all grid computations and for profiles of stars"
 },
 "C121": {
  "note": "refuted: the option is never read, and nr_omp_threads is never passed; only the switch parallel_mode_coupling reaches the solver"
 },
 "C122": {
  "note": "refuted for custom inlists, whose reader is not implemented: every such run fails; proved for TOML"
 },
 "C126": {
  "note": "Proved for all quantities but the perturbation of the specific entropy, for which it is refuted (C126_entropy_wrong): lag_S is made dimensional with the radius."
 },
 "C127": {
  "note": "Proved for names that are SI in no spelling. Refuted: 'si' gives the SI gravitational constant with cgs data; six MESA columns are never converted; mass and radius of polytropes stay as given while G is the SI one."
 },
 "C129": {
  "note": "Proved: with a base directory, directories given are used exactly as given (C129_as_given_partial). The documented behaviour is refuted: the condition is inverted, so that paths are never relative to the base directory, and without base directory are put behind the word 'None'; the loader exits for directories that are not needed; a directory that is not given is replaced by the working directory."
 },
 "C132": {
  "note": "Proved which directories are searched for stars and polytropes. Refuted: without base directory the path begins with 'None'; for polytropes the mode path and base directory of the inlist are ignored; GYRE.default and POLY directories are required but of no effect for stars."
 },
 "C134": {
  "note": "Proved: the original domain contains the corrected one, and the image is displaced by less than one step. Refuted: the original domain contains points without stable fixed point (documented in the code as the error that was corrected); the image is displaced by half a step against the contour lines. C134_original_exact_partial says what the original condition is; C134_original_everywhere_wrong: at every pair of ratios for which it is ever true there is a detuning for which it is true without a stable fixed point."
 },
 "C135": {
  "note": "Proved if there are at least k points on each side; refuted otherwise: points of the wrong side are used."
 },
 "C136": {
  "note": "Proved for the value, and for the uncertainty if the points are on a line. Refuted for the uncertainty: the covariance of slope and intercept is left out, which for positive ratios always overestimates it."
 },
 "C137": {
  "note": "The standard model of floating-point arithmetic without overflow and underflow; rounding of double numbers to nearest with unbounded exponent is shown to meet it. The constants 0, 2, 3, 4 are exact. The uneven parallel branch has a data race (C07) and is not covered."
 },
 "C139": {
  "note": "pow(mu, 2) is taken to be mu*mu rounded once."
 },
 "C140": {
  "note": "Holds at phase 0. With another phase the bars do not belong to the returned edges (`C140_phase_wrong`)."
 },
 "C141": {
  "note": "numpy, iterator, numexpr and blas: exactly. cython: uses another normalisation and returns another histogram (`C141_cython_wrong`)."
 },
 "C142": {
  "note": "Fails: with verbose every automatic function raises TypeError on every data set with two different values (`C142_verbose_wrong`); only the early returns are unaffected."
 },
 "C143": {
  "note": "numpy: yes. blas: at phase 0 with min_nr_bins given; otherwise trailing empty bins are dropped (`C143_short_wrong`). cython and numexpr: every call raises TypeError (`C143_keyword_wrong`)."
 },
 "C144": {
  "note": "With at least two numbers among the data: yes, for every option. With one number and NaNs, or a single NaN, the functions raise (`C144_one_number_wrong`)."
 },
 "C145": {
  "note": "At phase 0; another phase is reported as 0 (`C145_phase_wrong`), and a single point has no parameters (`C146_width_wrong`)."
 },
 "C146": {
  "note": "A single point: one bar of height 1, but the returned width is the custom width and not the distance of the edges (`C146_width_wrong`). Equal points: four of five functions raise or exit (`C146_equal_wrong`)."
 },
 "C147": {
  "note": "Proved for numbers that are not all equal, for every function, except: numexpr divides by the length of the data including NaNs (`C147_numexpr_nan_wrong`); the densities of blas are all scaled by the width of the first bin (`C147_blas_density_wrong`); equal data give an exception or one bar with several equal edges (`C147_equal_wrong`)."
 },
 "C148": {
  "note": "Proved for iterator, numexpr and blas; cython uses a factor that depends on the number of bins instead of the number of points and selects another histogram (`C148_cython_wrong`)."
 },
 "C150": {
  "note": "Proved for values that are not zero and not all equal, except: NaN is counted in the last bin (`C150_nan_wrong`); a single triad raises TypeError (`C150_single_wrong`); a sharpness of zero raises ValueError (`C150_zero_wrong`); equal values give bars without width (`C150_equal_wrong`)."
 },
 "C152": {
  "note": "Proved except for the stellar model: the last MESA substring is dropped from the directory, so runs for models that differ in it overwrite each other (`C152_star_wrong`)."
 },
 "C153": {
  "note": "Proved except for the factors: the angular curves do not contain the factors their legends announce (`C153_angular_multiplier_wrong`), and the radial curves contain numbers that neither title nor legend shows (`C153_radial_factor_wrong`: two panels with equal titles and legends, curves differing by the factor -2)."
 },
 "C154": {
  "note": "Proved for stellar models. Runs for polytropes always raise AttributeError (`C154_polytrope_wrong`). Failing of loading, of `savefig` and of the eigenvalue routine is not modelled."
 },
 "C155": {
  "note": "Proved for triads that pass the check. With `stationary_solving` off, a triad that fails the selection rules has zero amplitudes in a grid run, but the profile run prints amplitudes as if it passed (`C155_check_wrong`)."
 },
 "C157": {
  "note": "A figure is what is drawn (curves, labels, limits, legend, title); fonts, ticks and layout are left out. Exact real arithmetic."
 },
 "C158": {
  "note": "Exact real arithmetic without NaN; multimethod and singledispatch selection by type as documented."
 },
 "C163": {
  "note": "refuted in the flat layout only, which no script requests"
 },
 "C164": {
  "note": "refuted for None, complex, functions, arrays of length one, empty containers, length zero"
 },
 "C166": {
  "note": "C166_normed_wrong: '_add_debug_attribute(x, normed=True)' reads the attribute x, not x_normed, so for MESA and polytrope models the records called normed repeat the un-normalised ones; C166_polytrope_wrong: polytropes are recorded under _p_profile and _rho_profile while the enumeration lists P and rho, which stay None. Complex arrays are not modelled."
 },
 "C167": {
  "note": "refuted in part: C167_shift_wrong, C167_hash_wrong, C167_unknown_wrong, C167_blank_in_tuple_wrong, C167_indent_wrong, C167_given_dictionary_wrong"
 },
 "C168": {
  "note": "refuted in part: C168_default_wrong, C168_outside_wrong"
 },
 "C169": {
  "note": "Proved for the default mode (the only one the runner uses): the file is the one saved at a new path, and a save that stops early holds only data of the new run (the earlier results are lost). Read-and-write mode: proved when the run has at least two triads or as many as before, and is not a polytrope over a stellar model; refuted for one triad over several (every data set holds as many copies of the row as there were triads before) and for a polytrope over a stellar model (results that only stellar models have stay). Append mode: refuted, exactly: data sets already there are kept without a message while the attributes become those of the new run; the file is right if and only if the earlier file's data sets are those of the run. h5py's buffering and damage of a file by a crash are not modelled."
 },
 "C170": {
  "note": "Proved on real numbers; an original coefficient equal to zero (infinite ratio in numpy) and a ratio equal to zero (corrected condition decided by lower powers) are outside the statements."
 },
 "C171": {
  "note": "Proved for ten of the fourteen names (C171_stored_partial), the common grid and the frame (C171_grid). False for the two derivatives of the azimuthal function, stored with the opposite sign under the definition lee_saio_equivalent that the coupling coefficients pass (C171_azimuthal_wrong, exact condition), and for the two second derivatives, negated in the southern half (C171_second_wrong). C171_kernels_wrong: a product of one array per mode has a factor -1 for every derivative of an azimuthal function in it."
 },
 "C172": {
  "note": "C172_exact: the arrays are those of such a displacement exactly when the colatitude derivative of the azimuthal function vanishes at all latitudes (its stored array has the opposite sign) and the mode is axisymmetric, or its radial function, or both horizontal functions vanish at all latitudes. C172_order_exact is the same for displacements with arbitrary profiles, without the first condition; C172_order_wrong is the refutation for every other mode. Proved for axisymmetric modes without rotation (C172_axisymmetric_partial); with rotation the displacement found for an axisymmetric mode has one profile with the wrong sign (C172_rotating_wrong)."
 },
 "C173": {
  "note": "Refuted for complex numbers requested: the integrator returns a float, which has no shape, so every radial integral and every mode energy raises (C173_complex_wrong). Otherwise the real part is taken of the product, not of the factors: C173_value; the radial factor is the one of the real parts exactly when an integral of the imaginary parts vanishes (C173_real_parts_exact), in particular when at most one function is complex at each point (C173_real_parts_partial); the norm is the one of the real parts only for functions real at every grid point (C173_norm_wrong); multiplying a mode by i negates its norm and its energy (C173_phase_wrong). Proved for real functions, as those of adiabatic modes (C173_energy_partial)."
 },
 "C174": {
  "note": "Absolute paths; file names with one dot for the name and suffix (C61 has the general case)."
 }
}