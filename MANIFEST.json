{
 "claims": [
  {
   "property": "C01",
   "status": "proved",
   "theorems": [
    "Verif.NumInt.C01_trapz_sum",
    "Verif.NumInt.C01_trapz_affine",
    "Verif.NumInt.C01_trapz_cut"
   ],
   "note": ""
  },
  {
   "property": "C02",
   "status": "proved",
   "theorems": [
    "Verif.NumInt.C02_shortcut_sound",
    "Verif.NumInt.C02_shortcut_only_equispaced"
   ],
   "note": ""
  },
  {
   "property": "C03",
   "status": "proved",
   "theorems": [
    "Verif.NumInt.C03_simpson_cubic"
   ],
   "note": ""
  },
  {
   "property": "C04",
   "status": "proved",
   "theorems": [
    "Verif.NumInt.C04_history_independent",
    "Verif.NumInt.C04_unknown_is_trapz",
    "Verif.NumInt.C04_simpson_fallback"
   ],
   "note": ""
  },
  {
   "property": "C05",
   "status": "proved",
   "theorems": [
    "Verif.NumInt.C05_memory_safe_iff"
   ],
   "note": ""
  },
  {
   "property": "C06",
   "status": "proved",
   "theorems": [
    "Verif.NumInt.C06_threads_irrelevant"
   ],
   "note": ""
  },
  {
   "property": "C07",
   "status": "partial",
   "theorems": [
    "Verif.NumInt.C07_trapz_parallel_even",
    "Verif.NumInt.C07_simpson_parallel",
    "Verif.NumInt.C07_simpson_parallel_fallback",
    "Verif.NumInt.C07_uneven_race_wrong",
    "Verif.NumInt.C07_uneven_one_thread_partial",
    "Verif.NumInt.C07_uneven_exact",
    "Verif.NumInt.C07_uneven_no_overlap",
    "Verif.NumInt.C07_uneven_every_schedule_wrong"
   ],
   "note": "Equal spacing and Simpson: every schedule, proved. Unequal spacing: the temporaries are shared, so the result is right for all data exactly if no addition mixes two iterations (C07_uneven_exact); right without overlap of loop bodies (C07_uneven_no_overlap) and with one thread; every schedule with two busy threads has an interleaving and data with a wrong result (C07_uneven_every_schedule_wrong)."
  },
  {
   "property": "C08",
   "status": "proved",
   "theorems": [
    "Verif.Disc.C08_only_visible_samples",
    "Verif.Disc.C08_kept_exactly",
    "Verif.Disc.C08_noninterference"
   ],
   "note": ""
  },
  {
   "property": "C09",
   "status": "proved",
   "theorems": [
    "Verif.Disc.C09_serial_eq_parallel"
   ],
   "note": ""
  },
  {
   "property": "C10",
   "status": "partial",
   "theorems": [
    "Verif.Disc.C10_equispaced_trapezoid_partial",
    "Verif.Disc.C10_uneven_grid_wrong",
    "Verif.Disc.C10_every_uneven_grid_wrong"
   ],
   "note": "Proved for equally spaced visible samples; the equal-spacing flag is hard-wired, so on every increasing grid that is not equally spaced some profile gets a wrong first integral (C10_every_uneven_grid_wrong, C10_uneven_grid_wrong)."
  },
  {
   "property": "C11",
   "status": "proved",
   "theorems": [
    "Verif.Disc.C11_memory_safe_iff"
   ],
   "note": ""
  },
  {
   "property": "C12",
   "status": "proved",
   "theorems": [
    "Verif.Ld.C12_eddington_pointwise",
    "Verif.Ld.C12_memory_safe_iff"
   ],
   "note": ""
  },
  {
   "property": "C13",
   "status": "partial",
   "theorems": [
    "Verif.Ld.C13_inplace_applies_twice",
    "Verif.Ld.C13_inplace_correct_iff_partial"
   ],
   "note": "Refuted: with one buffer for input and output the fall-through applies the law twice (C13_inplace_applies_twice); C13_inplace_correct_iff_partial is the exact set of inputs for which the result is still right."
  },
  {
   "property": "C14",
   "status": "proved",
   "theorems": [
    "Verif.Fornberg.C14_weights_exact",
    "Verif.Fornberg.C14_sizes_needed"
   ],
   "note": ""
  },
  {
   "property": "C15",
   "status": "proved",
   "theorems": [
    "Verif.Fornberg.C15_grid_derivative_exact",
    "Verif.Fornberg.C15_accuracy_20_fails"
   ],
   "note": ""
  },
  {
   "property": "C16",
   "status": "partial",
   "theorems": [
    "Verif.Fornberg.C16_safe_iff",
    "Verif.Fornberg.C16_guard_too_weak",
    "Verif.Fornberg.C16_stencil_partial"
   ],
   "note": "C16_safe_iff is the exact condition; the guard admits accuracy 20, orders above 7 and short grids, all out of bounds (C16_guard_too_weak)."
  },
  {
   "property": "C17",
   "status": "partial",
   "theorems": [
    "Verif.Pairing.C17_inverse_partial",
    "Verif.Pairing.C17_inverse_raises",
    "Verif.Pairing.C17_injective",
    "Verif.Pairing.C17_bijective_range"
   ],
   "note": "Bijectivity proved; the inverse is right for numpy offsets, and always raises for plain Python integer offsets, including the default (C17_inverse_raises)."
  },
  {
   "property": "C18",
   "status": "partial",
   "theorems": [
    "Verif.Pairing.C18_symmetric",
    "Verif.Pairing.C18_injective",
    "Verif.Pairing.C18_inverse_partial",
    "Verif.Pairing.C18_diagonal_wrong",
    "Verif.Pairing.C18_inverse_raises"
   ],
   "note": "Symmetry and injectivity proved; the inverse is wrong for equal entries (C18_diagonal_wrong) and raises for plain Python integer offsets (C18_inverse_raises)."
  },
  {
   "property": "C19",
   "status": "partial",
   "theorems": [
    "Verif.Pairing.C19_symmetric",
    "Verif.Pairing.C19_inverse_partial",
    "Verif.Pairing.C19_injective",
    "Verif.Pairing.C19_inverse_raises"
   ],
   "note": "Symmetry, injectivity and (numpy offsets) inverse proved; plain Python integer offsets raise (C19_inverse_raises)."
  },
  {
   "property": "C20",
   "status": "proved",
   "theorems": [
    "Verif.Combos.C20_each_pair_once",
    "Verif.Combos.C20_only_pairs",
    "Verif.Combos.C20_count"
   ],
   "note": ""
  },
  {
   "property": "C21",
   "status": "proved",
   "theorems": [
    "Verif.Combos.C21_product_multiplicity",
    "Verif.Combos.C21_count"
   ],
   "note": ""
  },
  {
   "property": "C22",
   "status": "partial",
   "theorems": [
    "Verif.Combos.C22_exact",
    "Verif.Combos.C22_symmetric_product_partial",
    "Verif.Combos.C22_orientation_wrong"
   ],
   "note": "Right exactly if both inputs and their differences are iterated in the order of the union (C22_exact); then count and diagonal are right too (C22_symmetric_product_partial). Not true for other orders of sets: C22_orientation_wrong."
  },
  {
   "property": "C23",
   "status": "proved",
   "theorems": [
    "Verif.Stab.C23_corrected_iff_equivalent",
    "Verif.Stab.C23_original_is_weaker",
    "Verif.Stab.C23_original_differs"
   ],
   "note": ""
  },
  {
   "property": "C24",
   "status": "proved",
   "theorems": [
    "Verif.Stab.C24_check_iff_stable_fixed_point"
   ],
   "note": ""
  },
  {
   "property": "C25",
   "status": "partial",
   "theorems": [
    "Verif.Stab.C25_flag_never_true_partial",
    "Verif.Stab.C25_flag_wrong",
    "Verif.Stab.C25_check_is_hyperbolic",
    "Verif.Stab.C25_three_trace_wrong"
   ],
   "note": "The claim is false of the code in exact arithmetic: the constructed matrix is singular for every parametric triad (C25_flag_wrong), so the flag is constantly False; in floating point the outcome is rounding noise. Proved part: no false positives."
  },
  {
   "property": "C26",
   "status": "partial",
   "theorems": [
    "Verif.Stab.C26_amplitudes_stationary_partial",
    "Verif.Stab.C26_returned_phase_iff",
    "Verif.Stab.C26_amplitudes_unique",
    "Verif.Stab.C26_amplitudes_defined"
   ],
   "note": "Amplitudes: stationary and unique, proved. Returned phase arctan(-1/q) is on the wrong branch (off by pi) unless eta*q>0 (C26_returned_phase_iff). Detuning 0 excluded (division by zero in the phase)."
  },
  {
   "property": "C27",
   "status": "partial",
   "theorems": [
    "Verif.PreCheck.C27_defined_iff",
    "Verif.PreCheck.C27_exact_partial",
    "Verif.PreCheck.C27_exact_list_partial",
    "Verif.PreCheck.C27_selection_rules_partial",
    "Verif.PreCheck.C27_default_configuration",
    "Verif.PreCheck.C27_three_mode_check",
    "Verif.PreCheck.C27_meridional_wrong",
    "Verif.PreCheck.C27_bare_flag"
   ],
   "note": "Proved for all triads whose mode numbers index back into the triad (the (1,2,3) the solver uses, any reordering, (1,2,2)); for other triads the code uses mode numbers as positions in the triad's own lists, so it accepts forbidden triads or raises (C27_meridional_wrong). C27_exact_partial/C27_exact_list_partial give the exact set: fifteen triads are checked rightly for all modes, every other one is not; C27_defined_iff: a triad is refused exactly if it has a mode number above three."
  },
  {
   "property": "C28",
   "status": "partial",
   "theorems": [
    "Verif.InputGen.C28_two_ranges_exact",
    "Verif.InputGen.C28_statistics",
    "Verif.InputGen.C28_single_range",
    "Verif.InputGen.C28_two_ranges_partial",
    "Verif.InputGen.C28_two_ranges_wrong"
   ],
   "note": "Single damped range: fully proved. Two damped ranges: proved when the sets are iterated in increasing order; CPython's order for e.g. {7,8,9} is 8,9,7 and then a triple with neither damped order in the second range is listed (C28_two_ranges_wrong). C28_two_ranges_exact: right exactly if both ranges and their differences are iterated in the order of their union."
  },
  {
   "property": "C29",
   "status": "partial",
   "theorems": [
    "Verif.Freq.C29_adiabatic_partial",
    "Verif.Freq.C29_corot_freq_wrong",
    "Verif.Freq.C29_dimensionless_wrong",
    "Verif.Freq.C29_nonadiabatic"
   ],
   "note": "All outputs proved to depend only on the physical frequencies except the co-rotating cyclic frequency for angular requested units and inertial-frame data, which is uninitialised memory / 2 pi (C29_corot_freq_wrong); for uHz and cycles/day the 'dimensionless' frequencies are off by the squared unit ratio (C29_dimensionless_wrong)."
  },
  {
   "property": "C30",
   "status": "partial",
   "theorems": [
    "Verif.Freq.C30_through_intermediate",
    "Verif.Freq.C30_round_trip_partial",
    "Verif.Freq.C30_physical",
    "Verif.Freq.C30_object_converter_wrong"
   ],
   "note": "Factor table proved consistent, round trips included; the object-level converter is wrong for the targets NONE and HZ (C30_object_converter_wrong)."
  },
  {
   "property": "C31",
   "status": "proved",
   "theorems": [
    "Verif.Freq.C31_triad",
    "Verif.Freq.C31_products_used"
   ],
   "note": ""
  },
  {
   "property": "C32",
   "status": "proved",
   "theorems": [
    "Verif.Hist.C32_point_in_enclosing_bin",
    "Verif.Hist.C32_counts_conserve_and_localise",
    "Verif.Hist.C32_equal_width_counts",
    "Verif.Hist.C32_forgiven_point"
   ],
   "note": ""
  },
  {
   "property": "C33",
   "status": "partial",
   "theorems": [
    "Verif.Hist.C33_probability_sums_to_one",
    "Verif.Hist.C33_density_integrates_to_one_partial",
    "Verif.Hist.C33_cython_density_integrates_to_one",
    "Verif.Hist.C33_density_first_bin_wrong",
    "Verif.Hist.C33_density_empty_last_bin_raises",
    "Verif.Hist.C33_numexpr_nan_sum",
    "Verif.Hist.C33_equal_width_normalised"
   ],
   "note": "Probabilities sum to one (proved). Density integrates to one only if the minimal bin number equals the bin number or the last bin is occupied: otherwise the shorter count array is broadcast against the widths, giving an integral of n or a broadcasting error (C33_density_first_bin_wrong, C33_density_empty_last_bin_raises). The numexpr log version divides by the length including NaNs (C33_numexpr_nan_sum). The cython loop is right."
  },
  {
   "property": "C34",
   "status": "partial",
   "theorems": [
    "Verif.Hist.C34_search_returns_first_maximiser_partial",
    "Verif.Hist.C34_degenerate_disagree"
   ],
   "note": "Proved whenever some likelihood is above -inf; in the degenerate case the two searches differ (C34_degenerate_disagree)."
  },
  {
   "property": "C35",
   "status": "partial",
   "theorems": [
    "Verif.Hist.C35_likelihoods_agree_given_factor",
    "Verif.Hist.C35_log_likelihoods_agree_given_factor",
    "Verif.Hist.C35_conversion_factors_agree_partial",
    "Verif.Hist.C35_cython_no_loop_factor_wrong",
    "Verif.Hist.C35_cython_likelihood_wrong"
   ],
   "note": "All likelihoods agree for one conversion factor; the conversion factors of numpy, cython loop, numexpr and BLAS agree, but the loop-free cython factor actually used multiplies (1+alpha) by the number of bins instead of summing counts (C35_cython_no_loop_factor_wrong, C35_cython_likelihood_wrong)."
  },
  {
   "property": "C36",
   "status": "proved",
   "theorems": [
    "Verif.Mask.C36_overview_masks_partition",
    "Verif.Mask.C36_triad_count_masks",
    "Verif.Mask.C36_isolated_masks_partition"
   ],
   "note": ""
  },
  {
   "property": "C37",
   "status": "partial",
   "theorems": [
    "Verif.Mask.C37_exact_partial",
    "Verif.Mask.C37_contained_wrong",
    "Verif.Mask.C37_isolated_is_lowest_partial",
    "Verif.Mask.C37_lowest_passes",
    "Verif.Mask.C37_equal_daughters_wrong"
   ],
   "note": "Proved for tables with separated thresholds (> 1e-14) when no other valued triad contains all modes of the flagged one; otherwise false: a triad with equal daughters is flagged although a triad sharing parent and daughter has a lower threshold (C37_equal_daughters_wrong). The converse (lowest triads pass) holds always. C37_exact_partial says exactly which triads are flagged (when the lowest of the parent is unique); C37_contained_wrong: in every table a triad contained in the lowest one gets its flag, however high its own threshold."
  },
  {
   "property": "C38",
   "status": "partial",
   "theorems": [
    "Verif.Mask.C38_defined_iff_parents_repeat_partial",
    "Verif.Mask.C38_single_parent_raises"
   ],
   "note": "Refuted as stated: argpartition(.,1) raises for a parent occurring in one valued triad only; the exact condition is proved."
  },
  {
   "property": "C39",
   "status": "partial",
   "theorems": [
    "Verif.Norm.C39_factor_is_total_factor",
    "Verif.Norm.C39_refinement_budget_partial",
    "Verif.Norm.C39_energy_is_current",
    "Verif.Norm.C39_energy_hits_target",
    "Verif.Norm.C39_zero_budget_raises",
    "Verif.Norm.C39_schenk_dimension_wrong",
    "Verif.Norm.C39_convention_names"
   ],
   "note": "Proved for all energy computations and refinement histories (factor = total factor, budget, flags) and exact hit of the target in exact arithmetic. Fails: refinement with budget 0 raises UnboundLocalError (C39_zero_budget_raises); the Schenk convention compares a dimensionless norm with a dimensional target (C39_schenk_dimension_wrong)."
  },
  {
   "property": "C40",
   "status": "partial",
   "theorems": [
    "Verif.Inlist.C40_user_overrides_default_partial",
    "Verif.Inlist.C40_unreadable_raises",
    "Verif.Inlist.C40_blank_in_list_wrong"
   ],
   "note": "Proved for all well-formed inlists (any comments, blanks, quoting); a value containing a blank (e.g. [1, 2]) is cut by the tokenizer and raises (C40_blank_in_list_wrong)."
  },
  {
   "property": "C41",
   "status": "partial",
   "theorems": [
    "Verif.Inlist.C41_number_typed_partial",
    "Verif.Inlist.C41_negative_exponent_wrong",
    "Verif.Inlist.C41_plus_wrong",
    "Verif.Inlist.C41_words_typed",
    "Verif.Inlist.C41_embedded_word_wrong"
   ],
   "note": "All decimal literals except negative ones with exponent and no point (C41_negative_exponent_wrong) and ones with a plus sign (C41_plus_wrong); floats are exact rationals."
  },
  {
   "property": "C42",
   "status": "partial",
   "theorems": [
    "Verif.Opts.C42_empty_table_none",
    "Verif.Opts.C42_no_empty_table_left_partial",
    "Verif.Opts.C42_rest_unchanged",
    "Verif.Opts.C42_idempotent",
    "Verif.Opts.C42_array_elements_wrong"
   ],
   "note": "Proved for tables under key paths; tables inside arrays and an empty document are not converted (C42_array_elements_wrong)."
  },
  {
   "property": "C43",
   "status": "partial",
   "theorems": [
    "Verif.Opts.C43_lookup_value",
    "Verif.Opts.C43_lookup_none_iff_partial",
    "Verif.Opts.C43_below_none_wrong",
    "Verif.Opts.C43_dict_negated",
    "Verif.Opts.C43_dict_plain",
    "Verif.Opts.C43_list_negated",
    "Verif.Opts.C43_list_plain_partial",
    "Verif.Opts.C43_list_two_keys_wrong",
    "Verif.Opts.C43_negated_value"
   ],
   "note": "Lookup and negation proved; below a None/number the lookup raises instead of returning None (C43_below_none_wrong); read_in_to_list misreads a leading two-key path as (name, negate) (C43_list_two_keys_wrong)."
  },
  {
   "property": "C44",
   "status": "proved",
   "theorems": [
    "Verif.Cheby.C44_matrix_invertible",
    "Verif.Cheby.C44_first_derivative",
    "Verif.Cheby.C44_second_derivative",
    "Verif.Cheby.C44_operator",
    "Verif.Cheby.C44_eigenproblem",
    "Verif.Cheby.C44_every_vector"
   ],
   "note": "Proved in exact real arithmetic for every grid size, both parities and both sine factors."
  },
  {
   "property": "C45",
   "status": "partial",
   "theorems": [
    "Verif.Hough.C45_radial_function",
    "Verif.Hough.C45_profiles",
    "Verif.Hough.C45_radial_derivatives",
    "Verif.Hough.C45_latitudinal_derivatives",
    "Verif.Hough.C45_azimuthal_derivatives_partial",
    "Verif.Hough.C45_azimuthal_lee_saio_wrong",
    "Verif.Hough.C45_azimuthal_townsend_wrong",
    "Verif.Hough.C45_azimuthal_everywhere_wrong"
   ],
   "note": "Radial and latitudinal derivatives proved for all definitions; azimuthal derivative proved for prat and refuted for lee_saio_equivalent (opposite sign) and townsend (adjust_phi_sign never applied to the derivative). C45_azimuthal_everywhere_wrong gives the error at every point and exactly where it vanishes."
  },
  {
   "property": "C46",
   "status": "partial",
   "theorems": [
    "Verif.Hough.C46_grid",
    "Verif.Hough.C46_profiles",
    "Verif.Hough.C46_derivatives",
    "Verif.Hough.C46_azimuthal_derivatives_partial",
    "Verif.Hough.C46_second_derivative_wrong",
    "Verif.Hough.C46_second_derivative_wrong_case",
    "Verif.Hough.C46_combinations",
    "Verif.Hough.C46_second_derivatives_wrong"
   ],
   "note": "All profiles and first derivatives proved; second radial derivatives refuted: the southern half always has the wrong sign (_mul_kgrav_1 used instead of _mul_kgrav)."
  },
  {
   "property": "C47",
   "status": "proved",
   "theorems": [
    "Verif.AngInt.C47_exact",
    "Verif.AngInt.C47_failure"
   ],
   "note": "Exactness proved from the code's points and weights, plus failure propagation."
  },
  {
   "property": "C48",
   "status": "proved",
   "theorems": [
    "Verif.AngInt.C48_vanishes",
    "Verif.AngInt.C48_otherwise",
    "Verif.AngInt.C48_phi_integral",
    "Verif.AngInt.C48_bad_tuple"
   ],
   "note": "Selection rule proved for all conjugation settings, also as the azimuthal integral of the product of exponentials."
  },
  {
   "property": "C49",
   "status": "partial",
   "theorems": [
    "Verif.AngInt.C49_underestimates_wrong",
    "Verif.AngInt.C49_equispaced_partial",
    "Verif.AngInt.C49_normalisation_wrong"
   ],
   "note": "Refuted: the integrator is always called with the equal-spacing flag on the Chebyshev grid, so every non-negative integrand is underestimated (strictly from four points on) and the Lee (2012) normalisation is off; proved only for equally spaced grids."
  },
  {
   "property": "C50",
   "status": "partial",
   "theorems": [
    "Verif.Coupling.C50_S_operator",
    "Verif.Coupling.C50_S_operator_single",
    "Verif.Coupling.C50_radial",
    "Verif.Coupling.C50_relabel",
    "Verif.Coupling.C50_self_coupling_values",
    "Verif.Coupling.C50_self_coupling_partial",
    "Verif.Coupling.C50_self_coupling_wrong"
   ],
   "note": "C50_S_operator(+_single): each symmetrised term equals the sum over all 6 distributions of the modes (independent Spec.S) for any term lists, factors, uninitialised arrays; C50_radial: the radial factor is the trapezoid sum; C50_relabel: invariance. For self-coupling the shortcut ignores the angular and radial factors (C50_self_coupling_wrong), only unit factors agree (_partial)."
  },
  {
   "property": "C51",
   "status": "partial",
   "theorems": [
    "Verif.Store.C51_update_partial",
    "Verif.Store.C51_repeated_wrong",
    "Verif.Store.C51_one_row_wrong",
    "Verif.Store.C51_none_over_flags_wrong",
    "Verif.Store.C51_no_rows_wrong",
    "Verif.Store.C51_group_kept",
    "Verif.Store.C51_kept_otherwise",
    "Verif.Store.C51_tree",
    "Verif.Store.C51_flags",
    "Verif.Store.C51_create_refuses"
   ],
   "note": "C51_update_partial: proved for every file, path and value described by Replaceable; refuted when the new value has the stored type and can be repeated to the stored shape (C51_repeated_wrong, C51_one_row_wrong: n copies of the row), for None over flags (C51_none_over_flags_wrong) and over arrays without entries (C51_no_rows_wrong). What h5py does when writing to a null data space is left open (parameter NullWrite): the theorems hold for every choice."
  },
  {
   "property": "C52",
   "status": "partial",
   "theorems": [
    "Verif.Select.C52_selected_partial",
    "Verif.Select.C52_usual",
    "Verif.Select.C52_later_number_wrong",
    "Verif.Select.C52_negative_order_wrong"
   ],
   "note": "C52_selected_partial, C52_usual: proved for names in which nothing after the tagged numbers looks like a tag. Refuted otherwise: C52_later_number_wrong (a later 'l<digits>', as in _model12, is taken for the degree), C52_negative_order_wrong (names without n+<digits>, as GYRE gives for g modes, are never selected)."
  },
  {
   "property": "C53",
   "status": "partial",
   "theorems": [
    "Verif.Select.C53_path_partial",
    "Verif.Select.C53_retrograde_wrong",
    "Verif.Select.C53_found",
    "Verif.Select.C53_lambdas",
    "Verif.Select.C53_distinct"
   ],
   "note": "C53_path_partial: the path is GYRE's exactly for m >= 0 and |m| <= l. C53_retrograde_wrong: for m < 0 the name has two minus signs and the program exits. The module itself does not parse (line 89 of lam_tar_gyre.py has an unterminated f-string), so the theorems are about the functions as written."
  },
  {
   "property": "C54",
   "status": "partial",
   "theorems": [
    "Verif.Stab.C54_parametric_truth",
    "Verif.Stab.C54_harmonic_complete_partial",
    "Verif.Stab.C54_direct_exact",
    "Verif.Stab.C54_parametric_unsound",
    "Verif.Stab.C54_parametric_exact_wrong"
   ],
   "note": "Direct case exact; parametric case complete but unsound because numerator and denominator of the q^2 bound are swapped in the code (C54_parametric_unsound). C54_parametric_exact_wrong gives exactly the detunings that are accepted wrongly, and shows there are some at every ratio above the limit."
  },
  {
   "property": "C55",
   "status": "proved",
   "theorems": [
    "Verif.Stab.C55_critical_amplitude_threshold"
   ],
   "note": ""
  },
  {
   "property": "C56",
   "status": "partial",
   "theorems": [
    "Verif.Hist.C56_phase_zero_agree_partial",
    "Verif.Hist.C56_phase_disagrees",
    "Verif.Hist.C56_cython_phase_always_fails",
    "Verif.Hist.C56_three_results"
   ],
   "note": "Holds at phase 0 only; for phases in (0,1) the cython version always fails, numexpr truncates towards zero and BLAS adds instead of subtracts the phase."
  },
  {
   "property": "C57",
   "status": "proved",
   "theorems": [
    "Verif.Mask.C57_equilibrium_below_other_thresholds"
   ],
   "note": ""
  },
  {
   "property": "C58",
   "status": "partial",
   "theorems": [
    "Verif.Mask.C58_luminosity_cut_same_slot_partial",
    "Verif.Mask.C58_kept_has_sufficient_threshold",
    "Verif.Mask.C58_other_slot_wrong"
   ],
   "note": "Exact characterisation proved; the code compares daughters slot by slot, so a daughter shared across slots is missed (C58_other_slot_wrong)."
  },
  {
   "property": "C59",
   "status": "partial",
   "theorems": [
    "Verif.Inlist.C59_defaults_path_partial",
    "Verif.Inlist.C59_relative_raises",
    "Verif.Inlist.C59_no_extension_wrong"
   ],
   "note": "Proved for all root/dir/base.ext; paths with fewer than two slashes raise (C59_relative_raises); for a name without extension the nearest dotted directory is taken for the file, for all such paths, and a path without a dot raises (C59_no_extension_wrong)."
  },
  {
   "property": "C60",
   "status": "partial",
   "theorems": [
    "Verif.Inlist.C60_quoted_string_partial",
    "Verif.Inlist.C60_nested_quotes_wrong"
   ],
   "note": "Proved for strings without inner quotes and without both square brackets; nested quotes are stripped and tuples of strings stay text (C60_nested_quotes_wrong)."
  },
  {
   "property": "C61",
   "status": "partial",
   "theorems": [
    "Verif.Opts.C61_default_path_partial",
    "Verif.Opts.C61_dotted_name_wrong",
    "Verif.Opts.C61_command_line_format_wrong"
   ],
   "note": "Proved for file names with exactly one dot and no command-line override; the default inlist is the file given exactly if its name has one dot (C61_dotted_name_wrong); inlists named on the command line are read in the format of the default one (C61_command_line_format_wrong)."
  },
  {
   "property": "C62",
   "status": "proved",
   "theorems": [
    "Verif.Hough.C62_tidal_operator",
    "Verif.Hough.C62_continuity"
   ],
   "note": "Proved in exact real arithmetic: the matrix is the self-adjoint tidal operator (C62_tidal_operator) and the continuity equation holds for the prat definition (the other definitions are fixed rescalings of it, C45_profiles)."
  },
  {
   "property": "C63",
   "status": "partial",
   "theorems": [
    "Verif.Hough.C63_selection_partial",
    "Verif.Hough.C63_target",
    "Verif.Hough.C63_second_call_wrong"
   ],
   "note": "Selection, normalisation and sign proved for every solver output. Repeated calls are refuted: the stored guess is overwritten by the (sign-adjusted) target, so a second call keeps the eigenvalue nearest zero, whatever the first one kept (C63_second_call_wrong)."
  },
  {
   "property": "C64",
   "status": "partial",
   "theorems": [
    "Verif.AngInt.C64_always_exits_wrong",
    "Verif.AngInt.C64_protection_idle_wrong",
    "Verif.AngInt.C64_multiplier_one_partial"
   ],
   "note": "Refuted for every multiplier >= 2 (default 4): the rule always needs points outside the grid, so the option always ends the program and the protection never acts. Proved (exact arithmetic) for multiplier 1."
  },
  {
   "property": "C65",
   "status": "proved",
   "theorems": [
    "Verif.Coupling.C65_relabel"
   ],
   "note": ""
  },
  {
   "property": "C66",
   "status": "proved",
   "theorems": [
    "Verif.Coupling.C66_selection_rule"
   ],
   "note": ""
  },
  {
   "property": "C67",
   "status": "proved",
   "theorems": [
    "Verif.Coupling.C67_profile"
   ],
   "note": ""
  },
  {
   "property": "C68",
   "status": "proved",
   "theorems": [
    "Verif.Coupling.C68_multilinear"
   ],
   "note": "With the Chebyshev options (whose blow-up protection is not linear) proved for the radial profiles only (hypothesis Linear)."
  },
  {
   "property": "C69",
   "status": "partial",
   "theorems": [
    "Verif.Coupling.C69_quadratic",
    "Verif.Coupling.C69_radial_partial",
    "Verif.Coupling.C69_norm_doubled_wrong",
    "Verif.Coupling.C69_energy_doubled_wrong"
   ],
   "note": "Quadratic dependence and the radial factor proved; the value is refuted: the integral over the azimuth is counted twice, so norm and energy are 2\u03c0 times the volume integral (C69_norm_doubled_wrong, C69_energy_doubled_wrong)."
  },
  {
   "property": "C70",
   "status": "partial",
   "theorems": [
    "Verif.Coupling.C70_conjugation_partial",
    "Verif.Coupling.C70_false_wrong"
   ],
   "note": "False is replaced by the default (True, False, False): C70_false_wrong shows that allowed triads then get coefficient zero. Everything else proved (_partial)."
  },
  {
   "property": "C71",
   "status": "partial",
   "theorems": [
    "Verif.Store.C71_saved_partial",
    "Verif.Store.C71_wu_wrong",
    "Verif.Store.C71_kappa_sign_wrong",
    "Verif.Store.C71_no_triads",
    "Verif.Store.C71_tree"
   ],
   "note": "C71_saved_partial: all paths except 'wu' and the three absolute values. Refuted for those: C71_wu_wrong (the average radial order, truncated, is stored), C71_kappa_sign_wrong (signed values stored under |.| names). C71_no_triads: a run without triads raises."
  },
  {
   "property": "C72",
   "status": "partial",
   "theorems": [
    "Verif.Store.C72_name_partial",
    "Verif.Store.C72_distinct",
    "Verif.Store.C72_hyphen_wrong",
    "Verif.Store.C72_dotted_base_wrong",
    "Verif.Store.C72_subdir_wrong"
   ],
   "note": "Proved for names of word characters without subdirectory (C72_name_partial, C72_distinct). Refuted otherwise: C72_hyphen_wrong (no quantum numbers, runs overwrite each other), C72_dotted_base_wrong (numbers inserted in a directory name), C72_subdir_wrong (file beside the created subdirectory)."
  },
  {
   "property": "C73",
   "status": "proved",
   "theorems": [
    "Verif.Store.C73_found",
    "Verif.Store.C73_found_specification",
    "Verif.Store.C73_shortest",
    "Verif.Store.C73_lists"
   ],
   "note": "C73_found, C73_found_specification, C73_lists. C73_shortest: with lists of different lengths the number of paths is that of the shortest list (silently)."
  },
  {
   "property": "C74",
   "status": "partial",
   "theorems": [
    "Verif.Grid.C74_not_normalised_wrong",
    "Verif.Grid.C74_nonadiabatic_zero_wrong",
    "Verif.Grid.C74_flux_partial"
   ],
   "note": "Refuted: the perturbations are multiplied by the adiabatic flag instead of the normalisation factor (C74_not_normalised_wrong), so that non-adiabatic runs store zero (C74_nonadiabatic_zero_wrong). C74_flux_partial: holds for adiabatic runs with unit normalisation factors. The solver parts (frequencies, checks, coupler, amplitudes) are parameters here; they are modelled in other areas."
  },
  {
   "property": "C75",
   "status": "proved",
   "theorems": [
    "Verif.Grid.C75_phase",
    "Verif.Grid.C75_observer_independent",
    "Verif.Grid.C75_azimuth"
   ],
   "note": ""
  },
  {
   "property": "C76",
   "status": "proved",
   "theorems": [
    "Verif.Grid.C76_independent",
    "Verif.Grid.C76_order",
    "Verif.Grid.C76_failed_check"
   ],
   "note": ""
  },
  {
   "property": "C77",
   "status": "partial",
   "theorems": [
    "Verif.Select.C77_selected_partial",
    "Verif.Select.C77_rejected",
    "Verif.Select.C77_polytrope",
    "Verif.Select.C77_decided",
    "Verif.Select.C77_suffix_inside_wrong",
    "Verif.Select.C77_gyre_first_wrong",
    "Verif.Select.C77_string_raises"
   ],
   "note": "C77_selected_partial and C77_rejected; refuted: C77_suffix_inside_wrong (the suffix may be anywhere, a backup copy makes the profile unloadable), C77_gyre_first_wrong (names that start with gyre are selected), C77_string_raises (a plain string as substring raises)."
  },
  {
   "property": "C78",
   "status": "proved",
   "theorems": [
    "Verif.Select.C78_loaded",
    "Verif.Select.C78_readable",
    "Verif.Select.C78_succeeds",
    "Verif.Select.C78_order"
   ],
   "note": ""
  },
  {
   "property": "C79",
   "status": "proved",
   "theorems": [
    "Verif.Poly.C79_polytropic_surface",
    "Verif.Poly.C79_polytropic_star"
   ],
   "note": "Real arithmetic; grids sample exact Lane-Emden solutions."
  },
  {
   "property": "C80",
   "status": "proved",
   "theorems": [
    "Verif.Poly.C80_polytropic_derivatives"
   ],
   "note": ""
  },
  {
   "property": "C81",
   "status": "proved",
   "theorems": [
    "Verif.Poly.C81_polytropic_gravity"
   ],
   "note": ""
  },
  {
   "property": "C82",
   "status": "proved",
   "theorems": [
    "Verif.Poly.C82_polytropic_factors"
   ],
   "note": ""
  },
  {
   "property": "C83",
   "status": "partial",
   "theorems": [
    "Verif.Poly.C83_centre_values_partial",
    "Verif.Poly.C83_centre_second_derivative_wrong",
    "Verif.Poly.C83_centre_nan_wrong"
   ],
   "note": "True for radius, mass, density, pressure, gravity and the first and third derivatives; refuted for the second derivatives (0/0 replaced by 0, true limit 4 pi G rho_c/3) and for V_2, U, c1, N^2 (NaN)."
  },
  {
   "property": "C84",
   "status": "partial",
   "theorems": [
    "Verif.Coupling.C84_value_partial",
    "Verif.Coupling.C84_conjugation_ignored",
    "Verif.Coupling.C84_gradient",
    "Verif.Coupling.C84_conjugation_wrong"
   ],
   "note": "C84_value_partial: each part is exactly the integral (spherical-coordinate gradient, C84_gradient) when no or all modes are flagged, or the flagged ones are axisymmetric without azimuthal displacement. C84_conjugation_ignored: in general the computed value is that of unconjugated polarisations with the azimuthal selection rule of the conjugated fields, which can have the wrong sign (C84_conjugation_wrong). The hypothesis Samples asks for angular arrays in one azimuthal convention; C85 shows that the Hough class delivers such arrays for axisymmetric modes only, and C172 that even then the colatitude derivative of the azimuthal profile has the wrong sign in a rotating star."
  },
  {
   "property": "C85",
   "status": "partial",
   "theorems": [
    "Verif.Hough.C85_consistent_iff",
    "Verif.Hough.C85_axisymmetric_partial",
    "Verif.Hough.C85_sectoral_wrong",
    "Verif.Hough.C85_divergence"
   ],
   "note": "Refuted: C85_consistent_iff shows that no azimuthal order fits unless m = 0 (the product m*Hr is formed with -m, the two combinations with +m), whatever the definition; C85_sectoral_wrong is a case. C85_divergence: the divergence identity holds for 'prat' and is off by 2 m Hphi/sin(theta) for 'lee_saio_equivalent', the definition the coupling coefficients use. Proved for axisymmetric modes (C85_axisymmetric_partial)."
  },
  {
   "property": "C86",
   "status": "proved",
   "theorems": [
    "Verif.Radial.C86_vectors",
    "Verif.Radial.C86_gradients_effective_degree",
    "Verif.Radial.C86_gradients"
   ],
   "note": "C86_vectors, C86_gradients. C86_gradients_effective_degree: if the variables are scaled with another degree l_i than the l of the mode (GYRE's effective degree in the TAR) the gradients are off by (l_i - l) times the displacement; that assumption about the external program is explicit in the hypothesis. Numerical-derivative option: see C14, C15."
  },
  {
   "property": "C87",
   "status": "proved",
   "theorems": [
    "Verif.Radial.C87_divergence",
    "Verif.Radial.C87_compression"
   ],
   "note": "C87_divergence is an equivalence: the trace agrees exactly where the horizontal divergence of the angular arrays is -lambda*Hr (true for 'prat' and for m = 0, false for other modes with the definition used, see C85_divergence) or the horizontal displacement vanishes."
  },
  {
   "property": "C88",
   "status": "partial",
   "theorems": [
    "Verif.Struct.C88_derivatives_partial",
    "Verif.Struct.C88_normed",
    "Verif.Struct.C88_numerical",
    "Verif.Struct.C88_polytrope_raises_wrong"
   ],
   "note": "Proved for the symbolic option with the buoyancy definition and for the numerical option. Refuted for polytropes with symbolic derivatives and use_brunt_def off: the attribute that is differentiated does not exist (C88_polytrope_raises_wrong)."
  },
  {
   "property": "C89",
   "status": "partial",
   "theorems": [
    "Verif.NumDeriv.C89_gradient_exact",
    "Verif.NumDeriv.C89_fornberg_exact",
    "Verif.NumDeriv.C89_higher_orders",
    "Verif.NumDeriv.C89_higher_missing",
    "Verif.NumDeriv.C89_edge_order_one",
    "Verif.NumDeriv.C89_complex_partial",
    "Verif.NumDeriv.C89_real_profile",
    "Verif.NumDeriv.C89_complex_message_wrong",
    "Verif.NumDeriv.C89_radial_gradients"
   ],
   "note": "np.gradient is modelled from its documentation, in exact arithmetic. Partial for complex profiles: the derivatives of the parts are exact (C89_complex_partial), but the message is bound in the real branch only, so with messages on (the default, used by every caller) each complex profile raises UnboundLocalError, and with it the numerical radial gradients of modes with complex functions (C89_complex_message_wrong)."
  },
  {
   "property": "C90",
   "status": "partial",
   "theorems": [
    "Verif.NumDeriv.C90_first_order_partial",
    "Verif.NumDeriv.C90_five_point_partial",
    "Verif.NumDeriv.C90_ends_wrong",
    "Verif.NumDeriv.C90_uneven_wrong",
    "Verif.NumDeriv.C90_missing_kernel_wrong",
    "Verif.NumDeriv.C90_named_partial"
   ],
   "note": "Proved where the stencil fits (the five-point stencil on equal spacing). Refuted: zero at the ends of the grid for all functions (C90_ends_wrong), five-point stencil exact on quartics exactly where the five points are equally spaced (C90_uneven_wrong), order-2 forward and backward differences raise (C90_missing_kernel_wrong)."
  },
  {
   "property": "C91",
   "status": "partial",
   "theorems": [
    "Verif.NumDeriv.C91_length_partial",
    "Verif.NumDeriv.C91_points_lost_wrong"
   ],
   "note": "Refuted: the number of values equals the number of original points that are points of the refined equally spaced grid (C91_length_partial gives the exact condition; C91_points_lost_wrong a grid of four points that keeps two)."
  },
  {
   "property": "C92",
   "status": "proved",
   "theorems": [
    "Verif.Coupling.C92_normalised",
    "Verif.Coupling.C92_amplitude_free",
    "Verif.Coupling.C92_idempotent"
   ],
   "note": ""
  },
  {
   "property": "C93",
   "status": "proved",
   "theorems": [
    "Verif.Coupling.C93_energy",
    "Verif.Coupling.C93_amplitude_free",
    "Verif.Coupling.C93_value",
    "Verif.Coupling.C93_functions"
   ],
   "note": ""
  },
  {
   "property": "C94",
   "status": "partial",
   "theorems": [
    "Verif.Assemble.C94_one_grid_partial",
    "Verif.Assemble.C94_coarse_first_wrong",
    "Verif.Assemble.C94_own_grid",
    "Verif.Assemble.C94_affine",
    "Verif.Assemble.C94_accepted",
    "Verif.Assemble.C94_uncut_wrong"
   ],
   "note": "Exact real arithmetic. Refuted in full: structure arrays are always taken from the first file and never interpolated, so if the first mode is not the finest of the three, the constructor fails for every input (C94_coarse_first_wrong). Proved for the inputs that remain (C94_one_grid_partial) and acceptance of all well-formed inputs with the finest mode first (C94_accepted). The mode profiles that the coefficient does not use are interpolated but never cut, so with a cut they have more points than the radial coordinate (C94_uncut_wrong)."
  },
  {
   "property": "C95",
   "status": "partial",
   "theorems": [
    "Verif.Assemble.C95_regridded_partial",
    "Verif.Assemble.C95_same_count",
    "Verif.Assemble.C95_other_radii_wrong",
    "Verif.Assemble.C95_polytrope_regrid_wrong"
   ],
   "note": "Proved when the numbers of points differ (C95_regridded_partial). Refuted in full: with the same number of points nothing is interpolated, so at other radii the profiles belong to other points than the grid (C95_other_radii_wrong, for every such input); and a polytrope with another number of points than the finest mode is never accepted, because the central pressure is then stored under another name than the one read (C95_polytrope_regrid_wrong)."
  },
  {
   "property": "C96",
   "status": "proved",
   "theorems": [
    "Verif.Assemble.C96_polytrope_grid",
    "Verif.Assemble.C96_accepted"
   ],
   "note": "Exact real arithmetic; polytropes without analytic derivatives."
  },
  {
   "property": "C97",
   "status": "proved",
   "theorems": [
    "Verif.Assemble.C97_scales"
   ],
   "note": "Exact real arithmetic."
  },
  {
   "property": "C98",
   "status": "proved",
   "theorems": [
    "Verif.Tar.C98_zones",
    "Verif.Tar.C98_message"
   ],
   "note": ""
  },
  {
   "property": "C99",
   "status": "partial",
   "theorems": [
    "Verif.Tar.C99_outcome_partial",
    "Verif.Tar.C99_valid_everywhere_wrong",
    "Verif.Tar.C99_one_criterion_wrong"
   ],
   "note": "Refuted: a star that is valid everywhere, and a star with no valid point where one criterion holds everywhere or both hold somewhere, raise PhysicsError. C99_outcome_partial is the exact condition for success."
  },
  {
   "property": "C100",
   "status": "proved",
   "theorems": [
    "Verif.Tar.C100_adjusted",
    "Verif.Tar.C100_contributions",
    "Verif.Tar.C100_terms"
   ],
   "note": ""
  },
  {
   "property": "C101",
   "status": "partial",
   "theorems": [
    "Verif.Tar.C101_profile_partial",
    "Verif.Tar.C101_end_partial",
    "Verif.Tar.C101_valid_core_wrong",
    "Verif.Tar.C101_valid_surface_wrong"
   ],
   "note": "Refuted for models with a valid core: valid masks are paired with the contribution of the following invalid zone, and with a valid surface the last zone is dropped by zip and stays zero. Proved for an invalid core, and at invalid points always."
  },
  {
   "property": "C102",
   "status": "partial",
   "theorems": [
    "Verif.Tar.C102_printed_partial",
    "Verif.Tar.C102_sign_wrong"
   ],
   "note": "Refuted when the adjustment flips the sign of the coefficient: amplitudes, threshold and fluxes are printed negative. Proved for equal signs."
  },
  {
   "property": "C103",
   "status": "partial",
   "theorems": [
    "Verif.Kernels.C103_rows_partial",
    "Verif.Kernels.C103_unknown",
    "Verif.Kernels.C103_scaling_wrong"
   ],
   "note": "Refuted: the computed scaling of a row is discarded, so the rows are the bare products; exactly the 15 listed terms declare a factor or division (C103_scaling_wrong). Rows and legends themselves are right (C103_rows_partial)."
  },
  {
   "property": "C104",
   "status": "partial",
   "theorems": [
    "Verif.Kernels.C104_rows_partial",
    "Verif.Kernels.C104_missing_derivative_wrong",
    "Verif.Kernels.C104_missing_derivative_coefficient"
   ],
   "note": "Refuted: without the isentropic derivative of the adiabatic exponent the helper fails although the coefficient can be computed (C104_missing_derivative_wrong, _coefficient). With it the rows are right (C104_rows_partial)."
  },
  {
   "property": "C105",
   "status": "partial",
   "theorems": [
    "Verif.Kernels.C105_first",
    "Verif.Kernels.C105_second",
    "Verif.Kernels.C105_fourth",
    "Verif.Kernels.C105_third_partial",
    "Verif.Kernels.C105_unique",
    "Verif.Kernels.C105_lost_scaling",
    "Verif.Kernels.C105_third_wrong"
   ],
   "note": "The pairing of radial with angular terms is not written in the code; it is the one fixed in Spec.products1-4. Contributions 1, 2 and 4 combine exactly; the third needs sign changes of terms 6-9, 17 (and of 1, 2 with the third radial term) and no sine division in terms 18, 19 (C105_third_partial); without them it is wrong (C105_third_wrong). C105_unique: the combined value is determined by the data."
  },
  {
   "property": "C106",
   "status": "proved",
   "theorems": [
    "Verif.Post.C106_locked",
    "Verif.Post.C106_smallest",
    "Verif.Post.C106_relative_shift"
   ],
   "note": ""
  },
  {
   "property": "C107",
   "status": "partial",
   "theorems": [
    "Verif.Post.C107_spin_partial",
    "Verif.Post.C107_other_order_wrong"
   ],
   "note": "Refuted: the difference of inertial and co-rotating frequency of the first daughter (its azimuthal order times the rotation frequency) is taken as the rotation frequency; wrong whenever that order is not one (C107_other_order_wrong)."
  },
  {
   "property": "C108",
   "status": "proved",
   "theorems": [
    "Verif.Post.C108_threshold",
    "Verif.Post.C108_missing",
    "Verif.Post.C108_compare"
   ],
   "note": ""
  },
  {
   "property": "C109",
   "status": "proved",
   "theorems": [
    "Verif.Post.C109_parametric",
    "Verif.Post.C109_direct",
    "Verif.Post.C109_neither"
   ],
   "note": ""
  },
  {
   "property": "C110",
   "status": "partial",
   "theorems": [
    "Verif.Post.C110_alias_partial",
    "Verif.Post.C110_stays_negative_wrong",
    "Verif.Post.C110_right_alias"
   ],
   "note": "Refuted: between two and three Nyquist frequencies below zero, and from four on, the result stays negative (C110_stays_negative_wrong); right elsewhere (C110_alias_partial)."
  },
  {
   "property": "C111",
   "status": "partial",
   "theorems": [
    "Verif.Post.C111_separate_partial",
    "Verif.Post.C111_merged_wrong",
    "Verif.Post.C111_mixed_wrong"
   ],
   "note": "Refuted: if each model is a single file all models are merged into one data set (C111_merged_wrong), and a list that starts with a single file and has a linked one further on raises (C111_mixed_wrong); right if the first model is linked (C111_separate_partial). Assumes the multimethod dispatch on the first list element."
  },
  {
   "property": "C112",
   "status": "proved",
   "theorems": [
    "Verif.Post.C112_classes",
    "Verif.Post.C112_isolated_parametric"
   ],
   "note": ""
  },
  {
   "property": "C113",
   "status": "partial",
   "theorems": [
    "Verif.Post.C113_model",
    "Verif.Post.C113_totals_partial",
    "Verif.Post.C113_dropped_wrong",
    "Verif.Post.C113_first_models_wrong"
   ],
   "note": "Refuted: the loop zips the models with the model names, of which there are seven by default, so further models are silently left out of the totals (C113_dropped_wrong, C113_first_models_wrong); right with enough names (C113_totals_partial); counts per model proved (C113_model)."
  },
  {
   "property": "C114",
   "status": "proved",
   "theorems": [
    "Verif.Post.C114_sharpness_data"
   ],
   "note": ""
  },
  {
   "property": "C115",
   "status": "partial",
   "theorems": [
    "Verif.Post.C115_harmonics_partial",
    "Verif.Post.C115_distinct_removed_wrong",
    "Verif.Post.C115_example_wrong"
   ],
   "note": "Refuted: only radial orders are compared, so two different daughters (other degree or azimuthal order) of equal radial order are removed (C115_distinct_removed_wrong); right if the daughters share k and m (C115_harmonics_partial)."
  },
  {
   "property": "C116",
   "status": "partial",
   "theorems": [
    "Verif.Runner.C116_words_partial",
    "Verif.Runner.C116_messages",
    "Verif.Runner.C116_tens_wrong",
    "Verif.Runner.C116_thousands_wrong"
   ],
   "note": "refuted: the word of the tens is chosen by the digit of the hundreds (20 to 99 give an empty word), and thousands are not named; exact set of correct numbers below 1000 proved, and the counts the scripts use are right"
  },
  {
   "property": "C117",
   "status": "partial",
   "theorems": [
    "Verif.Runner.C117_no_run_wrong",
    "Verif.Runner.C117_renamed_partial"
   ],
   "note": "refuted: the method that registers the option has another name than the hook, so the option is never registered and every solve run ends with an AttributeError before computing; proved for a class with the right name"
  },
  {
   "property": "C118",
   "status": "partial",
   "theorems": [
    "Verif.Runner.C118_solve_arguments",
    "Verif.Runner.C118_other_arguments",
    "Verif.Runner.C118_default",
    "Verif.Runner.C118_custom_partial",
    "Verif.Runner.C118_empty_dir_wrong"
   ],
   "note": "refuted for an empty directory argument, which means the root directory; proved for the default and for all relative directories of ordinary names (no symbolic links)"
  },
  {
   "property": "C119",
   "status": "partial",
   "theorems": [
    "Verif.Runner.C119_other_name_wrong",
    "Verif.Runner.C119_starts_partial"
   ],
   "note": "refuted: solve looks for a parent directory named like AESolver, plot and analyze for amplitude_equations_solver; each starts if its own name occurs"
  },
  {
   "property": "C120",
   "status": "partial",
   "theorems": [
    "Verif.Runner.C120_grid",
    "Verif.Runner.C120_profile_partial",
    "Verif.Runner.C120_polytrope_profile_wrong"
   ],
   "note": "refuted for coefficient profiles of polytropes, which get the directories of the stellar models; proved for all grid computations and for profiles of stars"
  },
  {
   "property": "C121",
   "status": "partial",
   "theorems": [
    "Verif.Runner.C121_processes_wrong",
    "Verif.Runner.C121_parallel_partial",
    "Verif.Runner.C121_threads_wrong"
   ],
   "note": "refuted: the option is never read, and nr_omp_threads is never passed; only the switch parallel_mode_coupling reaches the solver"
  },
  {
   "property": "C122",
   "status": "partial",
   "theorems": [
    "Verif.Runner.C122_custom_wrong",
    "Verif.Runner.C122_toml_partial"
   ],
   "note": "refuted for custom inlists, whose reader is not implemented: every such run fails; proved for TOML"
  },
  {
   "property": "C123",
   "status": "proved",
   "theorems": [
    "Verif.Runner.C123_logger",
    "Verif.Runner.C123_missing"
   ],
   "note": ""
  },
  {
   "property": "C124",
   "status": "proved",
   "theorems": [
    "Verif.Runner.C124_kind",
    "Verif.Runner.C124_saved",
    "Verif.Runner.C124_run"
   ],
   "note": ""
  },
  {
   "property": "C125",
   "status": "proved",
   "theorems": [
    "Verif.Load.C125_polytrope",
    "Verif.Load.C125_loads",
    "Verif.Load.C125_polytrope_loads",
    "Verif.Load.C125_scalar_units",
    "Verif.Load.C125_profile_units",
    "Verif.Load.C125_kept"
   ],
   "note": ""
  },
  {
   "property": "C126",
   "status": "partial",
   "theorems": [
    "Verif.Load.C126_same_quantity_partial",
    "Verif.Load.C126_entropy_wrong"
   ],
   "note": "Proved for all quantities but the perturbation of the specific entropy, for which it is refuted (C126_entropy_wrong): lag_S is made dimensional with the radius."
  },
  {
   "property": "C127",
   "status": "partial",
   "theorems": [
    "Verif.Load.C127_other_names_partial",
    "Verif.Load.C127_lower_case_wrong",
    "Verif.Load.C127_mesa_wrong",
    "Verif.Load.C127_polytrope_wrong"
   ],
   "note": "Proved for names that are SI in no spelling. Refuted: 'si' gives the SI gravitational constant with cgs data; six MESA columns are never converted; mass and radius of polytropes stay as given while G is the SI one."
  },
  {
   "property": "C128",
   "status": "proved",
   "theorems": [
    "Verif.Load.C128_contents",
    "Verif.Load.C128_no_unknown_name",
    "Verif.Load.C128_known",
    "Verif.Load.C128_mode",
    "Verif.Load.C128_names"
   ],
   "note": ""
  },
  {
   "property": "C129",
   "status": "partial",
   "theorems": [
    "Verif.Load.C129_as_given_partial",
    "Verif.Load.C129_not_relative_wrong",
    "Verif.Load.C129_none_prefix_wrong",
    "Verif.Load.C129_exit_wrong",
    "Verif.Load.C129_working_directory_wrong"
   ],
   "note": "Proved: with a base directory, directories given are used exactly as given (C129_as_given_partial). The documented behaviour is refuted: the condition is inverted, so that paths are never relative to the base directory, and without base directory are put behind the word 'None'; the loader exits for directories that are not needed; a directory that is not given is replaced by the working directory."
  },
  {
   "property": "C130",
   "status": "proved",
   "theorems": [
    "Verif.Load.C130_inferred"
   ],
   "note": ""
  },
  {
   "property": "C131",
   "status": "proved",
   "theorems": [
    "Verif.Load.C131_place",
    "Verif.Load.C131_value",
    "Verif.Load.C131_all_needed",
    "Verif.Load.C131_star",
    "Verif.Load.C131_poly",
    "Verif.Load.C131_incomplete",
    "Verif.Load.C131_comparer",
    "Verif.Load.C131_load_info"
   ],
   "note": ""
  },
  {
   "property": "C132",
   "status": "partial",
   "theorems": [
    "Verif.Load.C132_star_partial",
    "Verif.Load.C132_poly_partial",
    "Verif.Load.C132_base_none_wrong",
    "Verif.Load.C132_poly_selection_wrong",
    "Verif.Load.C132_gyre_default_wrong"
   ],
   "note": "Proved which directories are searched for stars and polytropes. Refuted: without base directory the path begins with 'None'; for polytropes the mode path and base directory of the inlist are ignored; GYRE.default and POLY directories are required but of no effect for stars."
  },
  {
   "property": "C133",
   "status": "proved",
   "theorems": [
    "Verif.Figs.C133_domain",
    "Verif.Figs.C133_every_point",
    "Verif.Figs.C133_symmetric",
    "Verif.Figs.C133_no_resonance"
   ],
   "note": ""
  },
  {
   "property": "C134",
   "status": "partial",
   "theorems": [
    "Verif.Figs.C134_original_contains_partial",
    "Verif.Figs.C134_original_wrong",
    "Verif.Figs.C134_original_exact_partial",
    "Verif.Figs.C134_original_everywhere_wrong",
    "Verif.Figs.C134_position_partial",
    "Verif.Figs.C134_position_wrong"
   ],
   "note": "Proved: the original domain contains the corrected one, and the image is displaced by less than one step. Refuted: the original domain contains points without stable fixed point (documented in the code as the error that was corrected); the image is displaced by half a step against the contour lines. C134_original_exact_partial says what the original condition is; C134_original_everywhere_wrong: at every pair of ratios for which it is ever true there is a detuning for which it is true without a stable fixed point."
  },
  {
   "property": "C135",
   "status": "partial",
   "theorems": [
    "Verif.Figs.C135_closest_partial",
    "Verif.Figs.C135_few_points_wrong"
   ],
   "note": "Proved if there are at least k points on each side; refuted otherwise: points of the wrong side are used."
  },
  {
   "property": "C136",
   "status": "partial",
   "theorems": [
    "Verif.Figs.C136_least_squares",
    "Verif.Figs.C136_boundary",
    "Verif.Figs.C136_weights",
    "Verif.Figs.C136_exact_partial",
    "Verif.Figs.C136_uncertainty_wrong"
   ],
   "note": "Proved for the value, and for the uncertainty if the points are on a line. Refuted for the uncertainty: the covariance of slope and intercept is left out, which for positive ratios always overestimates it."
  },
  {
   "property": "C137",
   "status": "proved",
   "theorems": [
    "Verif.Round.C137_trapz",
    "Verif.Round.C137_relative",
    "Verif.Round.C137_double",
    "Verif.Round.C137_even",
    "Verif.Round.C137_simpson",
    "Verif.Round.C137_trapz_parallel",
    "Verif.Round.C137_simpson_parallel",
    "Verif.Round.C137_two_runs"
   ],
   "note": "The standard model of floating-point arithmetic without overflow and underflow; rounding of double numbers to nearest with unbounded exponent is shown to meet it. The constants 0, 2, 3, 4 are exact. The uneven parallel branch has a data race (C07) and is not covered."
  },
  {
   "property": "C138",
   "status": "proved",
   "theorems": [
    "Verif.Round.C138_trapz",
    "Verif.Round.C138_second_order",
    "Verif.Round.C138_simpson",
    "Verif.Round.C138_converges",
    "Verif.Round.C138_total"
   ],
   "note": ""
  },
  {
   "property": "C139",
   "status": "proved",
   "theorems": [
    "Verif.Round.C139_law",
    "Verif.Round.C139_disc",
    "Verif.Round.C139_disc_simpson"
   ],
   "note": "pow(mu, 2) is taken to be mu*mu rounded once."
  },
  {
   "property": "C140",
   "status": "proved",
   "theorems": [
    "Verif.Jacky.C140_histogram_of_the_data",
    "Verif.Jacky.C140_total",
    "Verif.Jacky.C140_phase_wrong"
   ],
   "note": "Holds at phase 0. With another phase the bars do not belong to the returned edges (`C140_phase_wrong`)."
  },
  {
   "property": "C141",
   "status": "partial",
   "theorems": [
    "Verif.Jacky.C141_iterator",
    "Verif.Jacky.C141_numpy",
    "Verif.Jacky.C141_numexpr",
    "Verif.Jacky.C141_blas",
    "Verif.Jacky.C141_agree_partial",
    "Verif.Jacky.C141_cython_wrong"
   ],
   "note": "numpy, iterator, numexpr and blas: exactly. cython: uses another normalisation and returns another histogram (`C141_cython_wrong`)."
  },
  {
   "property": "C142",
   "status": "partial",
   "theorems": [
    "Verif.Jacky.C142_verbose_wrong",
    "Verif.Jacky.C142_verbose_early_partial"
   ],
   "note": "Fails: with verbose every automatic function raises TypeError on every data set with two different values (`C142_verbose_wrong`); only the early returns are unaffected."
  },
  {
   "property": "C143",
   "status": "partial",
   "theorems": [
    "Verif.Jacky.C143_numpy",
    "Verif.Jacky.C143_keyword_wrong",
    "Verif.Jacky.C143_blas_partial",
    "Verif.Jacky.C143_short_wrong"
   ],
   "note": "numpy: yes. blas: at phase 0 with min_nr_bins given; otherwise trailing empty bins are dropped (`C143_short_wrong`). cython and numexpr: every call raises TypeError (`C143_keyword_wrong`)."
  },
  {
   "property": "C144",
   "status": "partial",
   "theorems": [
    "Verif.Jacky.C144_nan_ignored_partial",
    "Verif.Jacky.C144_one_number_wrong"
   ],
   "note": "With at least two numbers among the data: yes, for every option. With one number and NaNs, or a single NaN, the functions raise (`C144_one_number_wrong`)."
  },
  {
   "property": "C145",
   "status": "partial",
   "theorems": [
    "Verif.Jacky.C145_phase_wrong",
    "Verif.Jacky.C145_reported_partial"
   ],
   "note": "At phase 0; another phase is reported as 0 (`C145_phase_wrong`), and a single point has no parameters (`C146_width_wrong`)."
  },
  {
   "property": "C146",
   "status": "partial",
   "theorems": [
    "Verif.Jacky.C146_single_partial",
    "Verif.Jacky.C146_width_wrong",
    "Verif.Jacky.C146_equal_wrong"
   ],
   "note": "A single point: one bar of height 1, but the returned width is the custom width and not the distance of the edges (`C146_width_wrong`). Equal points: four of five functions raise or exit (`C146_equal_wrong`)."
  },
  {
   "property": "C147",
   "status": "partial",
   "theorems": [
    "Verif.Jacky.C147_log_histogram_partial",
    "Verif.Jacky.C147_total",
    "Verif.Jacky.C147_numexpr_nan_wrong",
    "Verif.Jacky.C147_blas_density_wrong",
    "Verif.Jacky.C147_equal_wrong"
   ],
   "note": "Proved for numbers that are not all equal, for every function, except: numexpr divides by the length of the data including NaNs (`C147_numexpr_nan_wrong`); the densities of blas are all scaled by the width of the first bin (`C147_blas_density_wrong`); equal data give an exception or one bar with several equal edges (`C147_equal_wrong`)."
  },
  {
   "property": "C148",
   "status": "partial",
   "theorems": [
    "Verif.Jacky.C148_log_best_partial",
    "Verif.Jacky.C148_cython_wrong"
   ],
   "note": "Proved for iterator, numexpr and blas; cython uses a factor that depends on the number of bins instead of the number of points and selects another histogram (`C148_cython_wrong`)."
  },
  {
   "property": "C149",
   "status": "proved",
   "theorems": [
    "Verif.Jacky.C149_not_positive",
    "Verif.Jacky.C149_one_bin"
   ],
   "note": ""
  },
  {
   "property": "C150",
   "status": "partial",
   "theorems": [
    "Verif.Jacky.C150_sharpness_partial",
    "Verif.Jacky.C150_nan_wrong",
    "Verif.Jacky.C150_single_wrong",
    "Verif.Jacky.C150_zero_wrong",
    "Verif.Jacky.C150_equal_wrong",
    "Verif.Jacky.C150_empty",
    "Verif.Jacky.C150_kind"
   ],
   "note": "Proved for values that are not zero and not all equal, except: NaN is counted in the last bin (`C150_nan_wrong`); a single triad raises TypeError (`C150_single_wrong`); a sharpness of zero raises ValueError (`C150_zero_wrong`); equal values give bars without width (`C150_equal_wrong`)."
  },
  {
   "property": "C151",
   "status": "proved",
   "theorems": [
    "Verif.ProfRun.C151_terms_sum",
    "Verif.ProfRun.C151_ends",
    "Verif.ProfRun.C151_exists",
    "Verif.ProfRun.C151_adjusted"
   ],
   "note": ""
  },
  {
   "property": "C152",
   "status": "partial",
   "theorems": [
    "Verif.ProfRun.C152_within",
    "Verif.ProfRun.C152_distinct_partial",
    "Verif.ProfRun.C152_star_wrong",
    "Verif.ProfRun.C152_place"
   ],
   "note": "Proved except for the stellar model: the last MESA substring is dropped from the directory, so runs for models that differ in it overwrite each other (`C152_star_wrong`)."
  },
  {
   "property": "C153",
   "status": "partial",
   "theorems": [
    "Verif.ProfRun.C153_angular_partial",
    "Verif.ProfRun.C153_angular_legends",
    "Verif.ProfRun.C153_angular_multiplier_wrong",
    "Verif.ProfRun.C153_radial_partial",
    "Verif.ProfRun.C153_radial_legends",
    "Verif.ProfRun.C153_mask",
    "Verif.ProfRun.C153_radial_factor_wrong",
    "Verif.ProfRun.C153_radial_second",
    "Verif.ProfRun.C153_mode_texts_partial",
    "Verif.ProfRun.C153_mode_text_wrong"
   ],
   "note": "Proved except for the factors: the angular curves do not contain the factors their legends announce (`C153_angular_multiplier_wrong`), and the radial curves contain numbers that neither title nor legend shows (`C153_radial_factor_wrong`: two panels with equal titles and legends, curves differing by the factor -2)."
  },
  {
   "property": "C154",
   "status": "partial",
   "theorems": [
    "Verif.ProfRun.C154_all_or_nothing_partial",
    "Verif.ProfRun.C154_polytrope_wrong"
   ],
   "note": "Proved for stellar models. Runs for polytropes always raise AttributeError (`C154_polytrope_wrong`). Failing of loading, of `savefig` and of the eigenvalue routine is not modelled."
  },
  {
   "property": "C155",
   "status": "partial",
   "theorems": [
    "Verif.ProfRun.C155_same_as_grid_partial",
    "Verif.ProfRun.C155_check_wrong"
   ],
   "note": "Proved for triads that pass the check. With `stationary_solving` off, a triad that fails the selection rules has zero amplitudes in a grid run, but the profile run prints amplitudes as if it passed (`C155_check_wrong`)."
  },
  {
   "property": "C156",
   "status": "proved",
   "theorems": [
    "Verif.Assemble.C156_analytic_grid",
    "Verif.Assemble.C156_analytic_accepted",
    "Verif.Assemble.C156_analytic_star",
    "Verif.Assemble.C156_missing_derivative",
    "Verif.Assemble.C156_missing_profile_raises"
   ],
   "note": ""
  },
  {
   "property": "C157",
   "status": "proved",
   "theorems": [
    "Verif.Comparer.C157_figures",
    "Verif.Comparer.C157_complete",
    "Verif.Comparer.C157_mass_range",
    "Verif.Comparer.C157_unit_ignored",
    "Verif.Comparer.C157_labels_raises"
   ],
   "note": "A figure is what is drawn (curves, labels, limits, legend, title); fonts, ticks and layout are left out. Exact real arithmetic."
  },
  {
   "property": "C158",
   "status": "proved",
   "theorems": [
    "Verif.Comparer.C158_figures",
    "Verif.Comparer.C158_complete",
    "Verif.Comparer.C158_range",
    "Verif.Comparer.C158_unequal_lists"
   ],
   "note": "Exact real arithmetic without NaN; multimethod and singledispatch selection by type as documented."
  },
  {
   "property": "C159",
   "status": "proved",
   "theorems": [
    "Verif.Assemble.C159_numbers",
    "Verif.Assemble.C159_polytrope",
    "Verif.Assemble.C159_analytic"
   ],
   "note": ""
  },
  {
   "property": "C160",
   "status": "partial",
   "theorems": [
    "Verif.Poll.C160_outcome_partial",
    "Verif.Poll.C160_returned_partial",
    "Verif.Poll.C160_first_text_wrong",
    "Verif.Poll.C160_range_wrong",
    "Verif.Poll.C160_typed"
   ],
   "note": ""
  },
  {
   "property": "C161",
   "status": "partial",
   "theorems": [
    "Verif.Runner.C161_namespace_partial",
    "Verif.Runner.C161_verbosity_wrong",
    "Verif.Runner.C161_no_inlist_wrong",
    "Verif.Runner.C161_scripts_wrong"
   ],
   "note": ""
  },
  {
   "property": "C162",
   "status": "proved",
   "theorems": [
    "Verif.Post.C162_clouds",
    "Verif.Post.C162_none_lost",
    "Verif.Post.C162_shown_frequency",
    "Verif.Post.C162_legend",
    "Verif.Post.C162_figure_legend"
   ],
   "note": ""
  },
  {
   "property": "C163",
   "status": "partial",
   "theorems": [
    "Verif.Post.C163_mode_units",
    "Verif.Post.C163_single_units",
    "Verif.Post.C163_shifts",
    "Verif.Post.C163_flat_shift_partial",
    "Verif.Post.C163_flat_wrong",
    "Verif.Post.C163_estimators",
    "Verif.Post.C163_flat_ratios"
   ],
   "note": "refuted in the flat layout only, which no script requests"
  },
  {
   "property": "C164",
   "status": "partial",
   "theorems": [
    "Verif.Cmp.C164_value_partial",
    "Verif.Cmp.C164_dict_keys",
    "Verif.Cmp.C164_dict_equal",
    "Verif.Cmp.C164_lists",
    "Verif.Cmp.C164_comparison_wrong",
    "Verif.Cmp.C164_assertions_partial",
    "Verif.Cmp.C164_assertions_wrong"
   ],
   "note": "refuted for None, complex, functions, arrays of length one, empty containers, length zero"
  },
  {
   "property": "C165",
   "status": "proved",
   "theorems": [
    "Verif.Post.C165_files",
    "Verif.Post.C165_distinct",
    "Verif.Post.C165_limits"
   ],
   "note": ""
  },
  {
   "property": "C166",
   "status": "partial",
   "theorems": [
    "Verif.Debug.C166_record",
    "Verif.Debug.C166_names",
    "Verif.Debug.C166_profiles",
    "Verif.Debug.C166_complete",
    "Verif.Debug.C166_listed",
    "Verif.Debug.C166_normed_wrong",
    "Verif.Debug.C166_polytrope_wrong",
    "Verif.Debug.C166_houghs_partial",
    "Verif.Debug.C166_printed"
   ],
   "note": "C166_normed_wrong: '_add_debug_attribute(x, normed=True)' reads the attribute x, not x_normed, so for MESA and polytrope models the records called normed repeat the un-normalised ones; C166_polytrope_wrong: polytropes are recorded under _p_profile and _rho_profile while the enumeration lists P and rho, which stay None. Complex arrays are not modelled."
  },
  {
   "property": "C167",
   "status": "partial",
   "theorems": [
    "Verif.Load.C167_read_partial",
    "Verif.Load.C167_pairs_partial",
    "Verif.Load.C167_names",
    "Verif.Load.C167_unknown_wrong",
    "Verif.Load.C167_hash_wrong",
    "Verif.Load.C167_shift_wrong",
    "Verif.Load.C167_blank_in_tuple_wrong",
    "Verif.Load.C167_indent_wrong",
    "Verif.Load.C167_given_dictionary_wrong"
   ],
   "note": "refuted in part: C167_shift_wrong, C167_hash_wrong, C167_unknown_wrong, C167_blank_in_tuple_wrong, C167_indent_wrong, C167_given_dictionary_wrong"
  },
  {
   "property": "C168",
   "status": "partial",
   "theorems": [
    "Verif.Hist.C168_bars_partial",
    "Verif.Hist.C168_agree",
    "Verif.Hist.C168_total",
    "Verif.Hist.C168_none",
    "Verif.Hist.C168_outside_wrong",
    "Verif.Hist.C168_default_wrong"
   ],
   "note": "refuted in part: C168_default_wrong, C168_outside_wrong"
  },
  {
   "property": "C169",
   "status": "partial",
   "theorems": [
    "Verif.Store.C169_default_partial",
    "Verif.Store.C169_interrupted_partial",
    "Verif.Store.C169_update_partial",
    "Verif.Store.C169_update_same_partial",
    "Verif.Store.C169_one_triad_wrong",
    "Verif.Store.C169_stale_wrong",
    "Verif.Store.C169_append_wrong",
    "Verif.Store.C169_no_file"
   ],
   "note": "Proved for the default mode (the only one the runner uses): the file is the one saved at a new path, and a save that stops early holds only data of the new run (the earlier results are lost). Read-and-write mode: proved when the run has at least two triads or as many as before, and is not a polytrope over a stellar model; refuted for one triad over several (every data set holds as many copies of the row as there were triads before) and for a polytrope over a stellar model (results that only stellar models have stay). Append mode: refuted, exactly: data sets already there are kept without a message while the attributes become those of the new run; the file is right if and only if the earlier file's data sets are those of the run. h5py's buffering and damage of a file by a crash are not modelled."
  },
  {
   "property": "C170",
   "status": "proved",
   "theorems": [
    "Verif.Stab.C170_ratio",
    "Verif.Stab.C170_meaning"
   ],
   "note": "Proved on real numbers; an original coefficient equal to zero (infinite ratio in numpy) and a ratio equal to zero (corrected condition decided by lower powers) are outside the statements."
  },
  {
   "property": "C171",
   "status": "partial",
   "theorems": [
    "Verif.Hough.C171_grid",
    "Verif.Hough.C171_stored_partial",
    "Verif.Hough.C171_azimuthal_wrong",
    "Verif.Hough.C171_second_wrong",
    "Verif.Hough.C171_kernels_wrong"
   ],
   "note": "Proved for ten of the fourteen names (C171_stored_partial), the common grid and the frame (C171_grid). False for the two derivatives of the azimuthal function, stored with the opposite sign under the definition lee_saio_equivalent that the coupling coefficients pass (C171_azimuthal_wrong, exact condition), and for the two second derivatives, negated in the southern half (C171_second_wrong). C171_kernels_wrong: a product of one array per mode has a factor -1 for every derivative of an azimuthal function in it."
  },
  {
   "property": "C172",
   "status": "partial",
   "theorems": [
    "Verif.Hough.C172_exact",
    "Verif.Hough.C172_order_exact",
    "Verif.Hough.C172_axisymmetric_partial",
    "Verif.Hough.C172_rotating_wrong",
    "Verif.Hough.C172_order_wrong"
   ],
   "note": "C172_exact: the arrays are those of such a displacement exactly when the colatitude derivative of the azimuthal function vanishes at all latitudes (its stored array has the opposite sign) and the mode is axisymmetric, or its radial function, or both horizontal functions vanish at all latitudes. C172_order_exact is the same for displacements with arbitrary profiles, without the first condition; C172_order_wrong is the refutation for every other mode. Proved for axisymmetric modes without rotation (C172_axisymmetric_partial); with rotation the displacement found for an axisymmetric mode has one profile with the wrong sign (C172_rotating_wrong)."
  },
  {
   "property": "C173",
   "status": "partial",
   "theorems": [
    "Verif.Coupling.C173_complex_wrong",
    "Verif.Coupling.C173_value",
    "Verif.Coupling.C173_real_parts_exact",
    "Verif.Coupling.C173_real_parts_partial",
    "Verif.Coupling.C173_norm_wrong",
    "Verif.Coupling.C173_phase_wrong",
    "Verif.Coupling.C173_energy_partial"
   ],
   "note": "Refuted for complex numbers requested: the integrator returns a float, which has no shape, so every radial integral and every mode energy raises (C173_complex_wrong). Otherwise the real part is taken of the product, not of the factors: C173_value; the radial factor is the one of the real parts exactly when an integral of the imaginary parts vanishes (C173_real_parts_exact), in particular when at most one function is complex at each point (C173_real_parts_partial); the norm is the one of the real parts only for functions real at every grid point (C173_norm_wrong); multiplying a mode by i negates its norm and its energy (C173_phase_wrong). Proved for real functions, as those of adiabatic modes (C173_energy_partial)."
  },
  {
   "property": "C174",
   "status": "proved",
   "theorems": [
    "Verif.Opts.C174_full_path",
    "Verif.Opts.C174_named",
    "Verif.Opts.C174_refused"
   ],
   "note": "Absolute paths; file names with one dot for the name and suffix (C61 has the general case)."
  }
 ]
}