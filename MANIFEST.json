{
 "claims": [
  {
   "property": "C01",
   "status": "proved",
   "theorems": [
    "Verif.Props.c01_accepted",
    "Verif.Props.c01_rejected",
    "Verif.Props.c01_pointCount_unique",
    "Verif.Props.c02_iterable"
   ],
   "note": "Characterises success and failure of check_length_dict for every dictionary, key list and requested length."
  },
  {
   "property": "C02",
   "status": "proved",
   "theorems": [
    "Verif.Props.c02_user_value_kept",
    "Verif.Props.c02_missing_filled",
    "Verif.Props.c02_missing_filled_scalar",
    "Verif.Props.c02_rejected",
    "Verif.Props.c02_missing_filled_key",
    "Verif.Props.c02_iterable"
   ],
   "note": ""
  },
  {
   "property": "C03",
   "status": "partial",
   "theorems": [
    "Verif.Props.c03_rows_are_pairs",
    "Verif.Props.c03_guess_given_partial",
    "Verif.Props.c03_no_guess_partial",
    "Verif.Props.c03_no_guess_no_bounds",
    "Verif.Props.c03_violated_no_guess",
    "Verif.Props.c03_violated_none_endpoint",
    "Verif.Props.c03_violated_no_bounds",
    "Verif.Props.c03_violated_no_branch",
    "Verif.Props.c03_violated_tuple_of_pairs",
    "Verif.Props.c03_root_finders",
    "Verif.Props.c03_empty_bounds",
    "Verif.Props.c03_violated_none_row",
    "Verif.Props.c03_vector_guess"
   ],
   "note": "Holds with a guess and numeric bounds; fails for missing guess with minimisers, None end points, missing bounds, hybr_broyden1/2, and tuples of pairs (witnesses proved)."
  },
  {
   "property": "C04",
   "status": "proved",
   "theorems": [
    "Verif.Props.c04_pointwise",
    "Verif.Props.c04_step_pos",
    "Verif.Props.c04_exact_quadratic",
    "Verif.Props.c04_error_cubic",
    "Verif.Props.c04_symm_quotient_tendsto",
    "Verif.Props.c04_converges",
    "Verif.Props.c04_converges_relative"
   ],
   "note": ""
  },
  {
   "property": "C05",
   "status": "partial",
   "theorems": [
    "Verif.Props.c05_columns",
    "Verif.Props.c05_pool_order",
    "Verif.Props.c05_pool_raises_iff",
    "Verif.Props.c05_zip_rect",
    "Verif.Props.c05_pool_eq_serial_partial",
    "Verif.Props.c05_violated_all_vectors",
    "Verif.Props.c05_violated_exception_order",
    "Verif.Props.c05_cores",
    "Verif.Props.c05_violated_ragged"
   ],
   "note": "Holds for rectangular results in which not all quantities are arrays of one length; the remaining case is violated by np.transpose of a 3-D array. No shipped calculation returns only arrays."
  },
  {
   "property": "C06",
   "status": "partial",
   "theorems": [
    "Verif.Props.c06_collect_step",
    "Verif.Props.c06_collect",
    "Verif.Props.c06_groups",
    "Verif.Props.c06_row_get",
    "Verif.Props.c06_matrix",
    "Verif.Props.c06_last_eq_sum",
    "Verif.Props.c06_faithful_partial",
    "Verif.Props.c06_violated_repeated_group"
   ],
   "note": "Violated when a molecule lists a group twice: the last count wins."
  },
  {
   "property": "C07",
   "status": "proved",
   "theorems": [
    "Verif.Props.c07_calcKey_iff",
    "Verif.Props.c07_calculation",
    "Verif.Props.c07_equation_of_state",
    "Verif.Props.c07_eos_and_output",
    "Verif.Props.c07_base",
    "Verif.Props.c07_no_molecules",
    "Verif.Props.c07_eos_last"
   ],
   "note": "Complete description of both dictionaries; `eos` and `eos_eos` write to the same place: the later one in the file is used (c07_eos_last)."
  },
  {
   "property": "C08",
   "status": "partial",
   "theorems": [
    "Verif.Props.c08_outcome",
    "Verif.Props.c08_mem_triples",
    "Verif.Props.c08_set_sym",
    "Verif.Props.c08_storeAll_sym",
    "Verif.Props.c08_set_self",
    "Verif.Props.c08_pairStep_sym",
    "Verif.Props.c08_loop_sym",
    "Verif.Props.c08_symmetric_diagonal",
    "Verif.Props.c08_pairStep_value",
    "Verif.Props.c08_loop_value",
    "Verif.Props.c08_entries_partial",
    "Verif.Props.c08_explicit",
    "Verif.Props.c08_violated_multi_output",
    "Verif.Props.c08_raises"
   ],
   "note": "Symmetry and diagonal hold for every rule; entries are characterised for rules with a single output. A rule with several outputs overwrites an explicitly given cross value (witness proved)."
  },
  {
   "property": "C09",
   "status": "partial",
   "theorems": [
    "Verif.Props.c09_symmetric",
    "Verif.Props.c09_sqrt_mul_self_pow",
    "Verif.Props.c09_idempotent",
    "Verif.Props.c09_between",
    "Verif.Props.c09_volumetric_le_geometric",
    "Verif.Props.c09_violated_small_exponent"
   ],
   "note": "Holds for all rules except that the Mie exponent rule is not idempotent for exponents below three."
  },
  {
   "property": "C10",
   "status": "proved",
   "theorems": [
    "Verif.Props.c10_row",
    "Verif.Props.c10_sum",
    "Verif.Props.c10_additive",
    "Verif.Props.c10_order",
    "Verif.Props.c10_missing"
   ],
   "note": ""
  },
  {
   "property": "C11",
   "status": "proved",
   "theorems": [
    "Verif.Props.c11_within",
    "Verif.Props.c11_rejected_iff",
    "Verif.Props.c11_nan_kept",
    "Verif.Props.c11_takeWhile_stop",
    "Verif.Props.c11_takeWhile_all",
    "Verif.Props.c11_saft_type",
    "Verif.Props.c11_tables",
    "Verif.Props.c11_widest"
   ],
   "note": "NaN bounds are passed through; stated separately."
  },
  {
   "property": "C12",
   "status": "partial",
   "theorems": [
    "Verif.Props.c12_saft_update",
    "Verif.Props.c12_read_back_self",
    "Verif.Props.c12_read_back_pair_partial",
    "Verif.Props.c12_self",
    "Verif.Props.c12_entry_set",
    "Verif.Props.c12_setCross_entry",
    "Verif.Props.c12_oriented",
    "Verif.Props.c12_cross_partial",
    "Verif.Props.c12_lookup_pair",
    "Verif.Props.c12_update",
    "Verif.Props.c12_history_partial",
    "Verif.Props.c12_violated_both_orders",
    "Verif.Props.c12_violated_no_fallthrough"
   ],
   "note": "Holds for every library that lists no pair in both orders; with both orders an accepted update is lost (witness proved)."
  },
  {
   "property": "C13",
   "status": "partial",
   "theorems": [
    "Verif.Props.c13_kapE_set",
    "Verif.Props.c13_refresh_ok",
    "Verif.Props.c13_refresh_inv",
    "Verif.Props.c13_run_inv",
    "Verif.Props.c13_run_append",
    "Verif.Props.c13_contains_congr",
    "Verif.Props.c13_fresh_partial",
    "Verif.Props.c13_violated_omega",
    "Verif.Props.c13_violated_values",
    "Verif.Props.c13_violated_missing_tc",
    "Verif.Props.c13_refused"
   ],
   "note": "Holds for all histories that do not update the acentric factor after kappa has been derived from it; violated there."
  },
  {
   "property": "C14",
   "status": "proved",
   "theorems": [
    "Verif.Props.c14_den_pos",
    "Verif.Props.c14_denominators",
    "Verif.Props.c14_densityMax",
    "Verif.Props.c14_ideal_limit",
    "Verif.Props.c14_cubic",
    "Verif.Props.c14_mixture_cubic"
   ],
   "note": ""
  },
  {
   "property": "C15",
   "status": "proved",
   "theorems": [
    "Verif.Props.c15_sqrt2_sq",
    "Verif.Props.c15_sqrt2_bounds",
    "Verif.Props.c15_log_den_pos",
    "Verif.Props.c15_lnPhi_closed",
    "Verif.Props.c15_bmix_add",
    "Verif.Props.c15_sum_add",
    "Verif.Props.c15_amix_add",
    "Verif.Props.c15_scalar_deriv",
    "Verif.Props.c15_fugacity_helmholtz",
    "Verif.Props.c15_pressure_helmholtz",
    "Verif.Props.c15_pure_lnPhi",
    "Verif.Props.c15_areaPrim_deriv",
    "Verif.Props.c15_areaPrim_eq",
    "Verif.Props.c15_equal_area",
    "Verif.Props.c15_ideal_limit"
   ],
   "note": "Mixture parameter a must be non-zero (the code divides by it) and the pressure positive (the code takes the logarithm of Z)."
  },
  {
   "property": "C16",
   "status": "proved",
   "theorems": [
    "Verif.Props.c16_lumping",
    "Verif.Props.c16_permutation",
    "Verif.Props.c16_split_pure",
    "Verif.Props.c16_fugacity"
   ],
   "note": ""
  },
  {
   "property": "C17",
   "status": "proved",
   "theorems": [
    "Verif.Props.c17_xsk_nonneg",
    "Verif.Props.c17_xsk_sum_one",
    "Verif.Props.c17_xsk_le_one",
    "Verif.Props.c17_xskl",
    "Verif.Props.c17_sqrt_diag",
    "Verif.Props.c17_cmol2seg_linear",
    "Verif.Props.c17_xsk_scale",
    "Verif.Props.c17_xsk_count"
   ],
   "note": ""
  },
  {
   "property": "C18",
   "status": "proved",
   "theorems": [
    "Verif.Props.c18_zetax_linear",
    "Verif.Props.c18_at_density_max",
    "Verif.Props.c18_lt_iff",
    "Verif.Props.c18_packing_lt_one",
    "Verif.Props.c18_pos"
   ],
   "note": ""
  },
  {
   "property": "C19",
   "status": "partial",
   "theorems": [
    "Verif.Props.c19_dKHS",
    "Verif.Props.c19_da1s",
    "Verif.Props.c19_dB",
    "Verif.Props.c19_da1ii",
    "Verif.Props.c19_da2",
    "Verif.Props.c19_derivatives_partial",
    "Verif.Props.c19_violated_pole"
   ],
   "note": "Holds at every density below close packing for repulsive exponents up to 35.5, and for all exponents wherever the effective packing fractions are not one. Violated (proved): for an exponent from 72 on, the double of a repulsive exponent from 36 on, the first-order term has a pole below close packing."
  },
  {
   "property": "C20",
   "status": "proved",
   "theorems": [
    "Verif.Props.c20_pos",
    "Verif.Props.c20_strictAnti",
    "Verif.Props.c20_zero",
    "Verif.Props.c20_le_one"
   ],
   "note": ""
  },
  {
   "property": "C21",
   "status": "proved",
   "theorems": [
    "Verif.Props.c21_coef_nonneg",
    "Verif.Props.c21_iter_phys",
    "Verif.Props.c21_phys",
    "Verif.Props.c21_length",
    "Verif.Props.c21_aassoc_nonpos",
    "Verif.Props.c21_mayer_nonneg"
   ],
   "note": "Association energies must be non-negative; C63 shows what happens otherwise."
  },
  {
   "property": "C22",
   "status": "partial",
   "theorems": [
    "Verif.Props.c22_violated",
    "Verif.Props.c22_partial"
   ],
   "note": "The iteration for one density starts from the result at the previous density and runs at most 500 steps, so results depend on the other densities (witness proved). The first density of the array is always independent of the rest."
  },
  {
   "property": "C23",
   "status": "proved",
   "theorems": [
    "Verif.Props.c23_mem",
    "Verif.Props.c23_sorted",
    "Verif.Props.c23_nodup",
    "Verif.Props.c23_flag"
   ],
   "note": ""
  },
  {
   "property": "C24",
   "status": "proved",
   "theorems": [
    "Verif.Props.c24_matrix",
    "Verif.Props.c24_rejected_iff",
    "Verif.Props.c24_rectangular",
    "Verif.Props.c24_order"
   ],
   "note": ""
  },
  {
   "property": "C25",
   "status": "proved",
   "theorems": [
    "Verif.Props.c25_symmetric"
   ],
   "note": ""
  },
  {
   "property": "C26",
   "status": "partial",
   "theorems": [
    "Verif.Props.c26_partial",
    "Verif.Props.c26_custom_partial",
    "Verif.Props.c26_same_temperature_partial",
    "Verif.Props.c26_stale",
    "Verif.Props.c26_stale_298",
    "Verif.Props.c26_violated",
    "Verif.Props.c26_violated_298"
   ],
   "note": "After a parameter update the temperature-dependent diameters keep their old values when the temperature did not change, or when the first temperature is 298 K (witnesses proved). Holds whenever the temperature differs from the stored one."
  },
  {
   "property": "C27",
   "status": "proved",
   "theorems": [
    "Verif.Props.c27_refresh",
    "Verif.Props.c27_custom",
    "Verif.Props.c27_library"
   ],
   "note": ""
  },
  {
   "property": "C28",
   "status": "partial",
   "theorems": [
    "Verif.Props.c28_partial",
    "Verif.Props.c28_energies",
    "Verif.Props.c28_stale",
    "Verif.Props.c28_never_active",
    "Verif.Props.c28_violated_volume",
    "Verif.Props.c28_violated_switched_on"
   ],
   "note": "Energies follow the library; bonding volumes and the flag that switches association on are computed once and stay stale after an update (witnesses proved)."
  },
  {
   "property": "C29",
   "status": "partial",
   "theorems": [
    "Verif.Props.c29_vec_unchanged",
    "Verif.Props.c29_vec_rejected",
    "Verif.Props.c29_scalar_unchanged",
    "Verif.Props.c29_scalar_rejected",
    "Verif.Props.c29_accepted_valid",
    "Verif.Props.c29_one_row_partial",
    "Verif.Props.c29_violated_rows",
    "Verif.Props.c29_violated_nan_accepted",
    "Verif.Props.c29_violated_exceptions"
   ],
   "note": "Holds for scalars and one-dimensional arrays; two-dimensional arrays lose all rows but the first, so invalid values in later rows are accepted (witnesses proved)."
  },
  {
   "property": "C30",
   "status": "proved",
   "theorems": [
    "Verif.Props.c30_entry",
    "Verif.Props.c30_rejected_iff",
    "Verif.Props.c30_nonneg",
    "Verif.Props.c30_equal",
    "Verif.Props.c30_objective",
    "Verif.Props.c30_roundtrip"
   ],
   "note": "Over exact arithmetic; see C69 for the rounding of the sum test."
  },
  {
   "property": "C31",
   "status": "proved",
   "theorems": [
    "Verif.Props.c31_balance",
    "Verif.Props.c31_total",
    "Verif.Props.c31_binary"
   ],
   "note": "For whatever the fugacity routines give; c31_total shows that results exist. K-values that are not finite are not followed by the model."
  },
  {
   "property": "C32",
   "status": "partial",
   "theorems": [
    "Verif.Props.c32_sound",
    "Verif.Props.c32_feasible_above",
    "Verif.Props.c32_feasible_below",
    "Verif.Props.c32_default",
    "Verif.Props.c32_violated_equal",
    "Verif.Props.c32_violated_unit"
   ],
   "note": "Different K-values that come out are always admissible, feasible limits are always met and without limits there is never a failure. Equal or NaN K-values stop with an undefined variable, and a first K-value of exactly one with an upper limit below one returns a pair of ones (both proved)."
  },
  {
   "property": "C33",
   "status": "partial",
   "theorems": [
    "Verif.Props.c33_vapor_flag",
    "Verif.Props.c33_liquid_flag",
    "Verif.Props.c33_vapor_undefined_iff",
    "Verif.Props.c33_liquid_undefined_iff",
    "Verif.Props.c33_three_roots",
    "Verif.Props.c33_one_root",
    "Verif.Props.c33_two_roots",
    "Verif.Props.c33_refined",
    "Verif.Props.c33_refined_iff",
    "Verif.Props.c33_violated_no_vapor_without_root",
    "Verif.Props.c33_violated_liquid_without_root",
    "Verif.Props.c33_violated_undefined"
   ],
   "note": "A returned flag always matches the presence of a density. The flag stays undefined exactly for one root with one extremum not below it; without a root the extrapolated vapour is never reached and an isotherm above the pressure is reported as a liquid (witnesses proved)."
  },
  {
   "property": "C34",
   "status": "partial",
   "theorems": [
    "Verif.Props.c34_ideal",
    "Verif.Props.c34_evaluated",
    "Verif.Props.c34_failed_partial",
    "Verif.Props.c34_violated_length",
    "Verif.Props.c34_violated_liquid_ideal"
   ],
   "note": "The failed phase always gives two coefficients; the liquid routine evaluates an ideal gas at a NaN density (both proved)."
  },
  {
   "property": "C35",
   "status": "partial",
   "theorems": [
    "Verif.Props.c35_isolated",
    "Verif.Props.c35_parallel",
    "Verif.Props.c35_flash",
    "Verif.Props.c35_saturation",
    "Verif.Props.c35_properties",
    "Verif.Props.c35_solubility",
    "Verif.Props.c35_violated_verify",
    "Verif.Props.c35_verify_partial",
    "Verif.Props.c35_verify_order",
    "Verif.Props.c35_bubble_dew",
    "Verif.Props.c35_violated_pure"
   ],
   "note": "Isolation is proved for the stateless jobs and the shape of failed rows for all. A failed point of the equation-of-state verification keeps its index but the row does not mark it, and a pure point above its critical temperature is reported with valid flags (both proved). Bubble and dew points depend on earlier ones, see C36 and C38."
  },
  {
   "property": "C36",
   "status": "partial",
   "theorems": [
    "Verif.Props.c36_violated_forgotten",
    "Verif.Props.c36_violated_method",
    "Verif.Props.c36_direct_partial",
    "Verif.Props.c36_pool_partial",
    "Verif.Props.c36_violated_tol",
    "Verif.Props.c36_tol_partial",
    "Verif.Props.c36_pool_chunks"
   ],
   "note": "A method inside the pressure options is used for the first mixture of a batch (or of each pool chunk) only, and the tolerance is overwritten by the first success (proved). A method given directly is used for every point."
  },
  {
   "property": "C37",
   "status": "partial",
   "theorems": [
    "Verif.Props.c37_mode_table",
    "Verif.Props.c37_mode_of_call",
    "Verif.Props.c37_rejects",
    "Verif.Props.c37_violated_guess",
    "Verif.Props.c37_guess_partial",
    "Verif.Props.c37_violated_points"
   ],
   "note": "The mode table is proved; a supplied pressure is not used as the guess in the modes that need it (proved)."
  },
  {
   "property": "C38",
   "status": "partial",
   "theorems": [
    "Verif.Props.c38_partial",
    "Verif.Props.c38_violated",
    "Verif.Props.c38_violated_components"
   ],
   "note": "The starting composition is a module variable left by the previous calculation (witnesses proved). Pressure, solved composition and objective are history-free when the inner loop and range search do not depend on their guess."
  },
  {
   "property": "C39",
   "status": "partial",
   "theorems": [
    "Verif.Props.c39_never_nan_partial",
    "Verif.Props.c39_nan_parameter",
    "Verif.Props.c39_raise",
    "Verif.Props.c39_total",
    "Verif.Props.c39_violated",
    "Verif.Props.c39_too_few",
    "Verif.Props.c39_few_bounds"
   ],
   "note": "Holds unless a data set returns minus infinity; then another infinite one makes the sum NaN (witness proved)."
  },
  {
   "property": "C40",
   "status": "proved",
   "theorems": [
    "Verif.Props.c40_zero_iff",
    "Verif.Props.c40_nonneg",
    "Verif.Props.c40_grows",
    "Verif.Props.c40_total",
    "Verif.Props.c40_inside_outside"
   ],
   "note": "For numbers and finite bounds, lower bound not above the upper one."
  },
  {
   "property": "C41",
   "status": "partial",
   "theorems": [
    "Verif.Props.c41_one_weight",
    "Verif.Props.c41_missing",
    "Verif.Props.c41_missing_penalty",
    "Verif.Props.c41_nothing",
    "Verif.Props.c41_value",
    "Verif.Props.c41_nonneg_zero",
    "Verif.Props.c41_violated_boltz",
    "Verif.Props.c41_violated_negative",
    "Verif.Props.c41_boltz_partial",
    "Verif.Props.c41_violated_zero_reference",
    "Verif.Props.c41_unknown",
    "Verif.Props.c41_violated_unknown",
    "Verif.Props.c41_lengths",
    "Verif.Props.c41_violated_short",
    "Verif.Props.c41_violated_boltz_nothing",
    "Verif.Props.c41_violated_boltz_infinite"
   ],
   "note": "Proved for the three plain measures with non-zero references. Both Boltzmann-weighted measures give NaN for a perfect match, one is negative, a reference of zero counts as missing, and an unknown measure is not rejected without comparable points. The Boltzmann-weighted measures also raise when nothing can be compared and give NaN for a prediction that diverges, and a list with one weight raises IndexError (all proved)."
  },
  {
   "property": "C42",
   "status": "partial",
   "theorems": [
    "Verif.Props.c42_violated",
    "Verif.Props.c42_violated_witness",
    "Verif.Props.c42_partial"
   ],
   "note": "A perfect fit gets an infinite objective, proved for every data set of every class. Imperfect parts add up."
  },
  {
   "property": "C43",
   "status": "partial",
   "theorems": [
    "Verif.Props.c43_one_bound_each",
    "Verif.Props.c43_right_bounds",
    "Verif.Props.c43_settings_partial",
    "Verif.Props.c43_required",
    "Verif.Props.c43_checked_bounds",
    "Verif.Props.c43_violated_setting",
    "Verif.Props.c43_violated_duplicate",
    "Verif.Props.c43_tag_inside"
   ],
   "note": "Bounds are attached to the right parameter for keys of the documented form and distinct names. A setting whose name merely contains 'bounds' is lost, and of a parameter listed twice only the first gets the bounds (proved)."
  },
  {
   "property": "C44",
   "status": "partial",
   "theorems": [
    "Verif.Props.c44_violated_class",
    "Verif.Props.c44_violated_dict",
    "Verif.Props.c44_rejects_partial",
    "Verif.Props.c44_errors_partial",
    "Verif.Props.c44_violated_names"
   ],
   "note": "Both type checks are inverted: no constraint is ever accepted as class, and as dictionary exactly the undocumented types are accepted (proved). Other malformed constraints are rejected."
  },
  {
   "property": "C45",
   "status": "partial",
   "theorems": [
    "Verif.Props.c45_first_best",
    "Verif.Props.c45_failure_never_wins",
    "Verif.Props.c45_failed_start",
    "Verif.Props.c45_result",
    "Verif.Props.c45_split_result",
    "Verif.Props.c45_frozen_objective",
    "Verif.Props.c45_violated_nan",
    "Verif.Props.c45_violated_one_parameter",
    "Verif.Props.c45_violated_split_one"
   ],
   "note": "Holds for two or more parameters and no NaN objective. A NaN in first place wins, one failing start ends a search over one parameter, and freezing exactly one dimension never works (all proved)."
  },
  {
   "property": "C46",
   "status": "partial",
   "theorems": [
    "Verif.Props.c46_accept_iff",
    "Verif.Props.c46_nonneg_partial",
    "Verif.Props.c46_step_size",
    "Verif.Props.c46_violated_negative"
   ],
   "note": "Acceptance proved exactly. A step is non-negative if any try was; otherwise a negative one is proposed (proved)."
  },
  {
   "property": "C47",
   "status": "partial",
   "theorems": [
    "Verif.Props.c47_new_file_partial",
    "Verif.Props.c47_records",
    "Verif.Props.c47_recorded_iff",
    "Verif.Props.c47_no_cut",
    "Verif.Props.c47_violated_all_exist",
    "Verif.Props.c47_violated_directory",
    "Verif.Props.c47_violated_numbers",
    "Verif.Props.c47_violated_convergence"
   ],
   "note": "Exactly the wanted results are recorded, in order. The 21st file is an existing one, the number is put before the directory, numbers have gaps, and differential evolution compares the convergence with the objective cut-off (all proved)."
  },
  {
   "property": "C48",
   "status": "partial",
   "theorems": [
    "Verif.Props.c48_thermo_iff",
    "Verif.Props.c48_thermo_errors",
    "Verif.Props.c48_flags_partial",
    "Verif.Props.c48_command_line",
    "Verif.Props.c48_method_stat",
    "Verif.Props.c48_verbosity_partial",
    "Verif.Props.c48_violated_lookup",
    "Verif.Props.c48_violated_numba",
    "Verif.Props.c48_violated_numba_alone",
    "Verif.Props.c48_violated_verbosity",
    "Verif.Props.c48_nine",
    "Verif.Props.c48_other_names"
   ],
   "note": "Calculations are dispatched as documented except for names of imported modules. The --numba flag turns Numba off, alone it makes every run fail, and one -v gives fewer messages than none (all proved)."
  },
  {
   "property": "C49",
   "status": "proved",
   "theorems": [
    "Verif.Props.c49_loop",
    "Verif.Props.c49_aligned",
    "Verif.Props.c49_unchanged",
    "Verif.Props.c49_kept_iff",
    "Verif.Props.c49_idempotent"
   ],
   "note": ""
  },
  {
   "property": "C50",
   "status": "partial",
   "theorems": [
    "Verif.Props.c50_fillBead_ok",
    "Verif.Props.c50_fillBead_err",
    "Verif.Props.c50_fillBead_kind",
    "Verif.Props.c50_fillLib",
    "Verif.Props.c50_filled",
    "Verif.Props.c50_rejected_iff",
    "Verif.Props.c50_violated_caller_modified",
    "Verif.Props.c50_violated_witness"
   ],
   "note": "Filling and rejection are characterised completely; the caller's library is modified in place, which violates the last clause."
  },
  {
   "property": "C51",
   "status": "partial",
   "theorems": [
    "Verif.Props.c51_violated",
    "Verif.Props.c51_two_unknowns_partial"
   ],
   "note": "Violated: bounds reach TNC/L-BFGS-B/SLSQP only for exactly two unknowns."
  },
  {
   "property": "C52",
   "status": "partial",
   "theorems": [
    "Verif.Props.c52_fill_get",
    "Verif.Props.c52_own_settings_kept",
    "Verif.Props.c52_fold",
    "Verif.Props.c52_split",
    "Verif.Props.c52_violated_no_data"
   ],
   "note": "The check for a missing data set never fires."
  },
  {
   "property": "C53",
   "status": "partial",
   "theorems": [
    "Verif.Props.c53_violated",
    "Verif.Props.c53_unknown_mode_partial"
   ],
   "note": "Violated: a given temperature is ignored."
  },
  {
   "property": "C54",
   "status": "proved",
   "theorems": [
    "Verif.Props.c54_extract",
    "Verif.Props.c54_unknown_group"
   ],
   "note": ""
  },
  {
   "property": "C55",
   "status": "partial",
   "theorems": [
    "Verif.Props.c55_refused",
    "Verif.Props.c55_stored",
    "Verif.Props.c55_guess_partial",
    "Verif.Props.c55_violated"
   ],
   "note": "Violated: the guess is computed from np.empty(2)."
  },
  {
   "property": "C56",
   "status": "partial",
   "theorems": [
    "Verif.Props.c56_sw_split",
    "Verif.Props.c56_mie_split_difference",
    "Verif.Props.c56_mie_split_partial",
    "Verif.Props.c56_violated_mie_split"
   ],
   "note": "Holds for the square-well variant; the Mie variant drops a term whenever there is one component, so a chain of unlike groups changes energy when it is listed twice (witness proved)."
  },
  {
   "property": "C57",
   "status": "partial",
   "theorems": [
    "Verif.Props.c57_violated_sw_density_max",
    "Verif.Props.c57_sw_ratio",
    "Verif.Props.c57_sw_equal_diameters_partial",
    "Verif.Props.c57_sw_overpacked",
    "Verif.Props.c57_violated_packing_above_one"
   ],
   "note": "Holds when all groups have the same diameter; otherwise the maximum density uses a different packing fraction from the energy, and densities below it can be packed beyond one (witness proved)."
  },
  {
   "property": "C58",
   "status": "proved",
   "theorems": [
    "Verif.Props.c58_prefactor_pos",
    "Verif.Props.c58_well_depth",
    "Verif.Props.c58_well_reached",
    "Verif.Props.c58_prefactor_error"
   ],
   "note": ""
  },
  {
   "property": "C59",
   "status": "proved",
   "theorems": [
    "Verif.Props.c59_dzetaEff",
    "Verif.Props.c59_dzetaDlam",
    "Verif.Props.c59_dg0HS",
    "Verif.Props.c59_afirst",
    "Verif.Props.c59_asecond",
    "Verif.Props.c59_asecond_accepted"
   ],
   "note": ""
  },
  {
   "property": "C60",
   "status": "proved",
   "theorems": [
    "Verif.Props.c60_tables",
    "Verif.Props.c60_gauss_exact",
    "Verif.Props.c60_diameter_pos",
    "Verif.Props.c60_diameter_lt_sigma",
    "Verif.Props.c60_diameter_anti_T",
    "Verif.Props.c60_diameter_mono_eps",
    "Verif.Props.c60_diameter_scale",
    "Verif.Props.c60_lennard_jones"
   ],
   "note": ""
  },
  {
   "property": "C61",
   "status": "partial",
   "theorems": [
    "Verif.Props.c61_mie",
    "Verif.Props.c61_sw_partial",
    "Verif.Props.c61_violated_sw"
   ],
   "note": "Holds for the Mie variant; the square-well variant averages whole matrix rows, so a third component changes the value (witness proved)."
  },
  {
   "property": "C62",
   "status": "partial",
   "theorems": [
    "Verif.Props.c62_unique",
    "Verif.Props.c62_rate",
    "Verif.Props.c62_accuracy",
    "Verif.Props.c62_exists",
    "Verif.Props.c62_reported",
    "Verif.Props.c62_violated",
    "Verif.Props.c62_converges",
    "Verif.Props.c62_weak",
    "Verif.Props.c62_bonded_step",
    "Verif.Props.c62_bonded_converges",
    "Verif.Props.c62_bonded_accuracy",
    "Verif.Props.c62_bonded"
   ],
   "note": "Existence, uniqueness, geometric rate and an error bound are proved; 500 steps are proved to suffice for up to four kinds of sites of which at most 14 in 15 are bonded, and for up to ten with strengths that add up to at most 14 each; the code stops after 500 steps and drops the reported error, so a value 1.9 times the solution is returned for a strong bond (witness proved)."
  },
  {
   "property": "C63",
   "status": "partial",
   "theorems": [
    "Verif.Props.c63_violated",
    "Verif.Props.c63_mayer_neg",
    "Verif.Props.c63_none_partial",
    "Verif.Props.c63_self_energy"
   ],
   "note": "A site declared to interact with itself gets energy -|eps|, hence a negative strength and a fraction above one (witness proved). Holds when no site interacts with itself."
  },
  {
   "property": "C64",
   "status": "partial",
   "theorems": [
    "Verif.Props.c64_pos",
    "Verif.Props.c64_contact",
    "Verif.Props.c64_violated_out_of_reach",
    "Verif.Props.c64_default",
    "Verif.Props.c64_no_cutoff",
    "Verif.Props.c64_scale"
   ],
   "note": "Positive when the sites reach each other, zero at contact, cubic scaling; negative instead of zero when the sites cannot reach each other (witness proved)."
  },
  {
   "property": "C65",
   "status": "partial",
   "theorems": [
    "Verif.Props.c65_violated_lost",
    "Verif.Props.c65_violated_spurious",
    "Verif.Props.c65_violated_cross_only",
    "Verif.Props.c65_partial"
   ],
   "note": "A local variable holding the looked-up names is overwritten inside the loop: entries are lost or used for another pair depending on the order of the groups (witnesses proved). Holds when no earlier group carries the second site."
  },
  {
   "property": "C66",
   "status": "partial",
   "theorems": [
    "Verif.Props.c66_violated",
    "Verif.Props.c66_violated_raises",
    "Verif.Props.c66_partial",
    "Verif.Props.c66_violated_mie",
    "Verif.Props.c66_same",
    "Verif.Props.c66_violated_command_line",
    "Verif.Props.c66_violated_absent",
    "Verif.Props.c66_import"
   ],
   "note": "The cython flag is tested inverted, so cython is never used (witness proved)."
  },
  {
   "property": "C67",
   "status": "partial",
   "theorems": [
    "Verif.Props.c67_violated",
    "Verif.Props.c67_violated_how"
   ],
   "note": "Leaving the optional arguments out always raises; proved for every library."
  },
  {
   "property": "C68",
   "status": "partial",
   "theorems": [
    "Verif.Props.c68_converged_partial",
    "Verif.Props.c68_relative_change",
    "Verif.Props.c68_violated"
   ],
   "note": "Holds when the loop is left by its convergence test; a restart in the last iteration reports zero error because the previous K-values are the same array (witness proved)."
  },
  {
   "property": "C70",
   "status": "partial",
   "theorems": [
    "Verif.Props.c70_violated",
    "Verif.Props.c70_violated_numbers"
   ],
   "note": "Both restarts assign the same K-values (proved for all arguments)."
  },
  {
   "property": "C71",
   "status": "partial",
   "theorems": [
    "Verif.Props.c71_flash",
    "Verif.Props.c71_properties",
    "Verif.Props.c71_flash_accepts",
    "Verif.Props.c71_violated_all_defaults",
    "Verif.Props.c71_violated_saturation",
    "Verif.Props.c71_solubility",
    "Verif.Props.c71_saturation",
    "Verif.Props.c71_verify_grid",
    "Verif.Props.c71_equilibrium",
    "Verif.Props.c71_equilibrium_required",
    "Verif.Props.c71_equilibrium_options",
    "Verif.Props.c71_uneven"
   ],
   "note": "Flash, phase properties, bubble and dew points: every point gets the supplied value or the documented default. Leaving everything out and the saturation calculation violate it (proved)."
  },
  {
   "property": "C72",
   "status": "partial",
   "theorems": [
    "Verif.Props.c72_bubble",
    "Verif.Props.c72_violated_dew",
    "Verif.Props.c72_violated_dew_fresh",
    "Verif.Props.c72_violated_dew_witness",
    "Verif.Props.c72_violated_flag"
   ],
   "note": "Holds for the bubble point's composition. The dew point returns its starting guess, and the flag of the sought phase belongs to the starting guess (proved for all inputs)."
  },
  {
   "property": "C73",
   "status": "partial",
   "theorems": [
    "Verif.Props.c73_violated",
    "Verif.Props.c73_violated_witness",
    "Verif.Props.c73_partial"
   ],
   "note": "A quantity whose predictions all fail counts as zero as long as another quantity is imperfect (proved). When all fail the objective is infinite."
  },
  {
   "property": "C74",
   "status": "partial",
   "theorems": [
    "Verif.Props.c74_density_options_partial",
    "Verif.Props.c74_violated_tlve"
   ],
   "note": "Holds for four classes; TLVE data always runs with no density options at all (proved for every input)."
  },
  {
   "property": "C75",
   "status": "partial",
   "theorems": [
    "Verif.Props.c75_method_used_partial",
    "Verif.Props.c75_violated_second_fit",
    "Verif.Props.c75_violated_shared_default",
    "Verif.Props.c75_kwargs_complete_partial",
    "Verif.Props.c75_violated_kwargs",
    "Verif.Props.c75_options"
   ],
   "note": "The first call is right. The method is deleted from the caller's dictionary, the shared default dictionary remembers the process pool, and keyword arguments stay in the caller's data sets (all proved)."
  },
  {
   "property": "C76",
   "status": "partial",
   "theorems": [
    "Verif.Props.c76_own_parameter",
    "Verif.Props.c76_cross_parameter",
    "Verif.Props.c76_guess",
    "Verif.Props.c76_update",
    "Verif.Props.c76_violated_underscore",
    "Verif.Props.c76_violated_half_update",
    "Verif.Props.c76_refresh"
   ],
   "note": "Guessing and updating address parameters by the same rules. Groups with an underscore in the name cannot be addressed, and a rejected list has already overwritten earlier parameters (proved)."
  },
  {
   "property": "C77",
   "status": "partial",
   "theorems": [
    "Verif.Props.c77_merge",
    "Verif.Props.c77_hopping",
    "Verif.Props.c77_defaults",
    "Verif.Props.c77_grid_method",
    "Verif.Props.c77_violated_grid",
    "Verif.Props.c77_violated_prune",
    "Verif.Props.c77_prune_accepted"
   ],
   "note": "Holds for basin hopping and shgo without constraints. In the grid minimisation every nested option raises, and in shgo with constraints an unsupported option raises instead of being dropped (proved)."
  },
  {
   "property": "C78",
   "status": "partial",
   "theorems": [
    "Verif.Props.c78_defaults_partial",
    "Verif.Props.c78_violated_temperature",
    "Verif.Props.c78_violated_key"
   ],
   "note": "The pressure default works, the temperature default is unreachable in three classes (proved for every input)."
  },
  {
   "property": "C79",
   "status": "partial",
   "theorems": [
    "Verif.Props.c79_table",
    "Verif.Props.c79_several_partial",
    "Verif.Props.c79_ragged",
    "Verif.Props.c79_nothing_partial",
    "Verif.Props.c79_violated_one",
    "Verif.Props.c79_uneven"
   ],
   "note": "Holds for two outputs or more of rectangular shape and at least one state, with the number of columns of each. A single output of compositions is tabulated the other way round, and the length returned for a single output is the number of states (proved); no class of data has a single output of compositions."
  },
  {
   "property": "C80",
   "status": "proved",
   "theorems": [
    "Verif.Props.c80_values_reach",
    "Verif.Props.c80_weights_follow",
    "Verif.Props.c80_saturation_weights"
   ],
   "note": "For entries given under one name; all five classes."
  },
  {
   "property": "C81",
   "status": "partial",
   "theorems": [
    "Verif.Props.c81_complete_partial",
    "Verif.Props.c81_violated_liquid",
    "Verif.Props.c81_violated_tlve",
    "Verif.Props.c81_violated_solubility",
    "Verif.Props.c81_results",
    "Verif.Props.c81_composition"
   ],
   "note": "Holds for flash and saturation data; the other three classes violate it (proved)."
  },
  {
   "property": "C82",
   "status": "partial",
   "theorems": [
    "Verif.Props.c82_calculation_partial",
    "Verif.Props.c82_violated_dew",
    "Verif.Props.c82_violated_bubble",
    "Verif.Props.c82_tlve_partial"
   ],
   "note": "Holds for four classes; TLVE data of mixtures without calculation type is always rejected (proved)."
  },
  {
   "property": "C83",
   "status": "proved",
   "theorems": [
    "Verif.Props.c83_axis",
    "Verif.Props.c83_grid"
   ],
   "note": "For at least two values for each parameter; exact arithmetic."
  },
  {
   "property": "C84",
   "status": "proved",
   "theorems": [
    "Verif.Props.c84_names_iff",
    "Verif.Props.c84_rejected"
   ],
   "note": "The modules are those of the repository; the constructors are not part of it."
  },
  {
   "property": "C85",
   "status": "partial",
   "theorems": [
    "Verif.Props.c85_console",
    "Verif.Props.c85_file_partial",
    "Verif.Props.c85_idempotent",
    "Verif.Props.c85_violated_false",
    "Verif.Props.c85_violated_console",
    "Verif.Props.c85_violated_level"
   ],
   "note": "A file handler is never removed, False even makes one, an unmentioned console handler is removed, and a new verbosity does not reach existing handlers (all proved)."
  },
  {
   "property": "C86",
   "status": "partial",
   "theorems": [
    "Verif.Props.c86_settings_partial",
    "Verif.Props.c86_others",
    "Verif.Props.c86_violated"
   ],
   "note": "A general setting replaces the data set's own one (proved)."
  },
  {
   "property": "C87",
   "status": "partial",
   "theorems": [
    "Verif.Props.c87_scalar_column",
    "Verif.Props.c87_array_columns",
    "Verif.Props.c87_table",
    "Verif.Props.c87_mixed_rejected",
    "Verif.Props.c87_fit",
    "Verif.Props.c87_fit_short",
    "Verif.Props.c87_violated_comment",
    "Verif.Props.c87_shapes_rejected",
    "Verif.Props.c87_units",
    "Verif.Props.c87_file_name"
   ],
   "note": "Columns and rows are right. The comment never names the calculation (proved). Number formatting is not modelled."
  },
  {
   "property": "C88",
   "status": "partial",
   "theorems": [
    "Verif.Props.c88_options_partial",
    "Verif.Props.c88_violated_constraints",
    "Verif.Props.c88_violated_default",
    "Verif.Props.c88_methods"
   ],
   "note": "Constraints reach no method at all; minimiser options reach the methods that have a local minimiser and make the others, among them the default one, fail (proved)."
  },
  {
   "property": "C89",
   "status": "proved",
   "theorems": [
    "Verif.Props.c89_curve",
    "Verif.Props.c89_errors",
    "Verif.Props.c89_defined",
    "Verif.Props.c89_maximum"
   ],
   "note": "For positive options and maximum density; exact arithmetic."
  },
  {
   "property": "C90",
   "status": "partial",
   "theorems": [
    "Verif.Props.c90_steps_partial",
    "Verif.Props.c90_low_pressure_partial",
    "Verif.Props.c90_violated_min_density",
    "Verif.Props.c90_violated_increment",
    "Verif.Props.c90_violated_one_point",
    "Verif.Props.c90_violated_multfactor"
   ],
   "note": "The step is honoured where the curve is not extended, the low pressure is reached for pressures proportional to the density. The curve may stop before the requested density, the extension makes larger steps, one point per extension makes none, and multfactor is unused (all proved)."
  },
  {
   "property": "C91",
   "status": "proved",
   "theorems": [
    "Verif.Props.c91_equal_diameters",
    "Verif.Props.c91_mixture",
    "Verif.Props.c91_bmcsl",
    "Verif.Props.c91_cs_energy",
    "Verif.Props.c91_khs",
    "Verif.Props.c91_contact",
    "Verif.Props.c91_contact_mie",
    "Verif.Props.c91_low_density",
    "Verif.Props.c91_iFun",
    "Verif.Props.c91_jFun"
   ],
   "note": "The contact value of the Mie variant is given in closed form and agrees with the exact low-density expansion."
  },
  {
   "property": "C92",
   "status": "partial",
   "theorems": [
    "Verif.Props.c92_bounds",
    "Verif.Props.c92_bounds_defined",
    "Verif.Props.c92_range",
    "Verif.Props.c92_equal_area",
    "Verif.Props.c92_densities",
    "Verif.Props.c92_fugacity",
    "Verif.Props.c92_line",
    "Verif.Props.c92_line_exact",
    "Verif.Props.c92_triangle",
    "Verif.Props.c92_consistent_partial",
    "Verif.Props.c92_violated_tail"
   ],
   "note": "scipy's minimiser and density refinement are assumed to stay within their bounds and the roots of a spline to be positive and increasing. With three roots and a spline that reproduces the isotherm the fugacities agree for every equation of state whose fugacity follows from its pressure, and for Peng-Robinson. Violated (proved): with two roots, when the curve ends before the vapour, the second area is that up to the zero of a straight line, and a pressure is accepted although the areas do not cancel."
  },
  {
   "property": "C93",
   "status": "partial",
   "theorems": [
    "Verif.Props.c93_pure",
    "Verif.Props.c93_supercritical",
    "Verif.Props.c93_violated_message",
    "Verif.Props.c93_violated_low_pressure",
    "Verif.Props.c93_violated_last_root",
    "Verif.Props.c93_violated_check",
    "Verif.Props.c93_extrema",
    "Verif.Props.c93_not_finite"
   ],
   "note": "Mixtures are refused, but with one dominant component by a TypeError; loops below 1 Pa fail; of more than three roots the third is taken; and a failure in the fugacity coefficients computed for a message is a failure of the calculation (all proved)."
  },
  {
   "property": "C94",
   "status": "partial",
   "theorems": [
    "Verif.Props.c94_sources_partial",
    "Verif.Props.c94_binary_close",
    "Verif.Props.c94_unattainable",
    "Verif.Props.c94_objective_zero",
    "Verif.Props.c94_violated_no_vapor",
    "Verif.Props.c94_violated_equal_fractions",
    "Verif.Props.c94_violated_last_iteration",
    "Verif.Props.c94_violated_nan",
    "Verif.Props.c94_violated_objective",
    "Verif.Props.c94_trivial",
    "Verif.Props.c94_trivial_absent",
    "Verif.Props.c94_bouncing",
    "Verif.Props.c94_bounced",
    "Verif.Props.c94_objective_nan"
   ],
   "note": "Every composition returned with coefficients has them for itself and comes from one of four sources. Only the first, convergence before the last iteration, is a solution. Mixtures of three whose guess gives no vapour are returned unchanged, equal smallest fractions raise, convergence in the last iteration is discarded and gives two fractions for any number of components, a missing vapour raises instead of giving NaN, and the objective of the last resort is zero for wrong compositions (all proved)."
  },
  {
   "property": "C95",
   "status": "partial",
   "theorems": [
    "Verif.Props.c95_sources_partial",
    "Verif.Props.c95_violated_last_iteration",
    "Verif.Props.c95_violated_objective",
    "Verif.Props.c94_trivial",
    "Verif.Props.c94_objective_nan"
   ],
   "note": "A composition that converged before the last iteration reproduces itself and has its own coefficients. After the last iteration the composition comes from least squares without a test, with the coefficients of another one, and the objective it minimises vanishes at the trivial solution only (proved)."
  },
  {
   "property": "C96",
   "status": "partial",
   "theorems": [
    "Verif.Props.c96_bracket",
    "Verif.Props.c96_boundary_partial",
    "Verif.Props.c96_violated_third_flag",
    "Verif.Props.c96_violated_same_flag",
    "Verif.Props.c96_violated_high_objective",
    "Verif.Props.c96_choice"
   ],
   "note": "Holds if the objective of vapours stays below the inverse tolerance and only two kinds of fluid occur. A third kind raises IndexError, equal kinds give the upper bound, and after a large objective a liquid can be returned (proved)."
  },
  {
   "property": "C97",
   "status": "partial",
   "theorems": [
    "Verif.Props.c97_guess",
    "Verif.Props.c97_none_iff",
    "Verif.Props.c97_violated_maximum",
    "Verif.Props.c97_violated_leftmost",
    "Verif.Props.c97_violated_nan"
   ],
   "note": "Roots and curvature of scipy's spline are parameters. A single stationary point is taken even if it is a maximum, for liquids the leftmost minimum is taken, and a grid point without fugacity coefficients raises (proved)."
  },
  {
   "property": "C98",
   "status": "partial",
   "theorems": [
    "Verif.Props.c98_range_partial",
    "Verif.Props.c98_violated_well",
    "Verif.Props.c98_violated_last_iteration",
    "Verif.Props.c98_violated_no_vapor",
    "Verif.Props.c98_violated_no_sign_change",
    "Verif.Props.c98_violated_sign_change_lost",
    "Verif.Props.c98_violated_critical",
    "Verif.Props.c98_violated_integers",
    "Verif.Props.c98_new_start",
    "Verif.Props.c98_fluid",
    "Verif.Props.c98_rising",
    "Verif.Props.c98_found_again",
    "Verif.Props.c98_found_again_liquid",
    "Verif.Props.c98_outside",
    "Verif.Props.c98_guess"
   ],
   "note": "Holds with floating-point limits when neither a critical fluid is looked for nor the minimiser is used. The minimiser's test has the wrong sign, so that a range without a change of sign is accepted and one with it is given up; a critical fluid gives two negative ends; integer limits truncate the ends; the last iteration cannot succeed; a missing vapour raises (proved)."
  },
  {
   "property": "C99",
   "status": "partial",
   "theorems": [
    "Verif.Props.c99_limits_partial",
    "Verif.Props.c99_violated_upper_limit",
    "Verif.Props.c99_violated_equal_limits",
    "Verif.Props.c99_default_limits"
   ],
   "note": "Holds with both limits, the lower below the upper. An upper limit alone that is below 1000 Pa is replaced by twice that, and equal limits are exceeded (proved)."
  },
  {
   "property": "C100",
   "status": "proved",
   "theorems": [
    "Verif.Props.c100_pairs",
    "Verif.Props.c100_labels",
    "Verif.Props.c100_kept",
    "Verif.Props.c100_tie"
   ],
   "note": ""
  },
  {
   "property": "C101",
   "status": "partial",
   "theorems": [
    "Verif.Props.c101_range_partial",
    "Verif.Props.c101_violated_well",
    "Verif.Props.c101_violated_unbound",
    "Verif.Props.c101_violated_zero",
    "Verif.Props.c101_violated_last_iteration",
    "Verif.Props.c101_violated_sign_change_lost",
    "Verif.Props.c101_violated_upper_limit",
    "Verif.Props.c101_violated_integers",
    "Verif.Props.c101_violated_endless",
    "Verif.Props.c101_violated_plateau",
    "Verif.Props.c101_flat"
   ],
   "note": "Holds for the ranges returned with floating-point limits and a positive lower one. An objective that falls on the way raises TypeError; a liquid at the first pressure leaves a variable unbound; an objective of exactly zero is not recognised; the last iteration cannot succeed; a range is lost at an upper limit with a negative objective; integer limits truncate the ends; a flat objective sends the pressure to infinity (proved)."
  },
  {
   "property": "C102",
   "status": "partial",
   "theorems": [
    "Verif.Props.c102_limits_partial",
    "Verif.Props.c102_violated_upper_limit",
    "Verif.Props.c102_violated_equal_limits",
    "Verif.Props.c102_at_lower_limit",
    "Verif.Props.c102_clamp",
    "Verif.Props.c102_found_again",
    "Verif.Props.c102_goes_on"
   ],
   "note": "Holds with both limits, the lower below the upper. An upper limit alone that is below 1000 Pa is replaced by twice that, and equal limits are exceeded (proved)."
  },
  {
   "property": "C103",
   "status": "partial",
   "theorems": [
    "Verif.Props.c103_ideal",
    "Verif.Props.c103_density_derivative",
    "Verif.Props.c103_temperature_derivative",
    "Verif.Props.c103_mixing",
    "Verif.Props.c103_violated_negative",
    "Verif.Props.c103_violated_zero",
    "Verif.Props.c103_constants"
   ],
   "note": "Value, derivatives and mixing are proved. Negative fractions are dropped and a density of zero gives minus infinity, both without an error (proved)."
  },
  {
   "property": "C104",
   "status": "partial",
   "theorems": [
    "Verif.Props.c104_residual",
    "Verif.Props.c104_pressure",
    "Verif.Props.c104_mean_value",
    "Verif.Props.c104_ideal_factor",
    "Verif.Props.c104_ideal_gas",
    "Verif.Props.c104_violated_zero",
    "Verif.Props.c104_refused",
    "Verif.Props.c104_length"
   ],
   "note": "The pressure is the exact one at a density within the step (mean value); ideal gas to a relative error of s²/(1−s²). At zero density the calculation raises (proved)."
  },
  {
   "property": "C105",
   "status": "partial",
   "theorems": [
    "Verif.Props.c105_formula",
    "Verif.Props.c105_pressure_scaling",
    "Verif.Props.c105_ideal_gas",
    "Verif.Props.c105_mean_value",
    "Verif.Props.c105_gibbs",
    "Verif.Props.c105_scalar",
    "Verif.Props.c105_violated_absent",
    "Verif.Props.c105_violated_log_method",
    "Verif.Props.c105_violated_pressure",
    "Verif.Props.c105_infinite",
    "Verif.Props.c105_plain",
    "Verif.Props.c105_first_entry"
   ],
   "note": "Proved for the components present. Absent components get a coefficient unrelated to their energy, the option log_method is ignored, and a pressure of zero or below is not refused but gives infinite coefficients or NaN (proved)."
  },
  {
   "property": "C106",
   "status": "partial",
   "theorems": [
    "Verif.Props.c106_normalise",
    "Verif.Props.c106_normalise_nan",
    "Verif.Props.c106_psats",
    "Verif.Props.c106_psats_error",
    "Verif.Props.c106_initial",
    "Verif.Props.c106_raoult_vapor",
    "Verif.Props.c106_raoult_liquid",
    "Verif.Props.c106_raoult_inverse",
    "Verif.Props.c106_violated_zero",
    "Verif.Props.c106_start",
    "Verif.Props.c106_no_range"
   ],
   "note": "Holds for a pressure guess that is not zero; a guess of zero makes every entry NaN (proved)."
  },
  {
   "property": "C107",
   "status": "proved",
   "theorems": [
    "Verif.Props.c107_bonds",
    "Verif.Props.c107_balance",
    "Verif.Props.c107_value",
    "Verif.Props.c107_stationary",
    "Verif.Props.c107_reciprocal",
    "Verif.Props.c107_unbonded",
    "Verif.Props.c107_zero_iff",
    "Verif.Props.c107_density"
   ],
   "note": "For interactions that are the same from either side, which the matrices are (C25). The density derivative is for interactions independent of the density."
  },
  {
   "property": "C108",
   "status": "partial",
   "theorems": [
    "Verif.Props.c108_self",
    "Verif.Props.c108_self_volume",
    "Verif.Props.c108_self_error",
    "Verif.Props.c108_order",
    "Verif.Props.c108_exchange",
    "Verif.Props.c108_direct",
    "Verif.Props.c108_cross_error",
    "Verif.Props.c108_volume_kept",
    "Verif.Props.c108_volume_combined",
    "Verif.Props.c108_means",
    "Verif.Props.c108_energy",
    "Verif.Props.c108_energy_kept",
    "Verif.Props.c108_run",
    "Verif.Props.c108_violated_zero",
    "Verif.Props.c108_cross_bonds"
   ],
   "note": "Proved for one pair of sites, and for whole runs in an example. An energy of zero in the cross library is replaced by the combined one (proved). See C65 for the order of the groups."
  },
  {
   "property": "C109",
   "status": "proved",
   "theorems": [
    "Verif.Props.c109_alpha",
    "Verif.Props.c109_alpha_zero",
    "Verif.Props.c109_ghs_symmetric",
    "Verif.Props.c109_ghs_pure",
    "Verif.Props.c109_ghs_dilute",
    "Verif.Props.c109_gsw"
   ],
   "note": ""
  },
  {
   "property": "C110",
   "status": "partial",
   "theorems": [
    "Verif.Props.c110_value",
    "Verif.Props.c110_pr",
    "Verif.Props.c110_violated_saft"
   ],
   "note": "Proved for Peng-Robinson. The density is not changed with the pressure, so for the SAFT equations the value is -1/(ρRT) for every residual energy, and for Peng-Robinson it is zero for all parameters and densities: the test cannot tell a consistent equation from an inconsistent one (proved)."
  },
  {
   "property": "C111",
   "status": "partial",
   "theorems": [
    "Verif.Props.c111_step",
    "Verif.Props.c111_amount",
    "Verif.Props.c111_shifted",
    "Verif.Props.c111_value",
    "Verif.Props.c111_violated_blind",
    "Verif.Props.c111_virial_consistent",
    "Verif.Props.c111_violated_consistent"
   ],
   "note": "Refusals are proved. The division by the step is undone, so that the value tends to zero with the step for all continuous coefficients; and at fixed density it is not zero for a consistent gas (proved)."
  },
  {
   "property": "C112",
   "status": "partial",
   "theorems": [
    "Verif.Props.c112_one",
    "Verif.Props.c112_arrays",
    "Verif.Props.c112_pressures",
    "Verif.Props.c112_temperatures",
    "Verif.Props.c112_densities",
    "Verif.Props.c112_compositions",
    "Verif.Props.c112_violated_compositions",
    "Verif.Props.c112_empty",
    "Verif.Props.c112_two_arrays"
   ],
   "note": "Proved except for an array of compositions, where every entry adds the weights of all compositions (proved)."
  },
  {
   "property": "C113",
   "status": "proved",
   "theorems": [
    "Verif.Props.c113_value",
    "Verif.Props.c113_raoult",
    "Verif.Props.c113_ideal",
    "Verif.Props.c113_pressure",
    "Verif.Props.c113_error"
   ],
   "note": "For fractions of the liquid and saturation pressures that are not zero; a supercritical component has NaN."
  },
  {
   "property": "C114",
   "status": "partial",
   "theorems": [
    "Verif.Props.c114_parameter",
    "Verif.Props.c114_integrand",
    "Verif.Props.c114_linear",
    "Verif.Props.c114_energy",
    "Verif.Props.c114_triangle",
    "Verif.Props.c114_value",
    "Verif.Props.c114_ideal",
    "Verif.Props.c114_lengths",
    "Verif.Props.c114_max_twice",
    "Verif.Props.c114_violated_rising",
    "Verif.Props.c114_violated_start",
    "Verif.Props.c114_violated_grid",
    "Verif.Props.c114_last_four"
   ],
   "note": "Filter, spline and line fit are parameters. The curves begin at a volume larger than that of the liquid, a rising tail reduces the energy, and grids that are extended differently at the two temperatures raise, even for an ideal gas (proved)."
  },
  {
   "property": "C115",
   "status": "proved",
   "theorems": [
    "Verif.Props.c115_alpha_pos",
    "Verif.Props.c115_den_pos",
    "Verif.Props.c115_defined",
    "Verif.Props.c115_unknown_row",
    "Verif.Props.c115_row_zero",
    "Verif.Props.c115_lafitte",
    "Verif.Props.c115_lennard_jones",
    "Verif.Props.c115_chi",
    "Verif.Props.c115_third"
   ],
   "note": "The seventh row of the table, which the code does not use in this way, has a pole, and asking for row zero gives it (proved)."
  },
  {
   "property": "C116",
   "status": "proved",
   "theorems": [
    "Verif.Props.c116_energy_hs",
    "Verif.Props.c116_energy_first",
    "Verif.Props.c116_energy_second",
    "Verif.Props.c116_energy_third",
    "Verif.Props.c116_energy_chain",
    "Verif.Props.c116_energy_monomer",
    "Verif.Props.c116_length_hs",
    "Verif.Props.c116_length_first",
    "Verif.Props.c116_length_second",
    "Verif.Props.c116_length_third",
    "Verif.Props.c116_length_chain",
    "Verif.Props.c116_length_monomer"
   ],
   "note": "For factors that are not zero (positive for the chain term and the guard). The diameter is the quadrature formula of the code."
  },
  {
   "property": "C117",
   "status": "partial",
   "theorems": [
    "Verif.Props.c117_first",
    "Verif.Props.c117_second",
    "Verif.Props.c117_third",
    "Verif.Props.c117_attractive",
    "Verif.Props.c117_hard_spheres",
    "Verif.Props.c117_vanish",
    "Verif.Props.c117_violated_dimer"
   ],
   "note": "The limits are proved. For a pure fluid of a molecule with groups of different sizes the formula for one component is used and the slope of the hard spheres is not their second virial coefficient (proved)."
  },
  {
   "property": "C118",
   "status": "proved",
   "theorems": [
    "Verif.Props.c118_g1_zero",
    "Verif.Props.c118_g2_zero",
    "Verif.Props.c118_contact",
    "Verif.Props.c118_chain_zero",
    "Verif.Props.c118_contact_pos",
    "Verif.Props.c118_monomers",
    "Verif.Props.c118_bonds",
    "Verif.Props.c118_correction",
    "Verif.Props.c118_threshold"
   ],
   "note": ""
  },
  {
   "property": "C119",
   "status": "proved",
   "theorems": [
    "Verif.Props.c119_groups_monomer",
    "Verif.Props.c119_groups_chain",
    "Verif.Props.c119_components"
   ],
   "note": ""
  },
  {
   "property": "C120",
   "status": "partial",
   "theorems": [
    "Verif.Props.c120_guard_packing",
    "Verif.Props.c120_single",
    "Verif.Props.c120_pointwise_partial",
    "Verif.Props.c120_violated_mixed"
   ],
   "note": "Proved for one density. In a list one admissible density lets all others pass (proved)."
  },
  {
   "property": "C121",
   "status": "partial",
   "theorems": [
    "Verif.Props.c121_kinds_partial",
    "Verif.Props.c121_formula_partial",
    "Verif.Props.c121_violated_always_raises"
   ],
   "note": "With cut-off distances the calculation always raises IndexError: a table of two columns is written in its third and fourth (proved). The formula behind it is that of hard spheres."
  },
  {
   "property": "C122",
   "status": "proved",
   "theorems": [
    "Verif.Props.c122_energy_hs",
    "Verif.Props.c122_energy_first",
    "Verif.Props.c122_energy_second",
    "Verif.Props.c122_energy_monomer",
    "Verif.Props.c122_energy_contact",
    "Verif.Props.c122_energy_chain",
    "Verif.Props.c122_length_hs",
    "Verif.Props.c122_length_first",
    "Verif.Props.c122_length_second",
    "Verif.Props.c122_length_monomer",
    "Verif.Props.c122_length_contact",
    "Verif.Props.c122_length_chain"
   ],
   "note": ""
  },
  {
   "property": "C123",
   "status": "partial",
   "theorems": [
    "Verif.Props.c123_first",
    "Verif.Props.c123_second",
    "Verif.Props.c123_hard_spheres",
    "Verif.Props.c123_virial",
    "Verif.Props.c123_expansion",
    "Verif.Props.c123_vanish",
    "Verif.Props.c123_contact",
    "Verif.Props.c123_violated_chain",
    "Verif.Props.c123_violated_dimer"
   ],
   "note": "Proved for the monomers. The chain term does not vanish: it uses the contact value, which tends to 1+ε/T, so the residual energy of a dilute gas of chains is not zero (proved)."
  },
  {
   "property": "C124",
   "status": "partial",
   "theorems": [
    "Verif.Props.c124_components_mie",
    "Verif.Props.c124_components_mie_hs_partial",
    "Verif.Props.c124_components_mie_chain",
    "Verif.Props.c124_groups_mie",
    "Verif.Props.c124_groups_mie_hs",
    "Verif.Props.c124_groups_mie_chain",
    "Verif.Props.c124_components_sw",
    "Verif.Props.c124_components_sw_monomer",
    "Verif.Props.c124_components_sw_chain",
    "Verif.Props.c124_groups_sw",
    "Verif.Props.c124_groups_sw_chain",
    "Verif.Props.c56_violated_mie_split"
   ],
   "note": "Proved for all terms of both variants except the hard spheres of the Mie variant between one and several components, see C56."
  },
  {
   "property": "C125",
   "status": "partial",
   "theorems": [
    "Verif.Props.c125_single",
    "Verif.Props.c125_negative",
    "Verif.Props.c125_pointwise_partial",
    "Verif.Props.c125_contact_symmetric",
    "Verif.Props.c125_violated_mixed",
    "Verif.Props.c125_pair_size",
    "Verif.Props.c125_pair_range",
    "Verif.Props.c125_pair_depth",
    "Verif.Props.c125_bonds"
   ],
   "note": "Proved for one density. In a list one admissible density lets all others pass (proved)."
  },
  {
   "property": "C126",
   "status": "proved",
   "theorems": [
    "Verif.Props.c126_table",
    "Verif.Props.c126_power",
    "Verif.Props.c126_polynomial",
    "Verif.Props.c126_zero_density",
    "Verif.Props.c126_cross_symmetric",
    "Verif.Props.c126_cross_self",
    "Verif.Props.c126_cross_bounds",
    "Verif.Props.c126_symmetric",
    "Verif.Props.c126_like",
    "Verif.Props.c126_reduced_density",
    "Verif.Props.c126_energy",
    "Verif.Props.c126_length",
    "Verif.Props.c126_components",
    "Verif.Props.c126_groups",
    "Verif.Props.c126_dispatch",
    "Verif.Props.c126_values"
   ],
   "note": "The reduced density contains the density of molecules, not of segments (proved)."
  },
  {
   "property": "C127",
   "status": "partial",
   "theorems": [
    "Verif.Props.c127_range",
    "Verif.Props.c127_positive_partial",
    "Verif.Props.c127_negative",
    "Verif.Props.c127_hot",
    "Verif.Props.c127_violated_spheres"
   ],
   "note": "Proved for reduced densities up to 1.125 and reduced temperatures up to 10, with bounds 0.005 and 0.1. At the reduced density 1.5, which the guard on the packing fraction accepts, the correlation is negative for reduced temperatures from 0.5 to 8 (proved)."
  },
  {
   "property": "C69",
   "status": "partial",
   "theorems": [
    "Verif.Props.c69_grid",
    "Verif.Props.c69_pure",
    "Verif.Props.c69_pair",
    "Verif.Props.c69_complement",
    "Verif.Props.c69_normalised_partial",
    "Verif.Props.c69_equimolar",
    "Verif.Props.c69_close",
    "Verif.Props.c69_violated_decimal",
    "Verif.Props.c69_violated_order",
    "Verif.Props.c69_violated_equimolar",
    "Verif.Props.c69_violated_normalised",
    "Verif.Props.c69_eight",
    "Verif.Props.c69_violated_absent"
   ],
   "note": "Numbers are rounded as doubles here. Two components are always accepted, and so are multiples of a common power of two; what is accepted adds up to one within one rounding per component. The comparison without tolerance refuses 0.2, 0.7, 0.1 but accepts 0.1, 0.2, 0.7, and refuses equal fractions of six components (witnesses proved)."
  },
  {
   "property": "C128",
   "status": "partial",
   "theorems": [
    "Verif.Props.c128_numba",
    "Verif.Props.c128_cython_partial",
    "Verif.Props.c128_cython_iter_partial",
    "Verif.Props.c128_cython_phys",
    "Verif.Props.c128_cython_iter_phys",
    "Verif.Props.c128_cython_accuracy_partial",
    "Verif.Props.c128_violated_cython",
    "Verif.Props.c128_violated_raises"
   ],
   "note": "Proved for numba on every input. The cython copy tests the damping against the new elements: it agrees exactly as long as n(1+S) ≤ 1000, and to the tolerance when both converge; for strengths of 20000 it is 9 % off, and a negative strength can make it raise (witnesses proved)."
  },
  {
   "property": "C129",
   "status": "partial",
   "theorems": [
    "Verif.Props.c129_fractions",
    "Verif.Props.c129_columns",
    "Verif.Props.c129_removed",
    "Verif.Props.c129_rows_partial",
    "Verif.Props.c129_reading",
    "Verif.Props.c129_last",
    "Verif.Props.c129_entry",
    "Verif.Props.c129_file_column",
    "Verif.Props.c129_failure",
    "Verif.Props.c129_violated_one_row",
    "Verif.Props.c129_violated_one_point",
    "Verif.Props.c129_violated_three_components",
    "Verif.Props.c129_violated_numbering",
    "Verif.Props.c129_violated_name",
    "Verif.Props.c129_violated_order",
    "Verif.Props.c129_violated_eos_dict",
    "Verif.Props.c129_values"
   ],
   "note": "Proved for tables of two rows or more with columns in the order of the components. A file with one row gives a vector instead of a composition, so one point of a binary mixture counts as two points; numbers in the names are not read; any column beginning with x, y or z becomes a component; a file overrides the entries before it and is overridden by those after it (witnesses proved)."
  },
  {
   "property": "C130",
   "status": "partial",
   "theorems": [
    "Verif.Props.c130_split",
    "Verif.Props.c130_value",
    "Verif.Props.c130_dropped",
    "Verif.Props.c130_text",
    "Verif.Props.c130_digit",
    "Verif.Props.c130_file_partial",
    "Verif.Props.c130_violated_newline",
    "Verif.Props.c130_violated_digit",
    "Verif.Props.c130_violated_blank",
    "Verif.Props.c130_violated_index"
   ],
   "note": "Proved for values that can be evaluated. A text keeps its line end, a key with a digit in second place cannot have a text, lines with a second delimiter are lost, and a last line of one blank raises (witnesses proved)."
  },
  {
   "property": "C131",
   "status": "partial",
   "theorems": [
    "Verif.Props.c131_saft",
    "Verif.Props.c131_cubic",
    "Verif.Props.c131_pure",
    "Verif.Props.c131_violated_order_iff",
    "Verif.Props.c131_violated_counts",
    "Verif.Props.c131_violated_number",
    "Verif.Props.c131_violated_density"
   ],
   "note": "Proved for the SAFT equations. The cubic equation of state takes the alphabetically sorted group names as its components: the order of the configuration is kept only if it is alphabetical, numbers of groups are ignored, components of the same group become one and a component of two groups becomes two (proved)."
  },
  {
   "property": "C132",
   "status": "partial",
   "theorems": [
    "Verif.Props.c132_saft",
    "Verif.Props.c132_cubic",
    "Verif.Props.c132_missing",
    "Verif.Props.c132_violated_keyword",
    "Verif.Props.c132_violated_composition",
    "Verif.Props.c132_violated_unused",
    "Verif.Props.c132_names"
   ],
   "note": "What is needed is characterised exactly. Unknown keywords are ignored, the cubic equation ignores the composition, and a group of the library that is not used but lacks a parameter makes SAFT refuse (proved)."
  },
  {
   "property": "C133",
   "status": "partial",
   "theorems": [
    "Verif.Props.c133_packing",
    "Verif.Props.c133_functions",
    "Verif.Props.c133_first_partial",
    "Verif.Props.c133_exponents",
    "Verif.Props.c133_violated_packing",
    "Verif.Props.c133_violated_a1s",
    "Verif.Props.c133_violated_numba",
    "Verif.Props.c133_violated_value",
    "Verif.Props.c133_violated_exponent",
    "Verif.Props.c133_truncation",
    "Verif.Props.c133_whole",
    "Verif.Props.c133_second_partial",
    "Verif.Props.c133_chain_partial",
    "Verif.Props.c133_violated_numba_terms",
    "Verif.Props.c133_violated_second"
   ],
   "note": "Proved for arrays of floats. Intermediate arrays take the element type of the densities, so densities given as integers set the effective packing fraction to zero in the python (and cython) file without a message, an error of more than a third at the packing fraction 0.4; numba refuses them. An exponent of zero raises in python and gives NaN in the compiled files (proved). The terms that call these functions are the first and second order and the chains; the hard spheres and the third order do not."
  },
  {
   "property": "C134",
   "status": "partial",
   "theorems": [
    "Verif.Props.c134_state",
    "Verif.Props.c134_sources",
    "Verif.Props.c134_residual_partial",
    "Verif.Props.c134_exact_partial",
    "Verif.Props.c134_raoult",
    "Verif.Props.c134_flash_partial",
    "Verif.Props.c134_violated_ternary",
    "Verif.Props.c134_violated_unconverged",
    "Verif.Props.c134_violated_dew",
    "Verif.Props.c134_dew_state",
    "Verif.Props.c134_flags",
    "Verif.Props.c134_bracket",
    "Verif.Props.c134_inner_limits",
    "Verif.Props.c134_flash_raoult",
    "Verif.Props.c134_violated_flash_outside",
    "Verif.Props.c134_start"
   ],
   "note": "The whole calculation is put together from the modelled loops. Proved for bubble points of two components whose inner loop converged, with an explicit bound, and for flashes that were not given up; for ideal mixtures the objective vanishes exactly at the sum of the partial pressures. Violated: with three components only the smallest mole fraction is compared, an inner loop that did not converge is accepted because the outer loop discards its coefficients, a dew point returns the composition it started from, and above both saturation pressures the flash of an ideal mixture returns two phases with the error zero. For ideal mixtures between the saturation pressures the flash returns the compositions of the law of Raoult."
  },
  {
   "property": "C135",
   "status": "partial",
   "theorems": [
    "Verif.Props.c135_monotone_iff",
    "Verif.Props.c135_one_density",
    "Verif.Props.c135_three_densities",
    "Verif.Props.c135_supercritical_partial",
    "Verif.Props.c135_subcritical",
    "Verif.Props.c135_critical_pressure",
    "Verif.Props.c135_corresponding",
    "Verif.Props.c135_virial",
    "Verif.Props.c135_violated_at_critical",
    "Verif.Props.c135_violated_hot",
    "Verif.Props.c135_kappa"
   ],
   "note": "For given mixture parameters the loop is characterised exactly (a <= 5.87736 b R T). With the constants of the code the substance has one density from 7e-8 above its critical temperature for kappa up to 0.999. Violated: at the critical temperature itself a loop remains because of the rounded constants, and for kappa above one (acentric factor above about 0.44) the loop returns at high temperatures because alpha grows again."
  },
  {
   "property": "C136",
   "status": "partial",
   "theorems": [
    "Verif.Props.c136_saturation",
    "Verif.Props.c136_none",
    "Verif.Props.c136_falls",
    "Verif.Props.c136_accuracy",
    "Verif.Props.c136_found",
    "Verif.Props.c136_found_exists",
    "Verif.Props.c136_subcritical",
    "Verif.Props.c136_supercritical_partial",
    "Verif.Props.c136_violated_hot",
    "Verif.Props.c136_exact",
    "Verif.Props.c136_critical_temperature",
    "Verif.Props.c136_grid",
    "Verif.Props.c136_fine",
    "Verif.Props.c136_fine_exists",
    "Verif.Props.c136_violated_coarse"
   ],
   "note": "Existence, uniqueness and the bound of the error are proved for the cubic equation of state. For kappa below one a saturation state exists exactly below a critical temperature that lies up to 7e-8 above that of the library, because the constants are rounded; for kappa above one a saturation state appears again at high temperature (proved). The range that is searched holds the saturation pressure whenever the samples reach from the liquid to the vapour volume in steps smaller than the distances of the middle volume to both; a coarser sampling can place the range above it (proved). The spline is assumed to reproduce the isotherm."
  },
  {
   "property": "C137",
   "status": "partial",
   "theorems": [
    "Verif.Props.c137_rising",
    "Verif.Props.c137_light",
    "Verif.Props.c137_dense",
    "Verif.Props.c137_three_partial",
    "Verif.Props.c137_short_range",
    "Verif.Props.c137_supercritical",
    "Verif.Props.c137_subcritical_partial",
    "Verif.Props.c137_example",
    "Verif.Props.c137_stable",
    "Verif.Props.c137_violated_near_critical"
   ],
   "note": "Proved for all isotherms of this shape, in particular those of the cubic equation of state at any composition, if the densities at a pressure differ by more than one percent and the spline reproduces the isotherm. Pressures that touch an end of the loop are left out. Violated: close to the critical point the bracket of one percent around the lowest (highest) density contains all three, and the root finder may return the unstable one as the vapour and as the liquid."
  },
  {
   "property": "C138",
   "status": "partial",
   "theorems": [
    "Verif.Props.c138_conditions",
    "Verif.Props.c138_no_peeking",
    "Verif.Props.c138_failure",
    "Verif.Props.c138_bubble",
    "Verif.Props.c138_dew",
    "Verif.Props.c138_flash",
    "Verif.Props.c138_saturation",
    "Verif.Props.c138_solubility",
    "Verif.Props.c138_liquid",
    "Verif.Props.c138_inputs",
    "Verif.Props.c138_default_weight",
    "Verif.Props.c138_bubble_input",
    "Verif.Props.c138_violated_calculation",
    "Verif.Props.c138_violated_phil",
    "Verif.Props.c138_violated_no_density",
    "Verif.Props.c138_violated_flat",
    "Verif.Props.c138_violated_recovery",
    "Verif.Props.c138_shapes",
    "Verif.Props.c138_no_states"
   ],
   "note": "Proved for all five classes from the outputs of the calculation to the objective, and from the data set as given. Violated: fugacity coefficients of liquid data are accepted as results and never compared; liquid data without densities and TLVE data with another calculation are accepted and every evaluation fails; a composition stored as one number for each state cannot be compared; data equal to the predictions give an infinite objective. That the pressures of TLVE data are also the initial guess of the calculation is modelled (C80) and intended."
  },
  {
   "property": "C139",
   "status": "partial",
   "theorems": [
    "Verif.Props.c139_square_well",
    "Verif.Props.c139_mie_partial",
    "Verif.Props.c139_several_temperatures",
    "Verif.Props.c139_written",
    "Verif.Props.c139_overwritten",
    "Verif.Props.c139_isothermal",
    "Verif.Props.c139_violated_bonding",
    "Verif.Props.c139_violated"
   ],
   "note": "Proved for the square-well fluid without cutoff distances, and for the Mie fluid when the first state of the data has another temperature than the last. Violated: with data at one temperature (other than 298 K) every evaluation after the first uses the hard-sphere diameters of the first set of parameters tried, and with cutoff distances also its bonding volumes. The calculation is an arbitrary process that asks one question after the other; that written parameters overwrite each other is proved for the libraries (c139_overwritten) and assumed for the abstract state."
  },
  {
   "property": "C140",
   "status": "partial",
   "theorems": [
    "Verif.Props.c140_evolution",
    "Verif.Props.c140_evolution_accepted",
    "Verif.Props.c140_brute",
    "Verif.Props.c140_shgo",
    "Verif.Props.c140_hopping",
    "Verif.Props.c140_hopping_accepted_partial",
    "Verif.Props.c140_violated_hopping",
    "Verif.Props.c140_fit_order",
    "Verif.Props.c140_strip",
    "Verif.Props.c140_no_nested_pool",
    "Verif.Props.c140_violated_all_cores",
    "Verif.Props.c140_grid",
    "Verif.Props.c140_single",
    "Verif.Props.c140_violated_count",
    "Verif.Props.c140_fit",
    "Verif.Props.c140_workers_pool"
   ],
   "note": "The keyword arguments are computed exactly for all four methods that call scipy. Violated: basin hopping hands the documented option write_intermediate_file = False on to scipy and fails; with workers = -1 the optimiser starts its own processes with data sets that carry the pool; brute force reports too few evaluations. Which keywords scipy knows is a parameter."
  },
  {
   "property": "C141",
   "status": "partial",
   "theorems": [
    "Verif.Props.c141_messages",
    "Verif.Props.c141_after_job",
    "Verif.Props.c141_levels",
    "Verif.Props.c141_run",
    "Verif.Props.c141_violated_failure",
    "Verif.Props.c141_violated_lost",
    "Verif.Props.c141_violated_no_pool",
    "Verif.Props.c141_violated_replaced",
    "Verif.Props.c141_violated_verbosity",
    "Verif.Props.c141_quiet_workers",
    "Verif.Props.c141_violated_warnings",
    "Verif.Props.c141_violated_log",
    "Verif.Props.c141_violated_batch",
    "Verif.Props.c141_format"
   ],
   "note": "Proved for successful runs, and for the messages of the processes of the start. Violated: after any exception the processes and their log files stay; results that do not fit in a table are lost in a run that succeeds; the processes log warnings only, whatever the verbosity, and with one flag -v even these are discarded; messages of a replaced process are never read; --log without a name, run without a pool object and batch_jobs raise."
  },
  {
   "property": "C142",
   "status": "partial",
   "theorems": [
    "Verif.Props.c142_table",
    "Verif.Props.c142_flash",
    "Verif.Props.c142_saturation",
    "Verif.Props.c142_properties_partial",
    "Verif.Props.c142_solubility",
    "Verif.Props.c142_bubble",
    "Verif.Props.c142_dew",
    "Verif.Props.c142_violated_activity",
    "Verif.Props.c142_violated_activity_first",
    "Verif.Props.c142_violated_verify",
    "Verif.Props.c142_violated_properties",
    "Verif.Props.c142_names",
    "Verif.Props.c142_unpack",
    "Verif.Props.c142_ragged"
   ],
   "note": "Proved for bubble and dew points, flashes, saturation properties and solubility parameters, and for properties of a phase if there is a coefficient for each component. Violated: for activity coefficients and verify_eos a failed point has numbers where the others have arrays, and the properties of a phase without a density have two coefficients whatever the number of components; the table is then lost as a whole (a run still succeeds, C141), or has arrays in its cells."
  },
  {
   "property": "C143",
   "status": "partial",
   "theorems": [
    "Verif.Props.c143_definition",
    "Verif.Props.c143_raoult",
    "Verif.Props.c143_given",
    "Verif.Props.c143_bubble",
    "Verif.Props.c143_violated_dew",
    "Verif.Props.c143_violated_critical"
   ],
   "note": "The equation for the coefficients and the return of what was given are proved in all modes. Violated: at a dew point the liquid in the row is the starting value, so that in a new process all coefficients are equal whatever the equation of state; a component above its critical temperature has no coefficient although a bubble point was found."
  },
  {
   "property": "C144",
   "status": "partial",
   "theorems": [
    "Verif.Props.c144_returns",
    "Verif.Props.c144_call",
    "Verif.Props.c144_bounds",
    "Verif.Props.c144_missing",
    "Verif.Props.c144_names",
    "Verif.Props.c144_bead",
    "Verif.Props.c144_data_sets",
    "Verif.Props.c144_failure",
    "Verif.Props.c144_single",
    "Verif.Props.c144_violated_names",
    "Verif.Props.c144_violated_empty",
    "Verif.Props.c144_violated_cause",
    "Verif.Props.c144_violated_nothing_evaluated"
   ],
   "note": "Proved for all inputs; that the objective is that of the parameters is proved for single_objective (for the grid in C45) and otherwise up to scipy. Violated: missing names are a KeyError and an empty dictionary of data an IndexError, although both are checked elsewhere; every exception of a global method becomes a TypeError and every exception of a data class an AttributeError; a fit in which no data set could be evaluated returns its guess with an infinite objective."
  },
  {
   "property": "C145",
   "status": "partial",
   "theorems": [
    "Verif.Props.c145_rules",
    "Verif.Props.c145_faulty",
    "Verif.Props.c145_pair",
    "Verif.Props.c145_mie",
    "Verif.Props.c145_sw",
    "Verif.Props.c145_outcome",
    "Verif.Props.c145_violated_none",
    "Verif.Props.c145_violated_error",
    "Verif.Props.c145_violated_additional",
    "Verif.Props.c145_violated_unnoticed",
    "Verif.Props.c145_missing",
    "Verif.Props.c145_weightless"
   ],
   "note": "Proved for all dictionaries of rules without the multipole rule, which needs an optional package. Violated: the rule \"None\" leaves the cross parameter zero; a rule without its function that fails raises a KeyError; additional_outputs is refused by every rule; with one group nothing is checked."
  },
  {
   "property": "C146",
   "status": "partial",
   "theorems": [
    "Verif.Props.c146_rounding",
    "Verif.Props.c146_truncation",
    "Verif.Props.c146_step",
    "Verif.Props.c146_derivative",
    "Verif.Props.c146_pressure",
    "Verif.Props.c146_ideal",
    "Verif.Props.c146_logarithmic",
    "Verif.Props.c146_violated_absolute",
    "Verif.Props.c146_violated_line",
    "Verif.Props.c146_smallest"
   ],
   "note": "Proved with explicit numbers for the relative step of the pressure and the step in the logarithm of the fugacity coefficients, over exact real functions and correctly rounded operations (overflow left out). Violated: the consistency test of the fugacity coefficients takes a step of 1e-5 Pa at every pressure, so that at 100 to 200 bar the derivative of a straight line is off by 5e-5 to 1e-4, and at very high pressures it is zero."
  },
  {
   "property": "C147",
   "status": "proved",
   "theorems": [
    "Verif.Props.c147_own",
    "Verif.Props.c147_run",
    "Verif.Props.c147_only_own"
   ],
   "note": "Proved for every library of groups and every table of sites; entries for pairs of groups are the subject of C65 and C108."
  },
  {
   "property": "C148",
   "status": "partial",
   "theorems": [
    "Verif.Props.c148_written",
    "Verif.Props.c148_same_parameters",
    "Verif.Props.c148_refused",
    "Verif.Props.c148_reproducible_partial",
    "Verif.Props.c148_again",
    "Verif.Props.c148_violated_case",
    "Verif.Props.c148_violated_outer",
    "Verif.Props.c148_violated_lost",
    "Verif.Props.c148_violated_half"
   ],
   "note": "Every group and parameter is exported, in order. Violated (all proved): names that differ only in case are written in the order they were stored, groups are not sorted, a value JSON cannot hold destroys an existing file, and a refused library is left half sorted."
  },
  {
   "property": "C149",
   "status": "partial",
   "theorems": [
    "Verif.Props.c149_same_partial",
    "Verif.Props.c149_violated_lengths",
    "Verif.Props.c149_violated_dew"
   ],
   "note": "The same description used again gives the same data set. Violated (proved): the dictionary of weights is shared and changed, so that another data set with other states is rejected, and bubble and dew points with one dictionary lose weights."
  },
  {
   "property": "C150",
   "status": "partial",
   "theorems": [
    "Verif.Props.c150_iff",
    "Verif.Props.c150_below_partial",
    "Verif.Props.c150_moderate_partial",
    "Verif.Props.c150_positive_partial",
    "Verif.Props.c150_attraction",
    "Verif.Props.c150_bounds",
    "Verif.Props.c150_violated_exponent",
    "Verif.Props.c150_violated_pole",
    "Verif.Props.c150_violated_negative"
   ],
   "note": "Below one for exponents from 3 to 71 at all accepted densities and for all exponents up to the packing fraction 0.98; positive for exponents from 5.2 on. Violated (proved): from exponent 72 on, which the bounds reach through the double of the repulsive exponent, the energy takes values beyond every bound in both directions at accepted densities; for exponents up to five the fraction is negative near close packing."
  },
  {
   "property": "C151",
   "status": "partial",
   "theorems": [
    "Verif.Props.c151_below_partial",
    "Verif.Props.c151_positive_partial",
    "Verif.Props.c151_contact",
    "Verif.Props.c151_attraction_partial",
    "Verif.Props.c151_bounds",
    "Verif.Props.c151_violated_negative",
    "Verif.Props.c151_violated_range",
    "Verif.Props.c151_violated_pole",
    "Verif.Props.c151_violated_energy",
    "Verif.Props.c151_violated_sign",
    "Verif.Props.c151_violated_from",
    "Verif.Props.c151_below_iff",
    "Verif.Props.c151_between_iff"
   ],
   "note": "Below one for ranges up to 2.682 and positive for ranges up to 1.599 at all accepted packing fractions. Violated (proved): for ranges from 2.683 to the bound of ten the first-order energy takes values beyond every bound in both directions at accepted densities; for ranges from 1.6 to 4.64 the fraction is negative at an accepted packing fraction. So from 1.6 on every range has accepted densities at which the fraction is no packing fraction. The exact conditions are proved too: below one at all accepted packing fractions if and only if it is at 0.65, and between zero and one if and only if the range is below 1.6 and it is positive at 0.65."
  },
  {
   "property": "C152",
   "status": "partial",
   "theorems": [
    "Verif.Props.c152_threshold",
    "Verif.Props.c152_positive_partial",
    "Verif.Props.c152_accepted_partial",
    "Verif.Props.c152_correction",
    "Verif.Props.c152_violated_negative",
    "Verif.Props.c152_violated_five",
    "Verif.Props.c152_violated_state",
    "Verif.Props.c152_mie_positive"
   ],
   "note": "Positive at every state of the Mie fluid. In the square-well fluid positive for groups of one diameter and one range from 1.2 to 2 at every accepted density and every temperature from half the depth of the well on. Violated (proved): at a packing fraction of 0.3 and every range from 1.3 to 2.4 the value is negative below a temperature proportional to the depth, for instance at a fifth of it for range 1.5; the logarithm is then not a number, which the code only logs."
  },
  {
   "property": "C153",
   "status": "partial",
   "theorems": [
    "Verif.Props.c153_derivative_partial",
    "Verif.Props.c153_ranges_partial",
    "Verif.Props.c153_energy",
    "Verif.Props.c153_states_partial",
    "Verif.Props.c153_violated_derivative",
    "Verif.Props.c153_violated_state",
    "Verif.Props.c153_correction_partial",
    "Verif.Props.c153_violated_correction",
    "Verif.Props.c153_lennard_jones",
    "Verif.Props.c153_violated_lennard_jones",
    "Verif.Props.c153_violated_mie",
    "Verif.Props.c153_lennard_jones_partial",
    "Verif.Props.c153_mie_partial",
    "Verif.Props.c153_violated_hot",
    "Verif.Props.c153_exact"
   ],
   "note": "Square well: holds for ranges up to 2.682 at packing fractions up to 0.642, and up to the accepted 0.65 unless the range lies between 1.49 and 1.623; violated (proved) at 0.65 for ranges from 1.491 to 1.622. For ranges up to 2.682 it holds at all accepted packing fractions exactly if it does at 0.65 (c153_exact). Mie: the correction 1 + chi is positive for van der Waals energies from 0.1 to 1 and reduced densities up to 0.65; violated (proved): it is negative for the Lennard-Jones fluid between 0.85 and 1, and for exponents 18 and 6 the whole term is positive at the accepted packing fraction 0.8 at every temperature. For Lennard-Jones groups the whole term is negative up to twice the energies of the groups and the packing fraction 0.6, and positive (proved) at the packing fraction one half between twelve and twenty times these energies. Not proved: the sign of the whole term for other exponents at ordinary densities."
  },
  {
   "property": "C154",
   "status": "partial",
   "theorems": [
    "Verif.Props.c154_bound",
    "Verif.Props.c154_formula",
    "Verif.Props.c154_mie_partial",
    "Verif.Props.c154_packings",
    "Verif.Props.c154_quarter_partial",
    "Verif.Props.c154_violated_packing",
    "Verif.Props.c154_violated_falls",
    "Verif.Props.c154_sw_partial"
   ],
   "note": "Holds as long as the packing fraction of the groups' own diameters is below one. Violated (proved): the guard looks at the packing fraction of the pair diameters, which is smaller, by up to a factor of four; as soon as two groups of different diameters are present there are accepted densities at which the other one is above one, where a mixture takes the logarithm of a negative number and the energy of a pure fluid falls on compression. For the square-well variant see also C57."
  },
  {
   "property": "C155",
   "status": "partial",
   "theorems": [
    "Verif.Props.c155_first_partial",
    "Verif.Props.c155_violated_first",
    "Verif.Props.c155_third",
    "Verif.Props.c155_third_partial",
    "Verif.Props.c155_violated_third",
    "Verif.Props.c155_short_ranged",
    "Verif.Props.c155_violated_short_ranged",
    "Verif.Props.c155_monomer_partial",
    "Verif.Props.c155_sw_partial"
   ],
   "note": "Lennard-Jones groups: the first order is negative up to forty times the energies of the groups and the packing fraction 0.65, all orders up to twice these energies and the packing fraction 0.6. Third order, all exponents: negative when the van der Waals energies are at least 0.21. Square well: ranges up to 2.682 and packing fractions up to 0.642. Violated (proved): below half the energies of the groups the accepted packing fraction 0.8 has a positive first order; van der Waals energies up to 0.2, as for exponents 30 and 15, give a positive third order at every density; for the square well see C151 and C153. Not proved: the first order of other exponents."
  },
  {
   "property": "C156",
   "status": "partial",
   "theorems": [
    "Verif.Props.c156_heating",
    "Verif.Props.c156_subcritical",
    "Verif.Props.c156_line",
    "Verif.Props.c156_reduced",
    "Verif.Props.c156_reduced_below",
    "Verif.Props.c156_below_critical",
    "Verif.Props.c156_violated_hot"
   ],
   "note": "Proved for every pair of temperatures at which alpha has not yet passed its zero, in particular up to the critical temperature of the library. The saturation states are the exact ones; c136_found says when the search returns them. Violated (proved): for kappa above one, far above the critical temperature, where alpha rises again, heating thins the vapour and compresses the liquid."
  },
  {
   "property": "C157",
   "status": "partial",
   "theorems": [
    "Verif.Props.c157_isochore",
    "Verif.Props.c157_isobar",
    "Verif.Props.c157_gas",
    "Verif.Props.c157_attraction",
    "Verif.Props.c157_violated_hot"
   ],
   "note": "Proved as long as no alpha has passed its zero, which includes all temperatures up to the critical ones, and for interaction parameters up to one. Violated (proved): with kappa = 2, between nine and sixteen times the critical temperature, heating at half of close packing lowers the pressure, because alpha rises again."
  },
  {
   "property": "C158",
   "status": "partial",
   "theorems": [
    "Verif.Props.c158_sign",
    "Verif.Props.c158_monotone",
    "Verif.Props.c158_bracket",
    "Verif.Props.c158_violated_single",
    "Verif.Props.c158_violated_supercritical"
   ],
   "note": "Proved for every pressure at which the isotherm has three densities, which includes a range around the saturation pressure; the roots of the isotherm are exact and the solvers stay at a density that already solves the equation. Violated (proved): at a pressure with a single density both density functions return it and both objectives are exactly zero, so every such pressure looks like a bubble point, and at supercritical temperatures every pressure does."
  },
  {
   "property": "C159",
   "status": "partial",
   "theorems": [
    "Verif.Props.c159_flag",
    "Verif.Props.c159_low",
    "Verif.Props.c159_assumed",
    "Verif.Props.c159_reported",
    "Verif.Props.c159_error",
    "Verif.Props.c159_default",
    "Verif.Props.c159_default_exists",
    "Verif.Props.c159_violated_short",
    "Verif.Props.c159_violated_dense"
   ],
   "note": "Proved for isotherms without a root on the curve whose spline is asked inside its range; with the default range the error of a pure substance of the library between half and all of its critical temperature is below 4e-4 in the logarithm. Violated (proved): with options that let the curve end earlier the coefficient is wrong by any amount, and because the spline of the volume is asked at the lowest density, a fluid denser than the curve can be taken for an ideal gas when that number lies beyond the range of volumes. With two roots an ideal gas is assumed whenever the least squares fit raises an exception, whatever the vapour is."
  },
  {
   "property": "C160",
   "status": "partial",
   "theorems": [
    "Verif.Props.c160_vapor",
    "Verif.Props.c160_liquid_partial",
    "Verif.Props.c160_liquid_binary",
    "Verif.Props.c160_same",
    "Verif.Props.c160_one_substance",
    "Verif.Props.c160_names",
    "Verif.Props.c160_violated_liquid",
    "Verif.Props.c160_violated_equal"
   ],
   "note": "Proved for the vapour, exactly, and for the liquid of two components within half the tolerance, for compositions with one smallest fraction and a search for non-trivial solutions that finds a composition. Violated (proved): for a liquid of three components a guess is returned unchanged when its smallest fraction is right and the mole numbers add up to one, and one substance under two names in equal amounts raises ValueError."
  },
  {
   "property": "C161",
   "status": "partial",
   "theorems": [
    "Verif.Props.c161_flash",
    "Verif.Props.c161_raoult",
    "Verif.Props.c161_violated_one_phase"
   ],
   "note": "Proved for K-values within the range of the search (the second not below 2^-26 nor above 1e8) and not both within a millionth of one. Violated (proved): for K-values both above one, a gas, two phases are returned; the smaller K-value is replaced by random numbers and the error that is reported compares two of them."
  },
  {
   "property": "C162",
   "status": "partial",
   "theorems": [
    "Verif.Props.c162_range",
    "Verif.Props.c162_limits",
    "Verif.Props.c162_below_limit",
    "Verif.Props.c162_raoult",
    "Verif.Props.c162_violated_above_limit",
    "Verif.Props.c162_violated_start",
    "Verif.Props.c162_violated_same_composition",
    "Verif.Props.c162_violated_pure"
   ],
   "note": "Proved for all objectives that fall through zero once; the range is the good one of C98. With a lower limit above the bubble pressure the search raises, as it should. Violated (proved): a search that begins exactly at the bubble pressure, where the objective is zero, raises ValueError; and if the vapour has the composition of the liquid within the tolerance of the option xytol, as at an azeotrope, no range is found at all, whatever the limits; with an upper limit below the bubble pressure a range that does not contain it can be returned."
  },
  {
   "property": "C163",
   "status": "partial",
   "theorems": [
    "Verif.Props.c163_range",
    "Verif.Props.c163_limits",
    "Verif.Props.c163_above_limit",
    "Verif.Props.c163_raoult",
    "Verif.Props.c163_violated_low"
   ],
   "note": "Proved for all objectives that rise through zero once and a dew pressure above the lowest pressure of the search. Violated (proved): if the dew pressure is not above the lowest pressure (by default 1000 Pa, or the lowest extremum of the isotherm), the search never leaves this pressure, because both ends of the range are there, and raises ValueError after all iterations; the search for a bubble pressure goes down instead."
  },
  {
   "property": "C164",
   "status": "partial",
   "theorems": [
    "Verif.Props.c164_bubble",
    "Verif.Props.c164_bubble_loop",
    "Verif.Props.c164_bubble_batch",
    "Verif.Props.c164_dew",
    "Verif.Props.c164_violated_dew"
   ],
   "note": "The bubble point is proved from every state. The dew point is proved when no earlier calculation has left a composition. Violated (proved): otherwise the pressure is right, but the liquid composition that is returned is the one left by the calculation before. The search for the range is the modelled one of C162 and C163, the root finder is any that encloses a zero (bisection is shown to be one), and in c164_bubble_loop and c164_bubble_batch the composition loop is the modelled one of C160, and the state that one point leaves for the next is followed through a batch; for the dew point the composition loop is taken to return the composition of Raoult's law, because the coded loop may keep a wrong one (C160)."
  },
  {
   "property": "C165",
   "status": "partial",
   "theorems": [
    "Verif.Props.c165_bubble",
    "Verif.Props.c165_bubble_batch",
    "Verif.Props.c165_flash",
    "Verif.Props.c165_dew",
    "Verif.Props.c165_violated_dew",
    "Verif.Props.c165_violated_batch"
   ],
   "note": "Proved for liquids in every row of a batch, for flashes exactly, and for the first vapour of a process. Violated (proved): the coefficients of every later vapour are those of the liquid that the calculation before has left, for instance 2/3 and 2 instead of one."
  },
  {
   "property": "C166",
   "status": "proved",
   "theorems": [
    "Verif.Props.c166_accuracy",
    "Verif.Props.c166_bound",
    "Verif.Props.c166_sharp"
   ],
   "note": "The two splines (cubic for the roots, quartic for the areas) may be different functions; the spline error is a hypothesis, scipy is not modelled. The bound is reached: splines that lie epsilon above the isotherm give a pressure that is epsilon too high."
  },
  {
   "property": "C167",
   "status": "proved",
   "theorems": [
    "Verif.Props.c167_branches",
    "Verif.Props.c167_exact",
    "Verif.Props.c167_rising",
    "Verif.Props.c167_light",
    "Verif.Props.c167_dense",
    "Verif.Props.c167_far",
    "Verif.Props.c167_enough",
    "Verif.Props.c167_biased",
    "Verif.Props.c167_code"
   ],
   "note": "The spline error and the exactness of brentq are hypotheses; scipy is not modelled. A spline with more than three roots is outside the hypotheses: the search then takes the first or the third."
  },
  {
   "property": "C168",
   "status": "proved",
   "theorems": [
    "Verif.Props.c168_pressure",
    "Verif.Props.c168_relative",
    "Verif.Props.c168_sign",
    "Verif.Props.c168_density",
    "Verif.Props.c168_violated_sign"
   ],
   "note": "Rounding to nearest even with 53 digits and gradual underflow; overflow is not modelled. The parameters a and b of the mixture are the doubles that the object holds; their own rounding is not followed. A bound relative to the pressure itself does not exist: a state with a positive pressure for which a negative one is computed is shown."
  },
  {
   "property": "C169",
   "status": "partial",
   "theorems": [
    "Verif.Props.c169_light_first",
    "Verif.Props.c169_heavy_first_partial",
    "Verif.Props.c169_one_sided",
    "Verif.Props.c169_violated_order",
    "Verif.Props.c169_violated_sum",
    "Verif.Props.c169_one_sided_second"
   ],
   "note": "Proved for a light component that is listed first. Violated (proved): listed second, its liquid fraction is the difference from one of a rounded number, and the vapour fractions are off by as much as 2e-15 times its ratio: by 2e-5 at a ratio of 1e12, and completely at 2^60. A vapour of a flash can be refused as a composition, since its fractions add up to one only within rounding. Overflow is not modelled."
  },
  {
   "property": "C170",
   "status": "proved",
   "theorems": [
    "Verif.Props.c170_share",
    "Verif.Props.c170_objective",
    "Verif.Props.c170_sign",
    "Verif.Props.c170_enclosed",
    "Verif.Props.c170_new",
    "Verif.Props.c170_pure",
    "Verif.Props.c170_violated_trivial",
    "Verif.Props.c170_refused"
   ],
   "note": "Overflow is not modelled; fugacity coefficients are the doubles that the equation of state returns. The objective of two equal phases of a mixture is not exactly zero (witness proved), that of a pure component is. The enclosure is stated for any function with the error and the slope."
  },
  {
   "property": "C171",
   "status": "partial",
   "theorems": [
    "Verif.Props.inverse_apart",
    "Verif.Props.c171_arange",
    "Verif.Props.c171_regrid",
    "Verif.Props.c171_extend_once",
    "Verif.Props.c171_extend",
    "Verif.Props.c171_volumes",
    "Verif.Props.c171_default",
    "Verif.Props.c171_violated_top",
    "Verif.Props.c171_base",
    "Verif.Props.c171_point",
    "Verif.Props.c171_reaches"
   ],
   "note": "Strictly increasing volumes are proved in full for these options. The upper bound is violated: np.arange rounds the number of points, and its last point can lie above the end (8.4 mol/m3 with a lower end of half of it and an increment of 0.7); proved is that it exceeds it by at most a relative 4e-15 when the lowest density is not above the increment. Overflow is not modelled."
  },
  {
   "property": "C172",
   "status": "partial",
   "theorems": [
    "Verif.Props.c172_hot_partial",
    "Verif.Props.c172_gas",
    "Verif.Props.c172_cold",
    "Verif.Props.c172_isotherms_partial",
    "Verif.Props.c172_spheres",
    "Verif.Props.c172_violated_range",
    "Verif.Props.c172_violated_mixture",
    "Verif.Props.c172_hot_iff"
   ],
   "note": "The cold part is proved for all ranges, the hot part if the effective packing fractions are below one at the largest accepted density, as for ranges up to 2.682 diameters. For other ranges it is violated: with a range from 2.683 on, which the bounds allow up to 10, the effective packing fraction reaches one and the pressure of a fluid of spheres of that range is negative somewhere at every temperature. The same holds for mixtures of which only one pair of groups reaches one, so that the condition is exact when all groups are present (c172_hot_iff). The pressure is the derivative of the energy (C104 links it with the difference quotient of the code); the chain term is zero for spheres."
  },
  {
   "property": "C173",
   "status": "partial",
   "theorems": [
    "Verif.Props.c173_sqrt",
    "Verif.Props.c173_term",
    "Verif.Props.c173_attraction",
    "Verif.Props.c173_covolume",
    "Verif.Props.c173_relative",
    "Verif.Props.c173_order_partial",
    "Verif.Props.c173_violated_order",
    "Verif.Props.c173_pure_partial",
    "Verif.Props.c173_violated_pure",
    "Verif.Props.c173_pressure"
   ],
   "note": "The error bounds are proved in full. Independence of the order and the parameters of a pure substance hold up to these errors only: the last place changes when two components are exchanged, and the attraction of a pure substance is not exactly the product of its own parameters (witnesses). Overflow is not modelled; the parameters of the components are taken as the doubles stored in eos_dict."
  },
  {
   "property": "C174",
   "status": "proved",
   "theorems": [
    "Verif.Props.c174_ai",
    "Verif.Props.c174_bi",
    "Verif.Props.c174_kappa",
    "Verif.Props.c174_alpha",
    "Verif.Props.c174_critical",
    "Verif.Props.c174_sqrt_mono",
    "Verif.Props.c174_heating",
    "Verif.Props.c174_mixture",
    "Verif.Props.c174_pressure",
    "Verif.Props.c174_violated_zero"
   ],
   "note": "The square is the library's pow, assumed within two units (the product of the number with itself is an instance, goodSquare_mul). The bound on alpha needs the squared number to be at least one half: near its zero no relative bound holds (witness: a positive alpha is computed as zero). Overflow is not modelled."
  },
  {
   "property": "C175",
   "status": "partial",
   "theorems": [
    "Verif.Props.c175_dev",
    "Verif.Props.c175_square",
    "Verif.Props.c175_size",
    "Verif.Props.c175_sum",
    "Verif.Props.c175_average",
    "Verif.Props.c175_percent",
    "Verif.Props.c175_match",
    "Verif.Props.c175_worse",
    "Verif.Props.c175_penalty",
    "Verif.Props.c175_total",
    "Verif.Props.c175_violated_weight",
    "Verif.Props.c175_violated_penalty"
   ],
   "note": "The measures are proved in full for ordinary sizes; a tiny weight hides a mismatch (witness). The penalty is positive outside the bounds and never lowers the total, but it does not always raise it: with an objective of one, a parameter a hundred-thousandth outside a bound of one costs nothing, and the penalty itself underflows next to a bound of zero (witness). The eighth power is the library's pow, assumed within two units; overflow and sums of more than 128 numbers in blocks are not modelled."
  },
  {
   "property": "C176",
   "status": "proved",
   "theorems": [
    "Verif.Props.c176_tmp1",
    "Verif.Props.c176_tmp2",
    "Verif.Props.c176_tmp3",
    "Verif.Props.c176_attraction",
    "Verif.Props.c176_lnPhi",
    "Verif.Props.c176_phi",
    "Verif.Props.c176_violated_packing"
   ],
   "note": "The library's square, logarithm and exponential are parameters, off by at most two units. The limit of 98 % is not a matter of the proof: at a density below the densest packing Z - B can be computed as zero, and the code takes the logarithm of zero (witness). Overflow is not modelled."
  },
  {
   "property": "C177",
   "status": "proved",
   "theorems": [
    "Verif.Props.c177_phi",
    "Verif.Props.c177_objective",
    "Verif.Props.c177_sign",
    "Verif.Props.c177_new"
   ],
   "note": "The library's functions are assumed within two units. The densities are the same in the formula and in the program; errors of the density search are in C168."
  },
  {
   "property": "C178",
   "status": "partial",
   "theorems": [
    "Verif.Props.c178_length",
    "Verif.Props.c178_agree",
    "Verif.Props.c178_mie",
    "Verif.Props.c178_square_well",
    "Verif.Props.c178_grid_partial",
    "Verif.Props.c178_refused",
    "Verif.Props.c178_violated_compressed",
    "Verif.Props.c178_violated_edge",
    "Verif.Props.c178_error"
   ],
   "note": "True of SAFT-gamma-Mie. The square-well fluid refuses densities above packing fraction 0.65, where its isotherm ends, while the searches go to 0.99: a compressed square-well liquid above the isotherm is always reported as no fluid, and a density in the last percent of the isotherm ends in ValueError (both proved). That least_squares fails when its starting point is refused is a hypothesis."
  },
  {
   "property": "C179",
   "status": "partial",
   "theorems": [
    "Verif.Props.c179_accepted_partial",
    "Verif.Props.c179_refused",
    "Verif.Props.c179_exact",
    "Verif.Props.c179_long",
    "Verif.Props.c179_fitting",
    "Verif.Props.c179_violated_cubic",
    "Verif.Props.c179_violated_saft",
    "Verif.Props.c179_mixture_partial",
    "Verif.Props.c179_saft_mixture_partial",
    "Verif.Props.c179_refused_row",
    "Verif.Props.c179_row",
    "Verif.Props.c179_violated_rows",
    "Verif.Props.c179_violated_saft_rows",
    "Verif.Props.c179_refused_rows",
    "Verif.Props.c179_liquid_row",
    "Verif.Props.c179_vapor_row",
    "Verif.Props.c179_solubility_verify_row",
    "Verif.Props.c179_violated_verify",
    "Verif.Props.c179_exact_fitting"
   ],
   "note": "True for largest densities from 5004.56 to 100000 mol/m3. Below 5004.55 the array has more than the allowed million points and above 100000 the density is called infeasible; both raise ValueError. So with the cubic equation decane and heavier alkanes, and with SAFT molecules of more than 0.412 nm3 or spheres below 0.274 nm, have no density and no phase equilibrium unless the options are changed (proved). A batch of saturation calculations then has rows of NaN at every temperature, as above the critical point (proved); liquid and vapour properties are NaN too, and the test of an equation of state stops with the exception (proved). The data classes use other options, with windows from 800.1 and 3001. The number of points is given exactly, so the densities that have an isotherm are known from 250 mol/m3 on (c179_exact)."
  },
  {
   "property": "C180",
   "status": "partial",
   "theorems": [
    "Verif.Props.c180_within_partial",
    "Verif.Props.c180_exceeds",
    "Verif.Props.c180_no_solution",
    "Verif.Props.c180_unconverged",
    "Verif.Props.c180_cycle",
    "Verif.Props.c180_energy",
    "Verif.Props.c180_violated_spheres"
   ],
   "note": "True for reduced densities up to 1.125 and reduced temperatures up to 10. At a reduced density of 1.5, which the guard accepts, the strengths are negative (C127): weak ones give fractions between one and two and a positive energy, for stronger ones there is no positive solution, the loop makes all its iterations, and the fraction returned can be -1, whose logarithm is NaN (proved)."
  },
  {
   "property": "C181",
   "status": "partial",
   "theorems": [
    "Verif.Props.c181_finite_partial",
    "Verif.Props.c181_accuracy",
    "Verif.Props.c181_pressure",
    "Verif.Props.c181_pressure_accurate",
    "Verif.Props.c181_fractions",
    "Verif.Props.c181_energy",
    "Verif.Props.c181_energy_nan",
    "Verif.Props.c181_refused",
    "Verif.Props.c181_fugacity_nan",
    "Verif.Props.c181_violated_spheres",
    "Verif.Props.c181_violated_strong",
    "Verif.Props.c181_strengths",
    "Verif.Props.c181_site_sum",
    "Verif.Props.c181_correlation",
    "Verif.Props.c181_pressure_weak",
    "Verif.Props.c181_energy_within",
    "Verif.Props.c181_pressure_bonded"
   ],
   "note": "For strengths that are not negative the contribution is a non-positive number, and where the iteration converged the pressure is within R T rho^2 delta / h of the exact difference quotient, with delta of the size of the tolerance (step h). With negative strengths, which accepted densities can have (C127, C180), the residual energy is NaN without an exception and with it all fugacity coefficients returned (proved). With up to four kinds of sites of which at most 14 in 15 are bonded the iteration converges and the error of the pressure is at most 0.00035 ideal pressures per site (proved). Where 500 steps do not suffice (C62) the pressure is wrong: with 97.8 percent of the sites bonded it exceeds the pressure of the exact fractions by more than 12 rho R T at every temperature and density (proved)."
  },
  {
   "property": "C182",
   "status": "partial",
   "theorems": [
    "Verif.Props.c182_sorted",
    "Verif.Props.c182_points_partial",
    "Verif.Props.c182_unchanged",
    "Verif.Props.c182_twice",
    "Verif.Props.c182_violated_nan",
    "Verif.Props.c182_violated_short"
   ],
   "note": "Proved without NaN and with an ordinate for each abscissa. One NaN among the abscissae, or a missing ordinate, is an IndexError (proved). The function is not called in the package."
  }
 ]
}