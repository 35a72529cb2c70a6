{
 "claims": [
  {
   "property": "C01",
   "status": "proved",
   "theorems": [
    "ZkLoc.C01_decode_canonical",
    "ZkLoc.C01_decode_onto"
   ],
   "note": ""
  },
  {
   "property": "C02",
   "status": "proved",
   "theorems": [
    "ZkLoc.C02_encode_decode"
   ],
   "note": ""
  },
  {
   "property": "C03",
   "status": "proved",
   "theorems": [
    "ZkLoc.C03_decode_encode",
    "ZkLoc.C03_encode_injective"
   ],
   "note": ""
  },
  {
   "property": "C04",
   "status": "proved",
   "theorems": [
    "ZkLoc.C04_decode_value",
    "ZkLoc.C04_encode_value"
   ],
   "note": ""
  },
  {
   "property": "C05",
   "status": "proved",
   "theorems": [
    "ZkLoc.C05_loose_accepts_iff",
    "ZkLoc.C05_loose_complete",
    "ZkLoc.C05_loose_exact_iff"
   ],
   "note": ""
  },
  {
   "property": "C06",
   "status": "proved",
   "theorems": [
    "ZkLoc.C06_unknown_exact",
    "ZkLoc.C06_unknown_complete"
   ],
   "note": ""
  },
  {
   "property": "C07",
   "status": "proved",
   "theorems": [
    "ZkLoc.C07_smallAbs_accepts_iff",
    "ZkLoc.C07_smallAbs_exact_on_small",
    "ZkLoc.C07_smallAbs_complete",
    "ZkLoc.C07_smallAbs_accepts_fraction"
   ],
   "note": ""
  },
  {
   "property": "C08",
   "status": "proved",
   "theorems": [
    "ZkLoc.C08_deferred_equals_immediate",
    "ZkLoc.C08_deferred_equals_immediate_honest",
    "ZkLoc.C08_commit_enforces_all",
    "ZkLoc.C08_order_independent",
    "ZkLoc.C08_commit_twice",
    "ZkLoc.C08_check_after_commit_refused",
    "ZkLoc.C08_check_records"
   ],
   "note": ""
  },
  {
   "property": "C09",
   "status": "proved",
   "theorems": [
    "ZkLoc.C09_optimalWidth",
    "ZkLoc.C09_getOptimalBasewidth"
   ],
   "note": ""
  },
  {
   "property": "C10",
   "status": "proved",
   "theorems": [
    "ZkLoc.C10_counters_exact",
    "ZkLoc.C10_counters_empty",
    "ZkLoc.C10_counters_of_shape"
   ],
   "note": ""
  },
  {
   "property": "C11",
   "status": "proved",
   "theorems": [
    "ZkLoc.C11_abs_complete",
    "ZkLoc.C11_abs_sound",
    "ZkLoc.C11_abs_zero",
    "ZkLoc.C11_abs_rejects",
    "ZkLoc.C11_isPositive_complete",
    "ZkLoc.C11_isPositive_sound"
   ],
   "note": "Includes the exception at 0, stated exactly, and rejection of oversized inputs."
  },
  {
   "property": "C12",
   "status": "proved",
   "theorems": [
    "ZkLoc.C12_max",
    "ZkLoc.C12_min"
   ],
   "note": ""
  },
  {
   "property": "C13",
   "status": "proved",
   "theorems": [
    "ZkLoc.C13_pow2_complete",
    "ZkLoc.C13_pow2_sound_of_dvd",
    "ZkLoc.C13_pow2_accepted_set",
    "ZkLoc.C13_pow2_rejects",
    "ZkLoc.C13_pow2_unsound"
   ],
   "note": "Sound at table widths dividing the lookup size; at the other widths the accepted set is proved exactly and shown to contain wrong answers."
  },
  {
   "property": "C14",
   "status": "proved",
   "theorems": [
    "ZkLoc.C14_newFloat_exact",
    "ZkLoc.C14_newFloat_complete",
    "ZkLoc.C14_newFloat_encodes"
   ],
   "note": ""
  },
  {
   "property": "C15",
   "status": "proved",
   "theorems": [
    "ZkLoc.C15_add_complete",
    "ZkLoc.C15_add_top_cancel_gives_inf",
    "ZkLoc.C15_add_violated"
   ],
   "note": "With the top-binade cancellation exception of the code, proved to occur."
  },
  {
   "property": "C16",
   "status": "partial",
   "theorems": [
    "ZkLoc.C16_add_every_width",
    "ZkLoc.C16_add_every_width_reachable",
    "ZkLoc.C16_add_sound_partial",
    "ZkLoc.C16_add_exact_partial",
    "ZkLoc.C16_add_zero_sign_forgeable",
    "ZkLoc.C16_add_overflow_forgeable"
   ],
   "note": "Exact outcome set for table widths dividing M+E+1; at every width the only further outcome is a malformed record with zero significand that equals no allocated float. As first stated (IEEE sum only) the claim is violated: zero sign, top-binade cancellation and overflow records, each proved to occur."
  },
  {
   "property": "C17",
   "status": "partial",
   "theorems": [
    "ZkLoc.C17_sub_every_width",
    "ZkLoc.C17_sub_complete",
    "ZkLoc.C17_sub_top_self_gives_inf",
    "ZkLoc.C17_sub_sound_partial"
   ],
   "note": "As C16, through x - y = x + (-y)."
  },
  {
   "property": "C18",
   "status": "proved",
   "theorems": [
    "ZkLoc.C18_mul_complete"
   ],
   "note": ""
  },
  {
   "property": "C19",
   "status": "partial",
   "theorems": [
    "ZkLoc.C19_mul_every_width",
    "ZkLoc.C19_mul_sound_partial",
    "ZkLoc.C19_mul_exact_partial",
    "ZkLoc.C19_mul_overflow_forgeable"
   ],
   "note": "Exact outcome set for widths dividing M+E+1 (IEEE product or overflow record); at every width additionally only zero or NaN, proved to occur under the automatic width (C41 forgeries)."
  },
  {
   "property": "C20",
   "status": "proved",
   "theorems": [
    "ZkLoc.C20_div_complete"
   ],
   "note": ""
  },
  {
   "property": "C21",
   "status": "partial",
   "theorems": [
    "ZkLoc.C21_div_every_width",
    "ZkLoc.C21_div_sound_partial",
    "ZkLoc.C21_div_exact_partial",
    "ZkLoc.C21_div_overflow_forgeable"
   ],
   "note": "Exact outcome set for widths dividing M+E+1 (IEEE quotient or overflow record); at every width additionally only zero or NaN, proved to occur under the automatic width (C41 forgeries)."
  },
  {
   "property": "C22",
   "status": "proved",
   "theorems": [
    "ZkLoc.C22_sqrt_complete"
   ],
   "note": ""
  },
  {
   "property": "C23",
   "status": "partial",
   "theorems": [
    "ZkLoc.C23_sqrt_every_width",
    "ZkLoc.C23_sqrt_deterministic",
    "ZkLoc.C23_sqrt_vanished_forgeable",
    "ZkLoc.C23_sqrt_sound_partial",
    "ZkLoc.C23_sqrt_deterministic_partial"
   ],
   "note": "Unique result for widths dividing M+E+1 and for the automatic double-precision widths 5 and 6; at every width the only further outcome is a malformed record with zero significand, proved to occur at width 12."
  },
  {
   "property": "C24",
   "status": "proved",
   "theorems": [
    "ZkLoc.C24_isLt",
    "ZkLoc.C24_isLe",
    "ZkLoc.C24_isGt",
    "ZkLoc.C24_isGe"
   ],
   "note": ""
  },
  {
   "property": "C25",
   "status": "proved",
   "theorems": [
    "ZkLoc.C25_boolean",
    "ZkLoc.C25_total",
    "ZkLoc.C25_trichotomy",
    "ZkLoc.C25_lt_trans",
    "ZkLoc.C25_le_trans",
    "ZkLoc.C25_nan"
   ],
   "note": ""
  },
  {
   "property": "C26",
   "status": "partial",
   "theorems": [
    "ZkLoc.C26_trunc_every_width",
    "ZkLoc.C26_floor_every_width",
    "ZkLoc.C26_ceil_every_width",
    "ZkLoc.C26_trunc_complete",
    "ZkLoc.C26_floor_complete",
    "ZkLoc.C26_ceil_complete",
    "ZkLoc.C26_trunc_exact_partial",
    "ZkLoc.C26_floor_exact_partial",
    "ZkLoc.C26_ceil_exact_partial",
    "ZkLoc.C26_sound_partial",
    "ZkLoc.C26_floor_forgeable"
   ],
   "note": "Honest prover: every width. Every prover: exact at every width up to records that equal no allocated float. As stated the claim holds at widths dividing M+E+1; at other widths Floor and Ceil additionally yield zero for the numbers that a dishonest lookup answer divides (for example 2^e + 2^-11 in double precision), which is part of the exact statement."
  },
  {
   "property": "C27",
   "status": "proved",
   "theorems": [
    "ZkLoc.C27_toInt_every_width",
    "ZkLoc.C27_toInt_forgeable_every_width",
    "ZkLoc.C27_toInt_complete",
    "ZkLoc.C27_toInt_sound_of_dvd",
    "ZkLoc.C27_toInt_integral_of_dvd",
    "ZkLoc.C27_toInt_rejects_large",
    "ZkLoc.C27_toInt_rejects_small_of_dvd",
    "ZkLoc.C27_toInt_forgeable_width12"
   ],
   "note": "Honest prover and rejection of large inputs at every width; soundness at widths dividing M+E+1; the exact set of answers at every width, and a wrong one for every non-zero integer of at most M+E digits at every width that does not divide."
  },
  {
   "property": "C28",
   "status": "proved",
   "theorems": [
    "ZkLoc.C28_assertIsEqual"
   ],
   "note": ""
  },
  {
   "property": "C29",
   "status": "proved",
   "theorems": [
    "ZkLoc.C29_assertIsEqualOrULP",
    "ZkLoc.C29_rejects_adjacent_subnormals"
   ],
   "note": ""
  },
  {
   "property": "C30",
   "status": "partial",
   "theorems": [
    "ZkLoc.C30_customULP_honest",
    "ZkLoc.C30_customULP_exact_partial",
    "ZkLoc.C30_tolerance_is_absolute",
    "ZkLoc.C30_customULP_every_width",
    "ZkLoc.C30_customULP_forgeable"
   ],
   "note": "Honest acceptance exact for every width; every-prover acceptance exact for widths dividing M+E+1; at every width at most twice the tolerance is accepted beyond it, and that excess is proved to occur at width 9."
  },
  {
   "property": "C31",
   "status": "partial",
   "theorems": [
    "ZkLoc.C31_expr_complete",
    "ZkLoc.C31_value_unique",
    "ZkLoc.C31_expr_ieee_partial",
    "ZkLoc.C31_expr_sound_partial",
    "ZkLoc.C31_expr_violated",
    "ZkLoc.C31_expr_sound_every_width_partial",
    "ZkLoc.C31_firm_of_dvd"
   ],
   "note": "Honest prover: every expression succeeds with canonical results; IEEE value unless operands of the top binade cancel (the code then yields +Inf, proved). Every prover: IEEE value for widths dividing M+E+1 as long as no operation meets a case where the prover has a choice. At every other width the same holds if moreover no significand met in the evaluation is divisible by the odd part of a dishonest lookup answer (C31_expr_sound_every_width_partial); without that condition single operations are forgeable (C16, C19, C21, C23)."
  },
  {
   "property": "C32",
   "status": "proved",
   "theorems": [
    "ZkLoc.C32_expr_independent",
    "ZkLoc.C32_compare_independent",
    "ZkLoc.C32_outcomes_independent_partial"
   ],
   "note": "Honest results and comparisons for every field and width; sets of results reachable by dishonest provers for widths dividing M+E+1."
  },
  {
   "property": "C33",
   "status": "proved",
   "theorems": [
    "ZkLoc.C33_eval_reverse",
    "ZkLoc.C33_evalK_expr",
    "ZkLoc.C33_evalK_value",
    "ZkLoc.C33_order_matters",
    "ZkLoc.C33_evalK_two_violated",
    "ZkLoc.C33_evalK_zero"
   ],
   "note": ""
  },
  {
   "property": "C34",
   "status": "proved",
   "theorems": [
    "ZkLoc.C34_constants32",
    "ZkLoc.C34_constants64",
    "ZkLoc.C34_constants_pi",
    "ZkLoc.C34_denominators",
    "ZkLoc.C34_atan_odd",
    "ZkLoc.C34_atan_odd_run",
    "ZkLoc.C34_sin_sign",
    "ZkLoc.C34_sin_odd",
    "ZkLoc.C34_sin_odd_violated",
    "ZkLoc.C34_sin_above_pi_violated",
    "ZkLoc.C34_atan_zero_violated",
    "ZkLoc.C34_atan_special_violated",
    "ZkLoc.C34_atan2_axis_violated"
   ],
   "note": ""
  },
  {
   "property": "C35",
   "status": "proved",
   "theorems": [
    "ZkLoc.C35_resolution_bounded",
    "ZkLoc.C35_scale_sound32",
    "ZkLoc.C35_scale_sound64",
    "ZkLoc.C35_scale_complete32",
    "ZkLoc.C35_scale_complete64",
    "ZkLoc.C35_square_and_multiply"
   ],
   "note": ""
  },
  {
   "property": "C36",
   "status": "proved",
   "theorems": [
    "ZkLoc.C36_closest_sound",
    "ZkLoc.C36_closest_complete",
    "ZkLoc.C36_first_minimum",
    "ZkLoc.C36_tables"
   ],
   "note": ""
  },
  {
   "property": "C37",
   "status": "proved",
   "theorems": [
    "ZkLoc.C37_normalize_every_prover",
    "ZkLoc.C37_normalize_complete"
   ],
   "note": ""
  },
  {
   "property": "C38",
   "status": "partial",
   "theorems": [
    "ZkLoc.C38_hex_complete",
    "ZkLoc.C38_hex_sound_partial",
    "ZkLoc.C38_constants",
    "ZkLoc.C38_cell_forgeable",
    "ZkLoc.C38_negative_zero_differs"
   ],
   "note": "Honest prover: exactly H3 in the arithmetic of the format, every width. Every prover at widths dividing M+E+1: H3's cell, or the variants with an integral part 0 for a skewed coordinate in [1,2); a wrong cell accepted that way is proved, as is the deviation for negative zero."
  },
  {
   "property": "C39",
   "status": "proved",
   "theorems": [
    "ZkLoc.C39_inputs_exact",
    "ZkLoc.C39_upper_bounds",
    "ZkLoc.C39_nan_passes",
    "ZkLoc.C39_no_lower_bound"
   ],
   "note": "The accepted inputs are characterised exactly at every width; only upper bounds are checked, NaN and everything below the lower bounds is proved to pass."
  },
  {
   "property": "C40",
   "status": "partial",
   "theorems": [
    "ZkLoc.C40_width32",
    "ZkLoc.C40_width64",
    "ZkLoc.C40_width_wrapper32",
    "ZkLoc.C40_every_location_accepted32",
    "ZkLoc.C40_every_location_accepted64",
    "ZkLoc.C40_wrapper_two_cells32",
    "ZkLoc.C40_precompute_free",
    "ZkLoc.C40_precompute32_exact",
    "ZkLoc.C40_not_bound32",
    "ZkLoc.C40_precompute64_exact",
    "ZkLoc.C40_not_bound64"
   ],
   "note": "The claim is violated by the code. Proved instead: the exact meaning of acceptance in both precisions at every width (range check of the location and, independently of it, a claimable cell); under every back-end at the automatically chosen widths 9/11 one and the same cell is accepted for every in-range location; the circuit with its own trigonometry accepts two cells for one location."
  },
  {
   "property": "C41",
   "status": "proved",
   "theorems": [
    "ZkLoc.C41_sqrt",
    "ZkLoc.C41_trunc",
    "ZkLoc.C41_add",
    "ZkLoc.C41_sub",
    "ZkLoc.C41_mul_div_bounded",
    "ZkLoc.C41_f32_add_sub",
    "ZkLoc.C41_f64_add_sub",
    "ZkLoc.C41_f64_sqrt_trunc",
    "ZkLoc.C41_comparison_auto",
    "ZkLoc.C41_allocation_auto",
    "ZkLoc.C41_mul_of_dvd",
    "ZkLoc.C41_div_of_dvd",
    "ZkLoc.C41_sqrt_of_dvd",
    "ZkLoc.C41_add_of_dvd",
    "ZkLoc.C41_sub_of_dvd",
    "ZkLoc.C41_honest",
    "ZkLoc.C41_honest_add",
    "ZkLoc.C41_trunc_of_dvd",
    "ZkLoc.C41_floor_of_dvd",
    "ZkLoc.C41_ceil_of_dvd",
    "ZkLoc.C41_comparison",
    "ZkLoc.C41_allocation",
    "ZkLoc.C41_conversion_trunc_of_dvd",
    "ZkLoc.C41_conversion_floor_of_dvd",
    "ZkLoc.C41_conversion_ceil_of_dvd",
    "ZkLoc.C41_f32_mul_r1cs",
    "ZkLoc.C41_f32_add_r1cs",
    "ZkLoc.C41_f32_sub_r1cs",
    "ZkLoc.C41_f32_sqrt",
    "ZkLoc.C41_f32_integral",
    "ZkLoc.C41_f32_conversion",
    "ZkLoc.C41_conversion_floor",
    "ZkLoc.C41_conversion_ceil",
    "ZkLoc.C41_f64_conversion_floor_ceil",
    "ZkLoc.C41_f64_conversion_forgeable_family",
    "ZkLoc.C41_floor",
    "ZkLoc.C41_ceil",
    "ZkLoc.C41_f64_floor_ceil",
    "ZkLoc.C41_f64_floor_forgeable_family",
    "ZkLoc.C41_mul",
    "ZkLoc.C41_div",
    "ZkLoc.C41_mul_div_auto",
    "ZkLoc.C41_conversion_trunc",
    "ZkLoc.C41_f64_conversion_trunc",
    "ZkLoc.C41_f64_conversion_r1cs",
    "ZkLoc.C41_f64_mul_forgeable",
    "ZkLoc.C41_f32_mul_forgeable",
    "ZkLoc.C41_f32_div_forgeable",
    "ZkLoc.C41_f64_div_forgeable",
    "ZkLoc.C41_f64_floor_forgeable",
    "ZkLoc.C41_f64_conversion_forgeable"
   ],
   "note": "Exact accepted sets at every width and, end-to-end under every back-end, at the selected widths: Add, Sub, Mul, Div, Sqrt, Trunc, Floor, Ceil, comparisons, allocation, conversion after Trunc, Floor and Ceil. The exceptions are part of the statements and proved to occur."
  },
  {
   "property": "C42",
   "status": "proved",
   "theorems": [
    "ZkLoc.C42_neg",
    "ZkLoc.C42_abs",
    "ZkLoc.C42_laws",
    "ZkLoc.C42_select",
    "ZkLoc.C42_select_not_boolean"
   ],
   "note": ""
  },
  {
   "property": "C43",
   "status": "proved",
   "theorems": [
    "ZkLoc.C43_add_comm",
    "ZkLoc.C43_mul_comm",
    "ZkLoc.C43_mul_comm_every_prover_partial",
    "ZkLoc.C43_mul_comm_every_width",
    "ZkLoc.C43_add_comm_every_prover_partial",
    "ZkLoc.C43_sub_swap",
    "ZkLoc.C43_mul_one",
    "ZkLoc.C43_div_one",
    "ZkLoc.C43_add_zero",
    "ZkLoc.C43_neg_mul",
    "ZkLoc.C43_neg_div",
    "ZkLoc.C43_double",
    "ZkLoc.C43_div_self",
    "ZkLoc.C43_add_mono",
    "ZkLoc.C43_sqrt_mono",
    "ZkLoc.C43_exceptions"
   ],
   "note": "Laws for the honest prover, commutativity also for every prover; exceptions proved to occur."
  },
  {
   "property": "C44",
   "status": "proved",
   "theorems": [
    "ZkLoc.C44_tables_rounded",
    "ZkLoc.C44_scalars_rounded",
    "ZkLoc.C44_trig_accurate",
    "ZkLoc.C44_centres_consistent",
    "ZkLoc.C44_real_constants",
    "ZkLoc.C44_icosahedron",
    "ZkLoc.C44_rotation"
   ],
   "note": ""
  },
  {
   "property": "C45",
   "status": "partial",
   "theorems": [
    "ZkLoc.C45_cell_correct",
    "ZkLoc.C45_cell_complete",
    "ZkLoc.C45_cell_sound_partial",
    "ZkLoc.C45_cell_sound_away",
    "ZkLoc.C45_constants",
    "ZkLoc.C45_cell_numbers",
    "ZkLoc.C45_cell_numbers_sound_partial"
   ],
   "note": "Proved for the honest prover at every width, from floats near the sines and cosines on. For other provers, at widths dividing the lookup size, the same holds unless a plane coordinate is between one and two, where the neighbouring cell is accepted too (finding, see C38). How near SinTaylor comes to the sine is not part of this property. At other widths the claim is violated by the code (C48_far_cell32)."
  },
  {
   "property": "C46",
   "status": "partial",
   "theorems": [
    "ZkLoc.C46_centre_unprovable32"
   ],
   "note": "The property is violated: the negation is proved for 28.2N 23.0E. C45_cell_complete shows that locations farther than 20 tau from the face centres are provable."
  },
  {
   "property": "C47",
   "status": "proved",
   "theorems": [
    "ZkLoc.C47_sin_accuracy",
    "ZkLoc.C47_sin_accuracy_sound",
    "ZkLoc.C47_constants"
   ],
   "note": "For arbitrary provers at table widths that divide the lookup size."
  },
  {
   "property": "C48",
   "status": "partial",
   "theorems": [
    "ZkLoc.C48_location_numbers32",
    "ZkLoc.C48_location_numbers_sound32_partial",
    "ZkLoc.C48_far_cell32",
    "ZkLoc.C48_location_correct32",
    "ZkLoc.C48_location_complete32",
    "ZkLoc.C48_location_sound32_partial",
    "ZkLoc.C48_location_sound32_away"
   ],
   "note": "Proved in full for the honest prover at every width. For arbitrary provers, at widths dividing the lookup size, the exact cell is proved away from the plane coordinates between one and two, and the cell or a neighbour everywhere (the code does not enforce more, see C38, C41). At the width 9 that every back-end chooses the claim for arbitrary provers is violated by the code: C48_far_cell32 exhibits, at every resolution, an accepted cell that is far from every location."
  },
  {
   "property": "C49",
   "status": "proved",
   "theorems": [
    "ZkLoc.C49_precompute_numbers32",
    "ZkLoc.C49_precompute_numbers64",
    "ZkLoc.C49_precompute_correct32",
    "ZkLoc.C49_precompute_correct64"
   ],
   "note": "Honest prover; that other provers are not bound to the location at all is C40. The sine and cosine of the Go library are not modelled: their accuracy is a hypothesis."
  },
  {
   "property": "C50",
   "status": "proved",
   "theorems": [
    "ZkLoc.C50_atan_accuracy32",
    "ZkLoc.C50_atan_accuracy32_sound",
    "ZkLoc.C50_atan_accuracy64",
    "ZkLoc.C50_atan_accuracy64_sound"
   ],
   "note": "For arbitrary provers at table widths that divide the lookup size."
  },
  {
   "property": "C51",
   "status": "partial",
   "theorems": [
    "ZkLoc.C51_atan2_accuracy_partial",
    "ZkLoc.C51_atan2_accuracy_sound_partial",
    "ZkLoc.C51_atan2_axis_violated",
    "ZkLoc.C51_atan2_overflow_violated",
    "ZkLoc.C51_atan2_left_violated"
   ],
   "note": "Accuracy proved wherever x is not zero and the quotient does not overflow, with the IEEE side on the negative axis. On the rest the code is wrong, which is proved: nothing that encodes a number for every y at x = +0 (every prover) and for overflowing quotients (honest prover), and pi * 2^968 to the left."
  },
  {
   "property": "C52",
   "status": "partial",
   "theorems": [
    "ZkLoc.Text.C52_hex_roundtrip",
    "ZkLoc.Text.C52_hexToFloat",
    "ZkLoc.Text.C52_hexToFloat32",
    "ZkLoc.Text.C52_line_injective",
    "ZkLoc.Text.C52_float32_files_unreadable"
   ],
   "note": "The part about files written with useFloat32 is false and its negation is proved."
  },
  {
   "property": "C53",
   "status": "partial",
   "theorems": [
    "ZkLoc.Text.C53_hex_bytes",
    "ZkLoc.Text.C53_hex_roundtrip",
    "ZkLoc.Text.C53_malformed_truncated",
    "ZkLoc.Text.C53_bytes",
    "ZkLoc.Text.C53_plain_injective"
   ],
   "note": "The part about malformed text is false: it is truncated, which is proved."
  },
  {
   "property": "C54",
   "status": "proved",
   "theorems": [
    "ZkLoc.Text.C54_parse_print",
    "ZkLoc.Text.C54_negative_rejected"
   ],
   "note": ""
  },
  {
   "property": "C55",
   "status": "partial",
   "theorems": [
    "ZkLoc.Text.C55_parse_numbers",
    "ZkLoc.Text.C55_parse_print_partial",
    "ZkLoc.Text.C55_latitude_sign_dropped",
    "ZkLoc.Text.C55_west_misaligned",
    "ZkLoc.Text.C55_southwest_empty"
   ],
   "note": "False as stated: proved for coordinates without sign; the loss of signs and the misalignment for negative longitudes are proved, and what is found in general."
  },
  {
   "property": "C56",
   "status": "partial",
   "theorems": [
    "ZkLoc.Text.C56_closest_is_minimum",
    "ZkLoc.Text.C56_closest_point",
    "ZkLoc.Text.C56_empty_boundary"
   ],
   "note": "False for an empty boundary, which is proved; otherwise proved."
  },
  {
   "property": "C57",
   "status": "proved",
   "theorems": [
    "ZkLoc.Text.C57_haversine",
    "ZkLoc.Text.C57_haversine_symm",
    "ZkLoc.Text.C57_haversine_bounds"
   ],
   "note": ""
  },
  {
   "property": "C58",
   "status": "proved",
   "theorems": [
    "ZkLoc.C58_counter_grows",
    "ZkLoc.C58_published_counts",
    "ZkLoc.C58_repeated",
    "ZkLoc.C58_measured_satisfiable"
   ],
   "note": "Lookup query and table counts; gnark's native constraint count is outside the model."
  },
  {
   "property": "C59",
   "status": "partial",
   "theorems": [
    "ZkLoc.C59_width_atan64",
    "ZkLoc.C59_width_sin64",
    "ZkLoc.C59_width_atan32Ulp",
    "ZkLoc.C59_width_atan64Ulp",
    "ZkLoc.C59_width_sin64Ulp",
    "ZkLoc.C59_width_degTen",
    "ZkLoc.C59_width_poly",
    "ZkLoc.C59_atan64_sound",
    "ZkLoc.C59_atan64_complete",
    "ZkLoc.C59_sin64_sound",
    "ZkLoc.C59_sin64_complete",
    "ZkLoc.C59_sign_ignored",
    "ZkLoc.C59_atan64_negative",
    "ZkLoc.C59_atan32Ulp_sound",
    "ZkLoc.C59_atan64Ulp_sound",
    "ZkLoc.C59_sin64Ulp_sound",
    "ZkLoc.C59_ulp_of_exact",
    "ZkLoc.C59_ulp_ignores",
    "ZkLoc.C59_ulp_binade_rejected",
    "ZkLoc.C59_poly_forgeable_r1cs",
    "ZkLoc.C59_poly_forgeable_scs",
    "ZkLoc.C59_degTen_vectors_rejected"
   ],
   "note": "Magnitudes only: the sign of the output is proved to be ignored, the bounds' exponents too; the cubic polynomial circuit is proved forgeable, the degree-ten test vectors proved unsatisfiable. Sine and arc tangent circuits sound and complete up to the stated errors."
  },
  {
   "property": "C60",
   "status": "partial",
   "theorems": [
    "ZkLoc.Bench.C60_plonk_file",
    "ZkLoc.Bench.C60_plonk_memory",
    "ZkLoc.Bench.C60_groth16_file_partial",
    "ZkLoc.Bench.C60_groth16_loop_partial",
    "ZkLoc.Bench.C60_groth16_memory_partial",
    "ZkLoc.Bench.C60_groth16_rejected_proof_recorded",
    "ZkLoc.Bench.C60_witness_error"
   ],
   "note": "Proved for PLONK. Violated by the code for Groth16 (error of Verify dropped; proved with a witness); the partial theorem gives what a reported success does imply."
  },
  {
   "property": "C61",
   "status": "proved",
   "theorems": [
    "ZkLoc.Bench.C61_row",
    "ZkLoc.Bench.C61_row_injective",
    "ZkLoc.Bench.C61_file_rows",
    "ZkLoc.Bench.C61_file_header"
   ],
   "note": ""
  },
  {
   "property": "C62",
   "status": "proved",
   "theorems": [
    "ZkLoc.Bench.C62_index",
    "ZkLoc.Bench.C62_length",
    "ZkLoc.Bench.C62_distinct"
   ],
   "note": ""
  },
  {
   "property": "C63",
   "status": "partial",
   "theorems": [
    "ZkLoc.Bench.C63_setString",
    "ZkLoc.Bench.C63_roundtrip",
    "ZkLoc.Bench.C63_hexcells_unreadable"
   ],
   "note": "Round trip proved for the generator's format; the files of WriteHexCellsToFile are proved unreadable by the same reader."
  },
  {
   "property": "C64",
   "status": "partial",
   "theorems": [
    "ZkLoc.Bench.C64_table_exact",
    "ZkLoc.Bench.C64_unmatched_log_green",
    "ZkLoc.Bench.C64_double_precision_row_always_green",
    "ZkLoc.Bench.C64_go_log",
    "ZkLoc.Bench.C64_go_table"
   ],
   "note": "Exact when the searched name occurs in the log; violated for the double-precision row, proved always green."
  },
  {
   "property": "C65",
   "status": "proved",
   "theorems": [
    "ZkLoc.Bench.C65_parse_index",
    "ZkLoc.Bench.C65_index_word",
    "ZkLoc.Bench.C65_parse_centre"
   ],
   "note": ""
  },
  {
   "property": "C66",
   "status": "proved",
   "theorems": [
    "ZkLoc.Convert.C66_scaled_error",
    "ZkLoc.Convert.C66_scaled_roundtrip",
    "ZkLoc.Convert.C66_scaled_strictMono",
    "ZkLoc.Convert.C66_scaled_collision",
    "ZkLoc.Convert.C66_degrees_error",
    "ZkLoc.Convert.C66_radians_error",
    "ZkLoc.Convert.C66_degrees_roundtrip",
    "ZkLoc.Convert.C66_functions"
   ],
   "note": "Bounds on the inputs are part of the statement; beyond 53 bits a collision is proved."
  },
  {
   "property": "C67",
   "status": "partial",
   "theorems": [
    "ZkLoc.Vectors.C67_unary_row",
    "ZkLoc.Vectors.C67_binary_row",
    "ZkLoc.Vectors.C67_comparison_row",
    "ZkLoc.Vectors.C67_allocation_row",
    "ZkLoc.Vectors.C67_conversion_row",
    "ZkLoc.Vectors.C67_unary_test",
    "ZkLoc.Vectors.C67_binary_test",
    "ZkLoc.Vectors.C67_comparison_test",
    "ZkLoc.Vectors.C67_conversion_test",
    "ZkLoc.Vectors.C67_allocation_test",
    "ZkLoc.Vectors.C67_greater_untested",
    "ZkLoc.Vectors.C67_cancellation_fails",
    "ZkLoc.Vectors.C67_repository_rows_fail"
   ],
   "note": "Exact conditions proved for every table; the statement is false for top-binade cancellation (the repository's own rows fail) and for IsGt/IsGe (tables missing), both proved."
  },
  {
   "property": "C68",
   "status": "partial",
   "theorems": [
    "ZkLoc.Remez.C68_bisection",
    "ZkLoc.Remez.C68_concave_max",
    "ZkLoc.Remez.C68_chebyshev_points",
    "ZkLoc.Remez.C68_round_ordered",
    "ZkLoc.Remez.C68_system",
    "ZkLoc.Remez.C68_separating_zeros",
    "ZkLoc.Remez.C68_levelled_lower_bound",
    "ZkLoc.Remez.C68_remez_total",
    "ZkLoc.Remez.C68_remez_equioscillates",
    "ZkLoc.Remez.C68_stop_near_best",
    "ZkLoc.Remez.C68_printed_error"
   ],
   "note": "Proved in exact real arithmetic (numpy's doubles are not modelled). The claim about the printed maximum is false: the mean is printed. Near-optimality is relative to the extremums found, not to the whole interval."
  },
  {
   "property": "C69",
   "status": "partial",
   "theorems": [
    "ZkLoc.Vectors.C69_atan_row",
    "ZkLoc.Vectors.C69_atanUlp_row",
    "ZkLoc.Vectors.C69_sinUlp_row",
    "ZkLoc.Vectors.C69_negative_row_fails",
    "ZkLoc.Vectors.C69_negative_rows_fail",
    "ZkLoc.Vectors.C69_sin_first_line",
    "ZkLoc.Vectors.C69_repository_ulp_rows_fail",
    "ZkLoc.Vectors.C69_repository_rows_fail"
   ],
   "note": "Passing rows are proved accurate and the exact test is shown satisfiable for every finite arc tangent input; that correct rows pass is false, and the failing families and repository rows are proved."
  },
  {
   "property": "C70",
   "status": "partial",
   "theorems": [
    "ZkLoc.Vectors.C70_repository_row_fails32",
    "ZkLoc.Vectors.C70_repository_row_right32",
    "ZkLoc.Vectors.C70_row32",
    "ZkLoc.Vectors.C70_row64",
    "ZkLoc.Vectors.C70_functional32",
    "ZkLoc.Vectors.C70_functional64",
    "ZkLoc.Vectors.C70_forgeable32",
    "ZkLoc.Vectors.C70_forgeable64",
    "ZkLoc.Vectors.C70_range",
    "ZkLoc.Vectors.C70_program"
   ],
   "note": "Passing rows are proved right and functional; that right rows pass and that passing implies soundness is false, proved on the repository's own lines 139-144 and for every passing row."
  },
  {
   "property": "C71",
   "status": "partial",
   "theorems": [
    "ZkLoc.TableGen.C71_row_brackets_partial",
    "ZkLoc.TableGen.C71_double_output",
    "ZkLoc.TableGen.C71_single_sine_arbitrary",
    "ZkLoc.TableGen.C71_single_sine_contradiction"
   ],
   "note": "Proved for double precision and for drawn singles, for every function; false for other single precision rows, proved for every listed input from 2^28 to 9e9. The library sine and arc tangent are taken as correctly rounded."
  },
  {
   "property": "C72",
   "status": "partial",
   "theorems": [
    "ZkLoc.TableGen.C72_printed_is_a_quarter",
    "ZkLoc.TableGen.C72_printed_too_small",
    "ZkLoc.TableGen.C72_printed_partial",
    "ZkLoc.TableGen.C72_own_values",
    "ZkLoc.TableGen.C72_own_exponent"
   ],
   "note": "The claim is false for all unequal significands (proved with the exact relation); what holds is proved."
  },
  {
   "property": "C73",
   "status": "proved",
   "theorems": [
    "ZkLoc.TableGen.C73_factor",
    "ZkLoc.TableGen.C73_row_count",
    "ZkLoc.TableGen.C73_rows",
    "ZkLoc.TableGen.C73_in_cell"
   ],
   "note": "Exact arithmetic; the H3 programs are parameters."
  },
  {
   "property": "C74",
   "status": "proved",
   "theorems": [
    "ZkLoc.Hints.C74_hint_near64",
    "ZkLoc.Hints.C74_hint_near32",
    "ZkLoc.Hints.C74_location_correct64",
    "ZkLoc.Hints.C74_location_correct32",
    "ZkLoc.Hints.C74_checks_pass32",
    "ZkLoc.Hints.C74_location_complete32",
    "ZkLoc.Hints.C74_correctly_rounded_accurate",
    "ZkLoc.Hints.C74_hint_exists64",
    "ZkLoc.Hints.C74_hint_exists32",
    "ZkLoc.Hints.C74_libm_exists"
   ],
   "note": "The Go library's sine, cosine and tangent are a parameter with a stated accuracy; that the library has it is not proved."
  },
  {
   "property": "C75",
   "status": "partial",
   "theorems": [
    "ZkLoc.Hints.C75_checks_exact64",
    "ZkLoc.Hints.C75_location_complete64_partial",
    "ZkLoc.Hints.C75_location_complete_rounded64_partial",
    "ZkLoc.Hints.C75_lng_check_fails64"
   ],
   "note": "The claim is false for some longitudes (proved with a witness); completeness is proved under the exact condition, for every angle with a correctly rounded library, and for angles that are zero or not below 2^-100 with other libraries."
  },
  {
   "property": "C76",
   "status": "proved",
   "theorems": [
    "ZkLoc.C76_ground_haversine",
    "ZkLoc.C76_cell_ground",
    "ZkLoc.C76_location_ground64",
    "ZkLoc.C76_location_ground32",
    "ZkLoc.C76_wrapper_ground32",
    "ZkLoc.C76_cell_ground_sound",
    "ZkLoc.C76_wrapper_ground_sound32"
   ],
   "note": ""
  },
  {
   "property": "C77",
   "status": "proved",
   "theorems": [
    "ZkLoc.C77_interior_exact",
    "ZkLoc.C77_interior_sound",
    "ZkLoc.C77_interior_exact64",
    "ZkLoc.C77_interior_iff32",
    "ZkLoc.C77_wrapper_iff32"
   ],
   "note": "Existence of a proof in double precision is subject to the condition of C75 and stated there."
  },
  {
   "property": "C78",
   "status": "partial",
   "theorems": [
    "ZkLoc.Bench.C78_table_rows",
    "ZkLoc.Bench.C78_table_items",
    "ZkLoc.Bench.C78_cases",
    "ZkLoc.Bench.C78_resolution_zero_hidden",
    "ZkLoc.Bench.C78_script_partial"
   ],
   "note": "Proved for the rows P6, P12 and F32. False for F64: the row is proved to be green whatever the log says. Outcomes at resolution 0 are proved not to be shown, as the caption says."
  },
  {
   "property": "C79",
   "status": "proved",
   "theorems": [
    "ZkLoc.C79_eval_accuracy",
    "ZkLoc.C79_polynomials",
    "ZkLoc.C79_degTen_sound",
    "ZkLoc.C79_degTen_complete"
   ],
   "note": "Error bounds are a priori bounds relative to the sum of the sizes of the terms."
  },
  {
   "property": "C80",
   "status": "partial",
   "theorems": [
    "ZkLoc.C80_double_rows",
    "ZkLoc.C80_single_rows_partial",
    "ZkLoc.C80_circuit_and_table",
    "ZkLoc.C80_single_rows_contradict"
   ],
   "note": "Proved for double precision. False for single precision: two rows of the cubic table can list the same input and different outputs; the error of single precision rows at the listed input is bounded instead."
  },
  {
   "property": "C81",
   "status": "proved",
   "theorems": [
    "ZkLoc.Runtime.C81_describe",
    "ZkLoc.Runtime.C81_variance",
    "ZkLoc.Runtime.C81_nine",
    "ZkLoc.Runtime.C81_read",
    "ZkLoc.Runtime.C81_tables",
    "ZkLoc.Runtime.C81_groups",
    "ZkLoc.Runtime.C81_weighted_mean",
    "ZkLoc.Runtime.C81_pipeline",
    "ZkLoc.Runtime.C81_other_columns",
    "ZkLoc.Runtime.C81_no_measurements"
   ],
   "note": "pandas is modelled on tables of integers and in exact arithmetic; the layout of the printed tables is not modelled."
  },
  {
   "property": "C82",
   "status": "proved",
   "theorems": [
    "ZkLoc.Vectors.C82_table64",
    "ZkLoc.Vectors.C82_table32",
    "ZkLoc.Vectors.C82_test64",
    "ZkLoc.Vectors.C82_cells64",
    "ZkLoc.Vectors.C82_lines32",
    "ZkLoc.Vectors.C82_wrapper32",
    "ZkLoc.Vectors.C82_test32_fails"
   ],
   "note": "The tables are transcribed as numbers. Lines of resolution above 5 of the single-precision table are not decided for every library; lines 139-144 are proved to fail with correctly rounded values (C82_test32_fails)."
  },
  {
   "property": "C83",
   "status": "proved",
   "theorems": [
    "ZkLoc.C83_native_counts",
    "ZkLoc.C83_binary",
    "ZkLoc.C83_unary",
    "ZkLoc.C83_comparison",
    "ZkLoc.C83_allocation",
    "ZkLoc.C83_conversion",
    "ZkLoc.C83_binary_auto",
    "ZkLoc.C83_unary_auto",
    "ZkLoc.C83_comparison_auto",
    "ZkLoc.C83_conversion_auto",
    "ZkLoc.C83_marked_booleans",
    "ZkLoc.C83_f32_ieee",
    "ZkLoc.C83_f64_ieee"
   ],
   "note": "Relative to a model of gnark's R1CS builder (gnark is not in /repo), with lookups as table membership and without the splitting of long linear expressions (see C88 and C90 for both). The location circuits are in C84 and C85, the circuits of the math package in C86."
  },
  {
   "property": "C84",
   "status": "proved",
   "theorems": [
    "ZkLoc.C84_location",
    "ZkLoc.C84_location_auto",
    "ZkLoc.C84_two_cells",
    "ZkLoc.C84_far_cell",
    "ZkLoc.C84_ground_sound",
    "ZkLoc.C84_complete",
    "ZkLoc.C84_resolution"
   ],
   "note": "Relative to the same model of gnark's R1CS builder as C83, with a model of gnark's ToBinary and AssertIsLessOrEqual. C84_two_cells and C84_far_cell state violations at the deployed width."
  },
  {
   "property": "C85",
   "status": "partial",
   "theorems": [
    "ZkLoc.C85_meaning32",
    "ZkLoc.C85_meaning64",
    "ZkLoc.C85_auto32",
    "ZkLoc.C85_auto64",
    "ZkLoc.C85_not_bound32",
    "ZkLoc.C85_not_bound64",
    "ZkLoc.C85_every_location32",
    "ZkLoc.C85_every_location64",
    "ZkLoc.C85_range32",
    "ZkLoc.C85_range64",
    "ZkLoc.C85_honest32",
    "ZkLoc.C85_marked_booleans"
   ],
   "note": "Relative to the same model of gnark's R1CS builder as C83. That the cell is bound to the location is false: C85_not_bound32/64 and C85_every_location32/64 state the violation; the exact meaning of the systems, the selected widths, the range check, the booleans and the honest single-precision prover are proved. For the honest double-precision prover see C75."
  },
  {
   "property": "C86",
   "status": "proved",
   "theorems": [
    "ZkLoc.C86_functions",
    "ZkLoc.C86_tolerance64",
    "ZkLoc.C86_tolerance32",
    "ZkLoc.C86_comparison",
    "ZkLoc.C86_marked_booleans",
    "ZkLoc.C86_poly_auto",
    "ZkLoc.C86_functions_auto",
    "ZkLoc.C86_tolerance_auto",
    "ZkLoc.C86_atan64",
    "ZkLoc.C86_sin64",
    "ZkLoc.C86_degTen",
    "ZkLoc.C86_sign_ignored",
    "ZkLoc.C86_poly_forgeable",
    "ZkLoc.C86_degTen_vectors_rejected",
    "ZkLoc.C86_atan64Ulp",
    "ZkLoc.C86_atan32Ulp",
    "ZkLoc.C86_sin64Ulp",
    "ZkLoc.C86_binade_rejected"
   ],
   "note": "Relative to the same model of gnark's R1CS builder as C83, with a model of gnark's comparison of two variables. C86_sign_ignored, C86_poly_forgeable, C86_degTen_vectors_rejected and C86_binade_rejected state violations."
  },
  {
   "property": "C87",
   "status": "proved",
   "theorems": [
    "ZkLoc.C87_measured_ops",
    "ZkLoc.C87_repeated",
    "ZkLoc.C87_any_sequence",
    "ZkLoc.C87_other_operands",
    "ZkLoc.C87_total",
    "ZkLoc.C87_amortized",
    "ZkLoc.C87_files",
    "ZkLoc.C87_measurable"
   ],
   "note": "Relative to the same model of gnark's R1CS builder as C83 (compiled without a compression threshold, as the test does)."
  },
  {
   "property": "C88",
   "status": "proved",
   "theorems": [
    "ZkLoc.C88_float_tests",
    "ZkLoc.C88_rows",
    "ZkLoc.C88_f32_ieee",
    "ZkLoc.C88_f64_ieee",
    "ZkLoc.C88_math_tests",
    "ZkLoc.C88_hinted32",
    "ZkLoc.C88_hinted64",
    "ZkLoc.C88_location",
    "ZkLoc.C88_two_cells",
    "ZkLoc.C88_resolution"
   ],
   "note": "The commitment and the drawing of the challenge are not modelled: the theorems count bad challenges for fixed committed values. Circuits that record no range check or no power-of-two query still get both arguments in the model."
  },
  {
   "property": "C89",
   "status": "partial",
   "theorems": [
    "ZkLoc.C89_estimate",
    "ZkLoc.C89_near_optimal_partial",
    "ZkLoc.C89_not_optimal"
   ],
   "note": "Violated as stated: C89_not_optimal. Proved: the exact difference between the estimate and the number of constraints, and that the selected width is optimal up to that overcount."
  },
  {
   "property": "C90",
   "status": "proved",
   "theorems": [
    "ZkLoc.C90_passes",
    "ZkLoc.C90_decides",
    "ZkLoc.C90_location",
    "ZkLoc.C90_rows",
    "ZkLoc.C90_short",
    "ZkLoc.C90_lookups"
   ],
   "note": "gnark splits sums while they are built; the model splits the finished expressions, which gives the same constraints as long as no sum shrinks again after having reached the threshold."
  },
  {
   "property": "C91",
   "status": "proved",
   "theorems": [
    "ZkLoc.TableGen.C91_uniform",
    "ZkLoc.TableGen.C91_rounds",
    "ZkLoc.TableGen.C91_double_magnitudes",
    "ZkLoc.TableGen.C91_single_magnitudes",
    "ZkLoc.TableGen.C91_single_rows",
    "ZkLoc.TableGen.C91_double_rows",
    "ZkLoc.TableGen.C91_single_subnormal"
   ],
   "note": "The statement includes what the tables leave out (finding 36)."
  },
  {
   "property": "C92",
   "status": "proved",
   "theorems": [
    "ZkLoc.UtilTests.C92_degrees_inside",
    "ZkLoc.UtilTests.C92_radians_inside",
    "ZkLoc.UtilTests.C92_degrees_test",
    "ZkLoc.UtilTests.C92_radians_test",
    "ZkLoc.UtilTests.C92_no_cell"
   ],
   "note": "The external program is a parameter; TestLatLngToIJ asserts nothing and is not modelled."
  },
  {
   "property": "C93",
   "status": "partial",
   "theorems": [
    "ZkLoc.Text.C93_reached",
    "ZkLoc.Text.C93_reported_partial",
    "ZkLoc.Text.C93_not_the_boundary",
    "ZkLoc.Text.C93_positive",
    "ZkLoc.Text.C93_prover"
   ],
   "note": "Violated as stated: C93_not_the_boundary. Proved: the report is the distance to the nearest corner and exceeds the distance to the boundary by at most half of the longest side, a bound that is reached."
  }
 ]
}