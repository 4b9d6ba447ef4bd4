{
 "claims": [
  {
   "property": "C01",
   "status": "proved",
   "theorems": [
    "Verif.Time.Props.C01_add_nanos_exact",
    "Verif.Time.Props.C01_add_nanos_rejects",
    "Verif.Time.Props.C01_length",
    "Verif.Time.Props.C01_empty_false",
    "Verif.Time.Props.C01_units_exact",
    "Verif.Time.Props.C01_units_rows"
   ],
   "note": "All inputs; exact integer arithmetic. C178 shows when 64-bit arithmetic gives the same."
  },
  {
   "property": "C02",
   "status": "proved",
   "theorems": [
    "Verif.Time.Props.C02_history",
    "Verif.Time.Props.C02_fractional_days_total"
   ],
   "note": "Arbitrary histories of arithmetic and rounding calls."
  },
  {
   "property": "C03",
   "status": "proved",
   "theorems": [
    "Verif.Time.Props.C03_difference_exact",
    "Verif.Time.Props.C03_add_back",
    "Verif.Time.Props.C03_difference_rows",
    "Verif.Time.Props.C03_difference_scalar",
    "Verif.Time.Props.C03_scale_mismatch"
   ],
   "note": ""
  },
  {
   "property": "C04",
   "status": "proved",
   "theorems": [
    "Verif.Time.Props.C04_rounded_floor",
    "Verif.Time.Props.C04_rounded_absorbs",
    "Verif.Time.Props.C04_rounded_rejects"
   ],
   "note": ""
  },
  {
   "property": "C05",
   "status": "proved",
   "theorems": [
    "Verif.Time.EqualsProps.C05_equals_table",
    "Verif.Time.EqualsProps.C05_equals_errors",
    "Verif.Time.Props.C05_equals_window",
    "Verif.Time.Props.C05_not_symmetric",
    "Verif.Time.Props.C05_equals_ns_exact"
   ],
   "note": "C05_equals_window is the exact accepted window for every pair of normalised rows and every precision; C05_equals_ns_exact: exactness at ns; C05_not_symmetric: the counterexample to symmetry."
  },
  {
   "property": "C06",
   "status": "proved",
   "theorems": [
    "Verif.Time.Int64Props.C06_key_range",
    "Verif.Time.Int64Props.C06_key_order_false",
    "Verif.Time.Props.C06_key_order",
    "Verif.Time.Props.C06_max",
    "Verif.Time.Props.C06_min",
    "Verif.Time.Props.C06_empty"
   ],
   "note": "Keys are 64-bit integers (C178). C06_key_order is the statement for the exact number of nanoseconds, C06_key_range for the key that is returned, C06_key_order_false the witness."
  },
  {
   "property": "C07",
   "status": "proved",
   "theorems": [
    "Verif.Time.Props.C07_rescale_through_tai",
    "Verif.Time.Props.C07_same_scale",
    "Verif.Time.Props.C07_round_trip_exact",
    "Verif.Time.Props.C07_tdb_round_trip",
    "Verif.Time.Props.C07_path_independent",
    "Verif.Time.Props.C07_tt_utc",
    "Verif.Time.Props.C07_tt_utc_false",
    "Verif.Time.Props.C07_tdb_series_round_trip"
   ],
   "note": "All conversions except tt->utc refine the TAI chain (C07_rescale_through_tai, C07_path_independent, C07_round_trip_exact, C07_tdb_round_trip). C07_tt_utc: the exact condition and the exact error for tt->utc; C07_tt_utc_false: the witness, with ERFA as modelled for C175. What is assumed of ERFA is proved of the model of it (C175_assumptions_met); the TDB series is the real-analytic series of the code."
  },
  {
   "property": "C08",
   "status": "proved",
   "theorems": [
    "Verif.Time.Props.C08_unknown_scale",
    "Verif.Time.Props.C08_utc_accepts_anything"
   ],
   "note": "C08_unknown_scale: refused from tt, tai, tdb, ut1; C08_utc_accepts_anything: from utc every unknown string is accepted, with TAI rows."
  },
  {
   "property": "C09",
   "status": "proved",
   "theorems": [
    "Verif.Time.Props.C09_from_mjd",
    "Verif.Time.Props.C09_not_normal",
    "Verif.Time.Props.C09_mjd_round_trip"
   ],
   "note": "C09_from_mjd: accuracy and the exact condition; C09_not_normal: witness; C09_mjd_round_trip. Exact rational arithmetic stands for float64."
  },
  {
   "property": "C10",
   "status": "proved",
   "theorems": [
    "Verif.Time.Props.C10_not_inverse",
    "Verif.Time.Props.C10_offset",
    "Verif.Time.Props.C10_from_et"
   ],
   "note": "C10_from_et: the exact result for every row; C10_offset: right after adding the missing epoch; C10_not_inverse: the witness. Exact rational arithmetic stands for float64."
  },
  {
   "property": "C11",
   "status": "proved",
   "theorems": [
    "Verif.Mpc.Props.C11_numbered_round_trip",
    "Verif.Mpc.Props.C11_numbered_format",
    "Verif.Mpc.Props.C11_numbered_injective",
    "Verif.Mpc.Props.C11_numbered_rejects"
   ],
   "note": "ASCII input texts."
  },
  {
   "property": "C12",
   "status": "proved",
   "theorems": [
    "Verif.Mpc.Props.C12_provisional_round_trip",
    "Verif.Mpc.Props.C12_provisional_injective",
    "Verif.Mpc.Props.C12_provisional_format"
   ],
   "note": "Years 1000-6199 (below 1000 the leading zero is lost, see C74)."
  },
  {
   "property": "C13",
   "status": "proved",
   "theorems": [
    "Verif.Mpc.Props.C13_no_leading_zero",
    "Verif.Mpc.Props.C13_survey_round_trip",
    "Verif.Mpc.Props.C13_leading_zero_lost"
   ],
   "note": "C13_survey_round_trip: both directions for every four digits and survey; C13_no_leading_zero, C13_leading_zero_lost."
  },
  {
   "property": "C14",
   "status": "proved",
   "theorems": [
    "Verif.Mpc.Props.C14_other_exceptions",
    "Verif.Mpc.Props.C14_errors"
   ],
   "note": "C14_errors: the kinds of error for every string; C14_other_exceptions: the witnesses."
  },
  {
   "property": "C15",
   "status": "proved",
   "theorems": [
    "Verif.Mpc.Props.C15_dispatch_round_trip",
    "Verif.Mpc.Props.C15_dispatch_injective"
   ],
   "note": "Survey numbers without leading zero, as in C13."
  },
  {
   "property": "C16",
   "status": "proved",
   "theorems": [
    "Verif.Obs80.Props.C16_date",
    "Verif.Obs80.Props.C16_day_number_unique",
    "Verif.Obs80.Props.C16_nanos_range",
    "Verif.Obs80.Props.C16_rejects",
    "Verif.Obs80.Props.C16_last_day_overflows"
   ],
   "note": "Excludes only the last half nanosecond of 9999-12-31, which overflows (C16_last_day_overflows). Decimal arithmetic is exact in a 17 column field."
  },
  {
   "property": "C17",
   "status": "proved",
   "theorems": [
    "Verif.Obs80.Props.C17_ra",
    "Verif.Obs80.Props.C17_ra_rejects",
    "Verif.Obs80.Props.C17_dec",
    "Verif.Obs80.Props.C17_dec_rejects",
    "Verif.Obs80.Props.C17_range",
    "Verif.Obs80.Props.C17_monotone",
    "Verif.Obs80.Props.C17_dec_monotone"
   ],
   "note": "Exact arithmetic in place of float64."
  },
  {
   "property": "C18",
   "status": "proved",
   "theorems": [
    "Verif.Obs80.Props.C18_strict_rows",
    "Verif.Obs80.Props.C18_strict_names_line",
    "Verif.Obs80.Props.C18_lenient",
    "Verif.Obs80.Props.C18_lenient_raises",
    "Verif.Obs80.Props.C18_lenient_false",
    "Verif.Obs80.Props.C18_fractional_hours_escape",
    "Verif.Obs80.Props.C18_escape_source"
   ],
   "note": "C18_strict_rows, C18_strict_names_line, C18_lenient and C18_lenient_raises are equivalences for every file; C18_escape_source: where such exceptions come from; C18_lenient_false and C18_fractional_hours_escape: witnesses."
  },
  {
   "property": "C19",
   "status": "proved",
   "theorems": [
    "Verif.Chunk.Props.C19_chunks",
    "Verif.Chunk.Props.C19_indices",
    "Verif.Chunk.Props.C19_indices_consecutive",
    "Verif.Chunk.Props.C19_edge"
   ],
   "note": "Chunk iteration over all lengths and chunk sizes; kernels are arbitrary functions."
  },
  {
   "property": "C20",
   "status": "proved",
   "theorems": [
    "Verif.Chunk.Props.C20_fixed_size",
    "Verif.Chunk.Props.C20_padding_invisible",
    "Verif.Chunk.Props.C20_pattern",
    "Verif.Chunk.Props.C20_zero_chunk"
   ],
   "note": "Fixed-size padded chunks; kernels satisfy the Rowwise contract (the jitted kernels are vmapped scalar functions)."
  },
  {
   "property": "C21",
   "status": "proved",
   "theorems": [
    "Verif.Lru.Props.C21_size",
    "Verif.Lru.Props.C21_value",
    "Verif.Lru.Props.C21_recent",
    "Verif.Lru.Props.C21_evicts_oldest",
    "Verif.Lru.Props.C21_disabled"
   ],
   "note": "All histories of gets and puts on the OrderedDict, any maxsize."
  },
  {
   "property": "C22",
   "status": "proved",
   "theorems": [
    "Verif.Spice.Props.C22_transparent",
    "Verif.Spice.Props.C22_rows",
    "Verif.Spice.Props.C22_first_use"
   ],
   "note": "SPICE itself is an arbitrary function of the loaded kernels that changes sign when target and observer swap (hypothesis Antisymmetric). States are exact. Epochs are grouped by 64-bit keys, as in the code (hypothesis Spread on the epochs of the call alone)."
  },
  {
   "property": "C23",
   "status": "proved",
   "theorems": [
    "Verif.Spice.Props.C23_after_clear",
    "Verif.Spice.Props.C23_registration_loads",
    "Verif.Spice.Props.C23_false"
   ],
   "note": "C23_after_clear, C23_registration_loads; C23_false: cached states survive a registration."
  },
  {
   "property": "C24",
   "status": "proved",
   "theorems": [
    "Verif.Spice.Props.C24_values",
    "Verif.Spice.Props.C24_time_column_false"
   ],
   "note": "C24_values: for every history; C24_time_column_false: the witness. The absence of collisions among the epoch lists used is an assumption; C178_no_collision derives it from a period of 2^64 ns and a digest without collisions."
  },
  {
   "property": "C25",
   "status": "proved",
   "theorems": [
    "Verif.Sched.Props.C25_schedule",
    "Verif.Sched.Props.C25_distinct_ids",
    "Verif.Sched.Props.C25_covariance",
    "Verif.Sched.Props.C25_rearrangement",
    "Verif.Sched.Props.C25_failure",
    "Verif.Sched.Props.C25_empty",
    "Verif.Sched.Props.C25_ties_order_false"
   ],
   "note": "Any backend that treats orbits independently, any choice of finished worker at every wait. C25_ties_order_false shows that the order among rows with equal keys does depend on the schedule."
  },
  {
   "property": "C26",
   "status": "proved",
   "theorems": [
    "Verif.Sched.Props.C26_throttle",
    "Verif.Sched.Props.C26_schedule",
    "Verif.Sched.Props.C26_rearrangement",
    "Verif.Sched.Props.C26_distinct_ids",
    "Verif.Sched.Props.C26_in_process",
    "Verif.Sched.Props.C26_failure",
    "Verif.Sched.Props.C26_ties_order_false"
   ],
   "note": "Any worker that treats orbits independently. The covariance branch (collapse of variant ephemerides) is treated under C59, not here."
  },
  {
   "property": "C27",
   "status": "proved",
   "theorems": [
    "Verif.Joins.Props.C27_align",
    "Verif.Joins.Props.C27_sorted",
    "Verif.Joins.Props.C27_sorted_index_error_false",
    "Verif.Joins.Props.C27_hg",
    "Verif.Joins.Props.C27_attach",
    "Verif.Joins.Props.C27_attach_filled"
   ],
   "note": "Join by the rendered key string (its injectivity is proved), H/G by grouped min/max, whole attach step. Photometric functions are abstract row functions. C27_sorted_index_error_false is the sharpness witness for the benchmark-only alternative."
  },
  {
   "property": "C28",
   "status": "proved",
   "theorems": [
    "Verif.Sched.Props.C28_one_row_each",
    "Verif.Sched.Props.C28_general",
    "Verif.Sched.Props.C28_duplicated_false",
    "Verif.Sched.Props.C28_dropped_false"
   ],
   "note": "C28_general for all tables; C28_one_row_each; C28_duplicated_false and C28_dropped_false: witnesses."
  },
  {
   "property": "C29",
   "status": "proved",
   "theorems": [
    "Verif.Joins.Props.C29_from_codes",
    "Verif.Joins.Props.C29_exposures",
    "Verif.Joins.Props.C29_empty_exposures_false"
   ],
   "note": "C29_from_codes, C29_exposures: row order, success condition and errors; C29_empty_exposures_false. get_observer_state enters through the contract RowsOf, which is what C22-C24 establish for it."
  },
  {
   "property": "C30",
   "status": "proved",
   "theorems": [
    "Verif.Sched.Props.C30_pairs",
    "Verif.Sched.Props.C30_failure",
    "Verif.Sched.Props.C30_null_entries_false"
   ],
   "note": "Covariances are compared as matrices; C30_null_entries_false shows that the stored null/NaN distinction depends on the chunk size."
  },
  {
   "property": "C31",
   "status": "proved",
   "theorems": [
    "Verif.Eph2.Props.C31_no_silent_failure",
    "Verif.Eph2.Props.C31_light_time",
    "Verif.Eph2.Props.C31_state",
    "Verif.Eph2.Props.C31_state_false",
    "Verif.Eph2.Props.C31_index_error",
    "Verif.Eph2.Props.C31_workers_false"
   ],
   "note": "C31_no_silent_failure, C31_light_time, C31_state (when the flat index is right), C31_state_false, C31_index_error, C31_workers_false. Numerical kernels are arbitrary functions."
  },
  {
   "property": "C32",
   "status": "proved",
   "theorems": [
    "Verif.Sched.Props.C32_rows",
    "Verif.Sched.Props.C32_failure",
    "Verif.Sched.Props.C32_moid_pairs",
    "Verif.Sched.Props.C32_order_false",
    "Verif.Sched.Props.C32_outstanding",
    "Verif.Sched.Props.C32_all_orders"
   ],
   "note": "C32_rows, C32_failure, C32_moid_pairs, C32_outstanding, C32_all_orders; C32_order_false: witness."
  },
  {
   "property": "C33",
   "status": "proved",
   "theorems": [
    "Verif.Impact.Props.C33_fraction",
    "Verif.Impact.Props.C33_counts",
    "Verif.Impact.Props.C33_exact_iff",
    "Verif.Impact.Props.C33_times",
    "Verif.Impact.Props.C33_event_order",
    "Verif.Impact.Props.C33_edges",
    "Verif.Impact.Props.C33_workers",
    "Verif.Impact.Props.C33_default_counted",
    "Verif.Impact.Props.C33_default_ignored",
    "Verif.Impact.Props.C33_repeat_false",
    "Verif.Impact.Props.C33_default_false"
   ],
   "note": "C33_counts (no hypotheses), C33_exact_iff, C33_fraction, C33_times, C33_event_order, C33_edges, C33_workers, C33_default_counted, C33_default_ignored; C33_repeat_false and C33_default_false: witnesses. Standard deviation as its square; one time scale; None when there are no variants or conditions."
  },
  {
   "property": "C34",
   "status": "proved",
   "theorems": [
    "Verif.Univ.Props.C34_series",
    "Verif.Univ.Props.C34_relations"
   ],
   "note": "Exact arithmetic."
  },
  {
   "property": "C35",
   "status": "proved",
   "theorems": [
    "Verif.Univ.Props.C35_conserved",
    "Verif.Univ.Props.C35_anomaly",
    "Verif.Univ.Props.C35_motion_exists",
    "Verif.Univ.Props.C35_newton",
    "Verif.Univ.Props.C35_iterations",
    "Verif.Univ.Props.C35_accuracy",
    "Verif.Univ.Props.C35_propagate",
    "Verif.Univ.Props.C35_zero",
    "Verif.Univ.Props.C35_unconverged_false"
   ],
   "note": "Exact arithmetic instead of float64. Where Newton's iteration converges is C192: C35_accuracy bounds the error by the last correction, C35_propagate is about a last correction of zero, and C35_unconverged_false shows that exhausting max_iter goes unreported."
  },
  {
   "property": "C36",
   "status": "proved",
   "theorems": [
    "Verif.Kep.Props.C36_elliptic",
    "Verif.Kep.Props.C36_hyperbolic",
    "Verif.Kep.Props.C36_hyperbolic_false",
    "Verif.Kep.Props.C36_unreachable",
    "Verif.Kep.Props.C36_parabolic_false"
   ],
   "note": "Exact arithmetic. The false parts of the original statement (hyperbolas before periapsis, parabolas) are C36_hyperbolic_false and C36_parabolic_false."
  },
  {
   "property": "C37",
   "status": "proved",
   "theorems": [
    "Verif.Kep.Props.C37_twice",
    "Verif.Kep.Props.C37_false"
   ],
   "note": "Exact arithmetic. The original statement is false by a factor of two: C37_false."
  },
  {
   "property": "C38",
   "status": "proved",
   "theorems": [
    "Verif.Aberr.Props.C38_emission",
    "Verif.Aberr.Props.C38_light_time_exists",
    "Verif.Aberr.Props.C38_accuracy",
    "Verif.Aberr.Props.C38_converges",
    "Verif.Aberr.Props.C38_reported",
    "Verif.Aberr.Props.C38_last_round_false"
   ],
   "note": "Exact arithmetic; the propagator is a parameter, or the two-body propagator of C35. The first guess 1e30 must not be within the tolerance of the light time. C38_last_round_false is the false part of the original statement."
  },
  {
   "property": "C39",
   "status": "proved",
   "theorems": [
    "Verif.Aberr.Props.C39_defined",
    "Verif.Aberr.Props.C39_distance",
    "Verif.Aberr.Props.C39_direction",
    "Verif.Aberr.Props.C39_direction_unique",
    "Verif.Aberr.Props.C39_at_rest",
    "Verif.Aberr.Props.C39_undo",
    "Verif.Aberr.Props.C39_towards"
   ],
   "note": "Exact arithmetic."
  },
  {
   "property": "C40",
   "status": "proved",
   "theorems": [
    "Verif.Lambert.Props.C40_conic",
    "Verif.Lambert.Props.C40_direction",
    "Verif.Lambert.Props.C40_negative",
    "Verif.Lambert.Props.C40_defined",
    "Verif.Lambert.Props.C40_arrives",
    "Verif.Lambert.Props.C40_opposite_false",
    "Verif.Lambert.Props.C40_unconverged_false"
   ],
   "note": "Exact arithmetic; division by zero in the iteration gives zero instead of inf or NaN, so C40_defined does not exclude NaN produced inside the iteration. Convergence of the Householder iteration is not claimed: C40_arrives bounds the error by the residual at the final iterate and C40_unconverged_false shows that nothing else bounds it. C40_opposite_false is the 180 degree transfer."
  },
  {
   "property": "C41",
   "status": "proved",
   "theorems": [
    "Verif.Moid.Props.C41_circle",
    "Verif.Moid.Props.C41_circle_minimum",
    "Verif.Moid.Props.C41_unbound",
    "Verif.Moid.Props.C41_ellipse_false",
    "Verif.Moid.Props.C41_inclined_false",
    "Verif.Moid.Props.C41_touching_false",
    "Verif.Moid.Props.C41_circles_false"
   ],
   "note": "Exact arithmetic. scipy's minimiser is an arbitrary function with the stated contract; the propagator is required to follow the two-body motion (C35)."
  },
  {
   "property": "C42",
   "status": "proved",
   "theorems": [
    "Verif.Gauss.Props.C42_coplanar",
    "Verif.Gauss.Props.C42_unique",
    "Verif.Gauss.Props.C42_root"
   ],
   "note": "Exact arithmetic; the second line of sight is a unit vector (the code normalises it) and B is not zero."
  },
  {
   "property": "C43",
   "status": "proved",
   "theorems": [
    "Verif.Gauss.Props.C43_gibbs",
    "Verif.Gauss.Props.C43_mu_false",
    "Verif.Gauss.Props.C43_revolution_false"
   ],
   "note": "Exact arithmetic. The motion is any solution of Newton's equation; that one exists for every state is C35."
  },
  {
   "property": "C44",
   "status": "proved",
   "theorems": [
    "Verif.Sph.Props.C44_ranges",
    "Verif.Sph.Props.C44_position",
    "Verif.Sph.Props.C44_cartesian",
    "Verif.Sph.Props.C44_axis",
    "Verif.Sph.Props.C44_origin",
    "Verif.Sph.Props.C44_cartesian_iff",
    "Verif.Sph.Props.C44_pole_false",
    "Verif.Sph.Props.C44_spherical",
    "Verif.Sph.Props.C44_velocity",
    "Verif.Sph.Props.C44_rates",
    "Verif.Sph.Props.C44_float_false"
   ],
   "note": "Exact arithmetic for the round trips, the ranges and the derivatives; C44_cartesian_iff says exactly which states come back, C44_pole_false and C44_float_false are the counterexamples."
  },
  {
   "property": "C45",
   "status": "proved",
   "theorems": [
    "Verif.Xform.Rotation.C45_round_trip",
    "Verif.Xform.Rotation.C45_rotation",
    "Verif.Xform.Rotation.C45_preserves",
    "Verif.Xform.Rotation.C45_covariance",
    "Verif.Xform.Rotation.C45_covariance_missing",
    "Verif.Xform.Rotation.C45_covariance_round_trip",
    "Verif.Xform.Rotation.C45_psd_false",
    "Verif.Xform.Rotation.C45_missing_false",
    "Verif.Xform.Rotation.C45_rotating",
    "Verif.Xform.Rotation.C45_spice"
   ],
   "note": "Exact arithmetic. The original wording (covariances stay positive semidefinite, nothing about missing values) is refuted by C45_psd_false and C45_missing_false; the statement has been corrected. SPICE's matrices are an oracle; their being inverse is a hypothesis of C45_rotating."
  },
  {
   "property": "C46",
   "status": "proved",
   "theorems": [
    "Verif.Units.Props.C46_scalars",
    "Verif.Units.Props.C46_meaning",
    "Verif.Units.Props.C46_states",
    "Verif.Units.Props.C46_covariances",
    "Verif.Units.Props.C46_induced"
   ],
   "note": "Exact arithmetic in any field with nonzero constants. C46_induced: the covariance conversion is the one of every weighted sample."
  },
  {
   "property": "C47",
   "status": "proved",
   "theorems": [
    "Verif.Tri.Props.C47_upper",
    "Verif.Tri.Props.C47_upper_recovers",
    "Verif.Tri.Props.C47_lower",
    "Verif.Tri.Props.C47_lower_false",
    "Verif.Tri.Props.C47_seven",
    "Verif.Tri.Props.C47_oef"
   ],
   "note": "C47_upper, C47_upper_recovers, C47_seven, C47_oef; C47_lower says exactly what the lower variant returns; C47_lower_false."
  },
  {
   "property": "C48",
   "status": "proved",
   "theorems": [
    "Verif.Sigma.Props.C48_error",
    "Verif.Sigma.Props.C48_count",
    "Verif.Sigma.Props.C48_weights",
    "Verif.Sigma.Props.C48_mean",
    "Verif.Sigma.Props.C48_covariance",
    "Verif.Sigma.Props.C48_root_exists",
    "Verif.Sigma.Props.C48_affine"
   ],
   "note": "Exact arithmetic; scipy.linalg.sqrtm is a parameter, assumed to return a symmetric square root in C48_covariance, and C48_root_exists shows there is one for every positive semidefinite covariance. C48_weights gives both sums of weights."
  },
  {
   "property": "C49",
   "status": "proved",
   "theorems": [
    "Verif.Resid.Props.C49_short_way",
    "Verif.Resid.Props.C49_congruence_false"
   ],
   "note": "Exact arithmetic. C49_congruence_false records that the documented convention is not a difference modulo 360: an offset changes sign when the pair straddles 0."
  },
  {
   "property": "C50",
   "status": "proved",
   "theorems": [
    "Verif.Resid.Props.C50_some_row",
    "Verif.Resid.Props.C50_all_differ",
    "Verif.Resid.Props.C50_single",
    "Verif.Resid.Props.C50_false"
   ],
   "note": "C50_some_row, C50_all_differ (tables of equal length), C50_single; C50_false: a table with one agreeing row is accepted, and a table without rows raises."
  },
  {
   "property": "C51",
   "status": "proved",
   "theorems": [
    "Verif.OrbitClass.Props.C51_rows",
    "Verif.OrbitClass.Props.C51_documented",
    "Verif.OrbitClass.Props.C51_overlap",
    "Verif.OrbitClass.Props.C51_precedence",
    "Verif.OrbitClass.Props.C51_unclassified",
    "Verif.OrbitClass.Props.C51_unbound",
    "Verif.OrbitClass.Props.C51_representations",
    "Verif.OrbitClass.Props.C51_near_earth_false"
   ],
   "note": "Exact arithmetic; non-empty tables of finite Keplerian or cometary elements (C51_unbound and C51_rows also for infinite and NaN entries). C51_near_earth_false: an orbit meeting the Amor rule with a = 4.2 au is given class OMB, so near-Earth objects with large semi-major axes lose their class."
  },
  {
   "property": "C52",
   "status": "proved",
   "theorems": [
    "Verif.Origin.SharedProps.C52_massive",
    "Verif.Origin.SharedProps.C52_codes",
    "Verif.Xform.Props.C52_checks",
    "Verif.Xform.Props.C52_same",
    "Verif.Xform.Props.C52_requested",
    "Verif.Xform.Props.C52_accepts",
    "Verif.Xform.Props.C52_rows",
    "Verif.Xform.Props.C52_translation",
    "Verif.Xform.Props.C52_same_origin_false",
    "Verif.Xform.Props.C52_geodetic_false",
    "Verif.Xform.Props.C52_geodetic_covariance_false",
    "Verif.Xform.Props.C52_misshapen",
    "Verif.Xform.Props.C52_empty_false"
   ],
   "note": "Exact arithmetic; conversions between representations, Jacobians, states of origins and SPICE matrices are arbitrary functions of one row. SelfZero (the state of an origin relative to itself is zero) is a hypothesis. C52_same_origin_false refutes that an explicit origin equal to the current one changes nothing; C52_geodetic_false shows the origin check of geodetic coordinates to depend on the pyarrow version."
  },
  {
   "property": "C53",
   "status": "proved",
   "theorems": [
    "Verif.Od.Props.C53_accepted",
    "Verif.Od.Props.C53_percentage",
    "Verif.Od.Props.C53_too_few"
   ],
   "note": "Oracle (propagator, Jacobian, linear algebra) arbitrary, so every numerical history is covered; distinct observation ids and a natural max_iter are assumed. The theorem also gives the reported statistics, that the outliers are those with the worst chi2, the iteration bound and what success means."
  },
  {
   "property": "C54",
   "status": "proved",
   "theorems": [
    "Verif.Od.Props.C54_budget",
    "Verif.Od.Props.C54_float_safe",
    "Verif.Od.Props.C54_largest_false",
    "Verif.Od.Props.C54_float_near",
    "Verif.Od.Props.C54_above_false"
   ],
   "note": "C54_budget (exact arithmetic), C54_float_safe, C54_float_near, C54_largest_false, C54_above_false (float64)."
  },
  {
   "property": "C55",
   "status": "proved",
   "theorems": [
    "Verif.Fit.Props.C55_assigned",
    "Verif.Fit.Props.C55_idempotent",
    "Verif.Fit.Props.C55_missing_orbit_false"
   ],
   "note": "C55_assigned, C55_idempotent; C55_missing_orbit_false: the witness."
  },
  {
   "property": "C56",
   "status": "proved",
   "theorems": [
    "Verif.Fit.Props.C56_not_worse",
    "Verif.Fit.Props.C56_best",
    "Verif.Fit.Props.C56_none",
    "Verif.Fit.Props.C56_errors",
    "Verif.Fit.Props.C56_raises",
    "Verif.Fit.Props.C56_none_false"
   ],
   "note": "Corrections are an arbitrary oracle, comparisons are abstract (NaN included). C56_none_false records that the documented None for 'no improvement' is not what happens: the initial orbit is returned."
  },
  {
   "property": "C57",
   "status": "proved",
   "theorems": [
    "Verif.Iod.Props.C57_accepted",
    "Verif.Iod.Props.C57_consistent",
    "Verif.Iod.Props.C57_too_few",
    "Verif.Iod.Props.C57_errors",
    "Verif.Iod.Props.C57_num_obs_false",
    "Verif.Iod.Props.C57_arc_false",
    "Verif.Iod.Props.C57_min_arc_false",
    "Verif.Iod.Props.C57_found",
    "Verif.Iod.Props.C57_failure",
    "Verif.Iod.Props.C57_order_false"
   ],
   "note": "C57_accepted (for every oracle), C57_consistent, C57_found, C57_too_few, C57_errors, C57_failure; witnesses C57_num_obs_false, C57_arc_false, C57_min_arc_false, C57_order_false."
  },
  {
   "property": "C58",
   "status": "proved",
   "theorems": [
    "Verif.Eval.Props.C58_pairs",
    "Verif.Eval.Props.C58_edges",
    "Verif.Eval.Props.C58_pairs_false"
   ],
   "note": "C58_pairs, C58_edges; C58_pairs_false: the witness. Statistics over exact rationals; residuals and predictions arbitrary functions; ephemeris row order as proved for the generic propagator in C28."
  },
  {
   "property": "C59",
   "status": "proved",
   "theorems": [
    "Verif.Collapse.Props.C59_orbits",
    "Verif.Collapse.Props.C59_orbits_general",
    "Verif.Collapse.Props.C59_orbits_false",
    "Verif.Collapse.Props.C59_null_weight",
    "Verif.Collapse.Props.C59_order",
    "Verif.Collapse.Props.C59_edges",
    "Verif.Collapse.Props.C59_ephemeris",
    "Verif.Collapse.Props.C59_ephemeris_observers_false",
    "Verif.Collapse.Props.C59_object",
    "Verif.Collapse.Props.C59_object_weights_false"
   ],
   "note": "C59_orbits_general (no hypothesis on times), C59_orbits, C59_ephemeris, C59_object, C59_null_weight, C59_order, C59_edges; witnesses C59_orbits_false, C59_ephemeris_observers_false, C59_object_weights_false."
  },
  {
   "property": "C60",
   "status": "proved",
   "theorems": [
    "Verif.Band.Props.C60_identity",
    "Verif.Band.Props.C60_chain",
    "Verif.Band.Props.C60_identity_defined",
    "Verif.Band.Props.C60_inverse",
    "Verif.Band.Props.C60_weights",
    "Verif.Band.Props.C60_delta_mag"
   ],
   "note": "Exact arithmetic; mag10 is -2.5 log10 over the reals. C60_delta_mag is stated for the first conversion with a composition because later ones may be stale (C61_false)."
  },
  {
   "property": "C61",
   "status": "proved",
   "theorems": [
    "Verif.Band.Props.C61_integrals",
    "Verif.Band.Props.C61_delta_mag",
    "Verif.Band.Props.C61_first_use",
    "Verif.Band.Props.C61_frozen",
    "Verif.Band.Props.C61_false"
   ],
   "note": "C61_integrals, C61_delta_mag, C61_first_use, C61_frozen; C61_false: the witness. predict_magnitudes uses the same cached table and is not modelled separately here."
  },
  {
   "property": "C62",
   "status": "proved",
   "theorems": [
    "Verif.Traj.Props.C62_valid",
    "Verif.Traj.Props.C62_lookup",
    "Verif.Traj.Props.C62_lookup_one",
    "Verif.Traj.Props.C62_own_epoch",
    "Verif.Traj.Props.C62_own_epoch_false"
   ],
   "note": "C62_valid: validate_coverage accepts exactly the well formed, pairwise disjoint trajectories; C62_lookup, C62_lookup_one; C62_own_epoch (equivalence); C62_own_epoch_false."
  },
  {
   "property": "C63",
   "status": "proved",
   "theorems": [
    "Verif.Sbdb.Props.C63_permuted",
    "Verif.Sbdb.Props.C63_asymmetric_false",
    "Verif.Sbdb.Props.C63_symmetric",
    "Verif.Sbdb.Props.C63_quadratic"
   ],
   "note": "The 36 assignments are transcribed. C63_quadratic: variances of linear combinations are kept. C63_asymmetric_false: the symmetry hypothesis is needed."
  },
  {
   "property": "C64",
   "status": "proved",
   "theorems": [
    "Verif.Sbdb.Props.C64_attempts",
    "Verif.Sbdb.Props.C64_arguments",
    "Verif.Sbdb.Props.C64_order",
    "Verif.Sbdb.Props.C64_missing",
    "Verif.Sbdb.Props.C64_unknown",
    "Verif.Sbdb.Props.C64_concurrency",
    "Verif.Sbdb.Props.C64_failure"
   ],
   "note": "Network answers are arbitrary; parsing of a payload is an arbitrary partial function."
  },
  {
   "property": "C65",
   "status": "proved",
   "theorems": [
    "Verif.Sbdb.Props.C65_value",
    "Verif.Sbdb.Props.C65_fallback",
    "Verif.Sbdb.Props.C65_slope",
    "Verif.Sbdb.Props.C65_sigma",
    "Verif.Sbdb.Props.C65_absent",
    "Verif.Sbdb.Props.C65_last",
    "Verif.Sbdb.Props.C65_zero_false",
    "Verif.Sbdb.Props.C65_sigma_false"
   ],
   "note": "C65_value and C65_sigma (all cases with an H entry), C65_fallback (without), C65_slope, C65_last, C65_absent; C65_zero_false and C65_sigma_false: witnesses. NaN is not modelled."
  },
  {
   "property": "C66",
   "status": "proved",
   "theorems": [
    "Verif.Oem.Props.C66_frames",
    "Verif.Oem.Props.C66_centers",
    "Verif.Oem.Props.C66_names",
    "Verif.Oem.Props.C66_one_object",
    "Verif.Oem.Props.C66_rows",
    "Verif.Oem.Props.C66_propagated",
    "Verif.Oem.Props.C66_origin_refused",
    "Verif.Oem.Props.C66_origin_false",
    "Verif.Oem.Props.C66_covariance_false",
    "Verif.Oem.Props.C66_segments",
    "Verif.Oem.Props.C66_covariance_source",
    "Verif.Oem.Props.C66_covariance_absent"
   ],
   "note": "C66_frames, C66_centers (all strings), C66_one_object, C66_rows, C66_propagated, C66_origin_refused, C66_segments, C66_covariance_source, C66_covariance_absent; witnesses C66_origin_false, C66_covariance_false. The oem package and the text form of epochs are trusted."
  },
  {
   "property": "C67",
   "status": "proved",
   "theorems": [
    "Verif.Spk.Props.C67_columns",
    "Verif.Spk.Props.C67_written",
    "Verif.Spk.Props.C67_covered",
    "Verif.Spk.Props.C67_full",
    "Verif.Spk.Props.C67_exact",
    "Verif.Spk.Props.C67_last",
    "Verif.Spk.Props.C67_problem",
    "Verif.Spk.Props.C67_states",
    "Verif.Spk.Props.C67_last_false",
    "Verif.Spk.Props.C67_orbit",
    "Verif.Spk.Props.C67_targets"
   ],
   "note": "C67_covered, C67_problem, C67_written, C67_columns, C67_orbit, C67_targets: windows, records and least-squares problems; C67_full, C67_states, C67_exact; C67_last gives the value returned in the last window and C67_last_false the witness. spkw03 and the SPICE reader are modelled by their documentation."
  },
  {
   "property": "C68",
   "status": "proved",
   "theorems": [
    "Verif.Band.ResolveProps.C68_station",
    "Verif.Band.ResolveProps.C68_unique",
    "Verif.Band.ResolveProps.C68_rows",
    "Verif.Band.ResolveProps.C68_accepts",
    "Verif.Band.ResolveProps.C68_capitals"
   ],
   "note": "Columns with nulls, all tables. C68_capitals records that capital letters are also answered with the fallback of the small letter, which the documentation does not mention. Letters and white space are ASCII."
  },
  {
   "property": "C69",
   "status": "proved",
   "theorems": [
    "Verif.Hg.Props.C69_phase_angle",
    "Verif.Hg.Props.C69_apparent",
    "Verif.Hg.Props.C69_both",
    "Verif.Hg.Props.C69_opposition",
    "Verif.Hg.Props.C69_monotone",
    "Verif.Hg.Props.C69_implementations_agree",
    "Verif.Hg.Props.C69_implementations_180",
    "Verif.Hg.Props.C69_scaling"
   ],
   "note": "Proved in exact arithmetic, with infinities and NaN explicit: C69_phase_angle, C69_apparent, C69_both, C69_opposition, C69_monotone, C69_implementations_agree, C69_implementations_180, C69_scaling."
  },
  {
   "property": "C70",
   "status": "proved",
   "theorems": [
    "Verif.Ades.Props.C70_written",
    "Verif.Ades.Props.C70_round_trip",
    "Verif.Ades.Props.C70_refused",
    "Verif.Ades.Props.C70_rounding",
    "Verif.Ades.Props.C70_keyword_false",
    "Verif.Ades.Props.C70_bar_false",
    "Verif.Ades.Props.C70_hash_false",
    "Verif.Ades.Props.C70_null_false",
    "Verif.Ades.Props.C70_uncertainty_false",
    "Verif.Ades.Props.C70_coinvestigators_false",
    "Verif.Ades.Props.C70_code_false"
   ],
   "note": "Exact arithmetic for numbers. The functions that turn times into text and back, and floats of a context into text, are arbitrary functions with a stated contract; a number in a column without a given precision is written with 16 decimals as the code asks pandas to."
  },
  {
   "property": "C71",
   "status": "proved",
   "theorems": [
    "Verif.Rot.Props.C71_loose",
    "Verif.Rot.Props.C71_exists",
    "Verif.Rot.Props.C71_rounds",
    "Verif.Rot.Props.C71_counts",
    "Verif.Rot.Props.C71_least",
    "Verif.Rot.Props.C71_converged",
    "Verif.Rot.Props.C71_clipped",
    "Verif.Rot.Props.C71_unclipped",
    "Verif.Rot.Props.C71_few",
    "Verif.Rot.Props.C71_equal_weights",
    "Verif.Rot.Props.C71_select",
    "Verif.Rot.Props.C71_exact_false"
   ],
   "note": "Rot.Model transcribes the fits of core.py over the reals with np.linalg.lstsq and the F distribution arbitrary (Rot.Props.exists_leastSquares shows a least-squares solver exists, so C71_least is not vacuous). The order 0 (np.column_stack of nothing) is not modelled as an error."
  },
  {
   "property": "C72",
   "status": "proved",
   "theorems": [
    "Verif.AbsMag.Props.C72_grouped",
    "Verif.AbsMag.Props.C72_order",
    "Verif.AbsMag.Props.C72_accepts",
    "Verif.AbsMag.Props.C72_left_out"
   ],
   "note": "Exact arithmetic, observer positions an arbitrary oracle per exposure (row by row as shown in C29). Both estimators use the delta table their cache state gives, so a stale cached table (C61) affects both alike."
  },
  {
   "property": "C73",
   "status": "proved",
   "theorems": [
    "Verif.Time.Props.C73_from_astropy_array",
    "Verif.Time.Props.C73_scalar_not_normal",
    "Verif.Time.Props.C73_scalar_agrees"
   ],
   "note": "C73_from_astropy_array, C73_scalar_agrees (equivalence), C73_scalar_not_normal (witness)."
  },
  {
   "property": "C74",
   "status": "proved",
   "theorems": [
    "Verif.Mpc.Props.C74_accepts_garbage",
    "Verif.Mpc.Props.C74_packed_unpacks"
   ],
   "note": "C74_packed_unpacks; C74_accepts_garbage: witnesses."
  },
  {
   "property": "C75",
   "status": "proved",
   "theorems": [
    "Verif.Obs80.Props.C75_columns",
    "Verif.Obs80.Props.C75_rejects"
   ],
   "note": "Texts over ASCII white space."
  },
  {
   "property": "C76",
   "status": "proved",
   "theorems": [
    "Verif.Chunk.Props.C76_names_bad_row"
   ],
   "note": "Serial two-body loop; the kernel is an arbitrary row-wise function and finiteness an arbitrary predicate."
  },
  {
   "property": "C77",
   "status": "proved",
   "theorems": [
    "Verif.Spice.Props.C77_translation"
   ],
   "note": "Assuming no digest collision among the epoch lists used and antisymmetric SPICE states."
  },
  {
   "property": "C78",
   "status": "proved",
   "theorems": [
    "Verif.Sched.Props.C78_pairing",
    "Verif.Sched.Props.C78_repeated_id_false"
   ],
   "note": "C78_repeated_id_false: with two rows of the same orbit id and two observer times, a row combines an orbit at one time with an observer at another."
  },
  {
   "property": "C79",
   "status": "proved",
   "theorems": [
    "Verif.Eph2.Props.C79_covariance",
    "Verif.Eph2.Props.C79_covariance_false"
   ],
   "note": "C79_covariance; C79_covariance_false: the witness."
  },
  {
   "property": "C80",
   "status": "proved",
   "theorems": [
    "Verif.Eph2.Props.C80_schedule",
    "Verif.Eph2.Props.C80_failure",
    "Verif.Eph2.Props.C80_edges",
    "Verif.Eph2.Props.C80_empty_false",
    "Verif.Eph2.Props.C80_negative_chunk_false"
   ],
   "note": "Kernels satisfy the Rowwise contract. A negative chunk size with workers returns an empty table (C80_negative_chunk_false), hence the restriction."
  },
  {
   "property": "C81",
   "status": "proved",
   "theorems": [
    "Verif.Collapse.Props.C81_groups",
    "Verif.Collapse.Props.C81_independent",
    "Verif.Collapse.Props.C81_edges",
    "Verif.Collapse.Props.C81_other_groups_false"
   ],
   "note": "C81_groups, C81_independent, C81_edges; C81_other_groups_false: the witness. The circular mean is abstract (symmetric); the aberration modes are not modelled."
  },
  {
   "property": "C82",
   "status": "proved",
   "theorems": [
    "Verif.Collapse.Props.C82_scaled",
    "Verif.Collapse.Props.C82_weights",
    "Verif.Collapse.Props.C82_weights_false"
   ],
   "note": "C82_scaled (weights with non-zero sum), C82_weights (sum one); C82_weights_false: the witness."
  },
  {
   "property": "C83",
   "status": "proved",
   "theorems": [
    "Verif.Collapse.Props.C83_layout",
    "Verif.Collapse.Props.C83_edges",
    "Verif.Collapse.Props.C83_grid_false"
   ],
   "note": "C83_layout, C83_edges; C83_grid_false: the witness."
  },
  {
   "property": "C84",
   "status": "proved",
   "theorems": [
    "Verif.Od.Props.C84_normal",
    "Verif.Od.Props.C84_removed_false",
    "Verif.Od.Props.C84_stale_false"
   ],
   "note": "C84_normal; C84_removed_false and C84_stale_false: witnesses."
  },
  {
   "property": "C85",
   "status": "proved",
   "theorems": [
    "Verif.Fit.Props.C85_duplicates",
    "Verif.Fit.Props.C85_first",
    "Verif.Fit.Props.C85_last"
   ],
   "note": "The combination of subset columns is an abstract state."
  },
  {
   "property": "C86",
   "status": "proved",
   "theorems": [
    "Verif.Fit.Props.C86_removed",
    "Verif.Fit.Props.C86_one",
    "Verif.Fit.Props.C86_errors",
    "Verif.Fit.Props.C86_raises",
    "Verif.Fit.Props.C86_one_false"
   ],
   "note": "C86_removed, C86_one (equivalence), C86_errors; C86_one_false: the witness."
  },
  {
   "property": "C87",
   "status": "proved",
   "theorems": [
    "Verif.Iod.Props.C87_paired",
    "Verif.Iod.Props.C87_unsorted_false"
   ],
   "note": "C87_paired; C87_unsorted_false: the witness. iod_worker sorts before it calls."
  },
  {
   "property": "C88",
   "status": "proved",
   "theorems": [
    "Verif.Iod.Props.C88_combinations",
    "Verif.Iod.Props.C88_increasing",
    "Verif.Iod.Props.C88_ranks"
   ],
   "note": "Times are exact; np.lexsort is a stable sort. The percentile positions are a parameter."
  },
  {
   "property": "C89",
   "status": "proved",
   "theorems": [
    "Verif.Band.Props.C89_accepts",
    "Verif.Band.Props.C89_order"
   ],
   "note": "Float sorting is exact; samples that are not finite are one abstract value."
  },
  {
   "property": "C90",
   "status": "proved",
   "theorems": [
    "Verif.Band.Props.C90_mixture",
    "Verif.Band.Props.C90_grey",
    "Verif.Band.Props.C90_grey_colours",
    "Verif.Band.Props.C90_mag10"
   ],
   "note": "Exact arithmetic in any ordered field; np.interp and np.trapezoid are modelled by their definitions for increasing wavelengths. The packaged integrals are data."
  },
  {
   "property": "C91",
   "status": "proved",
   "theorems": [
    "Verif.Hg.Props.C91_predict",
    "Verif.Hg.Props.C91_accepts",
    "Verif.Hg.Props.C91_state"
   ],
   "note": "Exact arithmetic; NaN and infinity explicit. exposures.observers() is an argument (modelled in Joins)."
  },
  {
   "property": "C92",
   "status": "proved",
   "theorems": [
    "Verif.AbsMag.Props.C92_accepts",
    "Verif.AbsMag.Props.C92_weighted",
    "Verif.AbsMag.Props.C92_unweighted",
    "Verif.AbsMag.Props.C92_between",
    "Verif.AbsMag.Props.C92_columns",
    "Verif.AbsMag.Props.C92_scatter",
    "Verif.AbsMag.Props.C92_shift",
    "Verif.AbsMag.Props.C92_scale",
    "Verif.AbsMag.Props.C92_order",
    "Verif.AbsMag.Props.C92_recover"
   ],
   "note": "Exact arithmetic; sums that overflow are not modelled."
  },
  {
   "property": "C93",
   "status": "proved",
   "theorems": [
    "Verif.Resid.Props.C93_rows",
    "Verif.Resid.Props.C93_accepts",
    "Verif.Resid.Props.C93_mixed_false"
   ],
   "note": "Exact arithmetic; a covariance is singular exactly when its determinant is zero. C93_mixed_false: two rows, each accepted alone, raise together when one of them has no covariance."
  },
  {
   "property": "C94",
   "status": "proved",
   "theorems": [
    "Verif.Resid.Props.C94_single",
    "Verif.Resid.Props.C94_covariance",
    "Verif.Resid.Props.C94_mahalanobis",
    "Verif.Resid.Props.C94_nonneg",
    "Verif.Resid.Props.C94_latitude",
    "Verif.Resid.Props.C94_no_latitude",
    "Verif.Resid.Props.C94_pole",
    "Verif.Resid.Props.C94_dof",
    "Verif.Resid.Props.C94_reduced"
   ],
   "note": "Exact arithmetic, cumulative distribution function an arbitrary oracle. In floating point cos(90°) is about 6e-17 rather than 0, so the pole case gives a badly scaled matrix instead of an error."
  },
  {
   "property": "C95",
   "status": "proved",
   "theorems": [
    "Verif.Xform.Props.C95_round_trip",
    "Verif.Xform.Props.C95_path"
   ],
   "note": "Exact arithmetic; the hypothesis Consistent says that states of origins are differences of places."
  },
  {
   "property": "C96",
   "status": "proved",
   "theorems": [
    "Verif.Univ.Props.C96_compose",
    "Verif.Univ.Props.C96_back",
    "Verif.Univ.Props.C96_period",
    "Verif.Univ.Props.C96_propagate"
   ],
   "note": "Exact arithmetic; for the anomalies that solve the Kepler equations, and for the propagator when its last corrections are zero."
  },
  {
   "property": "C97",
   "status": "proved",
   "theorems": [
    "Verif.Kep.Props.C97_range",
    "Verif.Kep.Props.C97_elliptic",
    "Verif.Kep.Props.C97_hyperbolic",
    "Verif.Kep.Props.C97_unique",
    "Verif.Kep.Props.C97_round_trip",
    "Verif.Kep.Props.C97_iterations",
    "Verif.Kep.Props.C97_unconverged_false"
   ],
   "note": "Exact arithmetic. The bounds are for runs that stop before the limit; C97_unconverged_false shows they cannot hold for all runs. C140 and C141 say which runs stop."
  },
  {
   "property": "C98",
   "status": "proved",
   "theorems": [
    "Verif.Kep.Props.C98_motion",
    "Verif.Kep.Props.C98_elliptic",
    "Verif.Kep.Props.C98_hyperbolic",
    "Verif.Kep.Props.C98_period",
    "Verif.Kep.Props.C98_cometary",
    "Verif.Kep.Props.C98_cometary_hyperbolic",
    "Verif.Kep.Props.C98_cometary_false",
    "Verif.Kep.Props.C98_parabolic",
    "Verif.Kep.Props.C98_parabolic_false",
    "Verif.Kep.Props.C98_checks"
   ],
   "note": "Exact arithmetic; runs of the Kepler solver that stop before the limit (C140 and C141 say which). False for hyperbolas before periapsis and parabolas given by cometary elements: C98_cometary_false, C98_parabolic_false."
  },
  {
   "property": "C99",
   "status": "proved",
   "theorems": [
    "Verif.Kep.Props.C99_elliptic",
    "Verif.Kep.Props.C99_round_trip",
    "Verif.Kep.Props.C99_hyperbolic",
    "Verif.Kep.Props.C99_hyperbolic_false",
    "Verif.Kep.Props.C99_inverse",
    "Verif.Kep.Props.C99_derived",
    "Verif.Kep.Props.C99_planar_false",
    "Verif.Kep.Props.C99_circular_false",
    "Verif.Kep.Props.C99_nearly_circular_false"
   ],
   "note": "Exact arithmetic. Degenerate and wrong cases are proved as C99_hyperbolic_false, C99_planar_false, C99_circular_false, C99_nearly_circular_false."
  },
  {
   "property": "C100",
   "status": "proved",
   "theorems": [
    "Verif.Kep.Props.C100_elliptic",
    "Verif.Kep.Props.C100_round_trip",
    "Verif.Kep.Props.C100_hyperbolic",
    "Verif.Kep.Props.C100_hyperbolic_false"
   ],
   "note": "Exact arithmetic. C100_hyperbolic_false is the wrong case."
  },
  {
   "property": "C101",
   "status": "proved",
   "theorems": [
    "Verif.Sph.Props.C101_astrometric",
    "Verif.Sph.Props.C101_apparent",
    "Verif.Sph.Props.C101_turn"
   ],
   "note": "The propagator and the obliquity are parameters. The rows, chunks and error reports of generate_ephemeris_2body around the kernel are in C31 and C79."
  },
  {
   "property": "C102",
   "status": "proved",
   "theorems": [
    "Verif.Sph.Props.C102_geodetic",
    "Verif.Sph.Props.C102_columns",
    "Verif.Sph.Props.C102_position_exists",
    "Verif.Sph.Props.C102_latitude_false",
    "Verif.Sph.Props.C102_columns_false",
    "Verif.Sph.Props.C102_poles"
   ],
   "note": "Exact arithmetic; geodetic position defined by the foot of the normal on the ellipsoid. C102_geodetic is an equivalence, C102_latitude_false and C102_columns_false are concrete witnesses (WGS84)."
  },
  {
   "property": "C103",
   "status": "proved",
   "theorems": [
    "Verif.Sigma.Props.C103_error",
    "Verif.Sigma.Props.C103_unchanged",
    "Verif.Sigma.Props.C103_close",
    "Verif.Sigma.Props.C103_psd",
    "Verif.Sigma.Props.C103_random_error",
    "Verif.Sigma.Props.C103_tolerance_false",
    "Verif.Sigma.Props.C103_random"
   ],
   "note": "Exact arithmetic with the spectral theorem for the eigendecomposition; the multivariate normal sampler is a parameter. C103_tolerance_false: a caller's semidef_tol above 1e-15 does not reach make_positive_semidefinite. C103_psd: an eigenvalue of exactly -tol survives."
  },
  {
   "property": "C104",
   "status": "proved",
   "theorems": [
    "Verif.Sigma.Props.C104_rows",
    "Verif.Sigma.Props.C104_defined",
    "Verif.Sigma.Props.C104_missing",
    "Verif.Sigma.Props.C104_auto",
    "Verif.Sigma.Props.C104_recover",
    "Verif.Sigma.Props.C104_seed",
    "Verif.Sigma.Props.C104_seed_false",
    "Verif.Sigma.Props.C104_single"
   ],
   "note": "Exact arithmetic; scipy's sqrtm and multivariate_normal.rvs are parameters. A covariance that is not symmetric is not modelled. C104_seed_false is the negation for auto; C104_single the IndexError."
  },
  {
   "property": "C105",
   "status": "proved",
   "theorems": [
    "Verif.Porkchop.Props.C105_pairs",
    "Verif.Porkchop.Props.C105_order",
    "Verif.Porkchop.Props.C105_solution",
    "Verif.Porkchop.Props.C105_parallel",
    "Verif.Porkchop.Props.C105_errors",
    "Verif.Porkchop.Props.C105_origin_false",
    "Verif.Porkchop.Props.C105_scale_false"
   ],
   "note": "Exact arithmetic: mjd() does not round, so rows closer in time than about a microsecond may be treated differently in floating point. Chunks of 100 rows, scheduling as in C32 (any choice of the finished task). The plotting functions are not modelled."
  },
  {
   "property": "C106",
   "status": "proved",
   "theorems": [
    "Verif.Gauss.Props.C106_orbits",
    "Verif.Gauss.Props.C106_distance",
    "Verif.Gauss.Props.C106_three",
    "Verif.Gauss.Props.C106_table",
    "Verif.Gauss.Props.C106_errors"
   ],
   "note": "Exact arithmetic; numpy.roots is an arbitrary function, required to be exact only where stated. The conversion of RA and Dec to unit vectors is not repeated (C44, C45)."
  },
  {
   "property": "C107",
   "status": "proved",
   "theorems": [
    "Verif.Moid.Props.C107_rows",
    "Verif.Moid.Props.C107_once",
    "Verif.Moid.Props.C107_failure",
    "Verif.Moid.Props.C107_errors"
   ],
   "note": "Ray is modelled as any order of completion; get_perturber_state is an arbitrary function that may fail."
  },
  {
   "property": "C108",
   "status": "proved",
   "theorems": [
    "Verif.Gauss.Props.C108_gauss",
    "Verif.Gauss.Props.C108_gauss_false",
    "Verif.Gauss.Props.C108_herrick_gibbs"
   ],
   "note": "Exact arithmetic."
  },
  {
   "property": "C109",
   "status": "proved",
   "theorems": [
    "Verif.Rot.Props.C109_columns",
    "Verif.Rot.Props.C109_zero_points",
    "Verif.Rot.Props.C109_model",
    "Verif.Rot.Props.C109_groups",
    "Verif.Rot.Props.C109_missing_false"
   ],
   "note": "Rot.Design transcribes the fixed design. Filters and sessions are strings, missing ones the strings the code puts in their place."
  },
  {
   "property": "C110",
   "status": "proved",
   "theorems": [
    "Verif.Rot.Props.C110_refused",
    "Verif.Rot.Props.C110_grid",
    "Verif.Rot.Props.C110_spacing",
    "Verif.Rot.Props.C110_near",
    "Verif.Rot.Props.C110_cap_false",
    "Verif.Rot.Props.C110_resolution_false"
   ],
   "note": "Rot.Search transcribes the grid in exact arithmetic (np.linspace without rounding). A span of zero is not modelled (it is refused before)."
  },
  {
   "property": "C111",
   "status": "proved",
   "theorems": [
    "Verif.Rot.Props.C111_none",
    "Verif.Rot.Props.C111_exact",
    "Verif.Rot.Props.C111_staged",
    "Verif.Rot.Props.C111_missed_false",
    "Verif.Rot.Props.C111_minima"
   ],
   "note": "Rot.Search transcribes the search for the numpy backend, with the fits at one frequency arbitrary."
  },
  {
   "property": "C112",
   "status": "proved",
   "theorems": [
    "Verif.Rot.Props.C112_error",
    "Verif.Rot.Props.C112_best",
    "Verif.Rot.Props.C112_threshold",
    "Verif.Rot.Props.C112_partition",
    "Verif.Rot.Props.C112_clusters",
    "Verif.Rot.Props.C112_span",
    "Verif.Rot.Props.C112_neighbours",
    "Verif.Rot.Props.C112_primary",
    "Verif.Rot.Props.C112_period",
    "Verif.Rot.Props.C112_reliable",
    "Verif.Rot.Props.C112_even",
    "Verif.Rot.Props.C112_doubled"
   ],
   "note": "Exact real arithmetic; fits and the F distribution are arbitrary functions; one fit per order and frequency."
  },
  {
   "property": "C113",
   "status": "proved",
   "theorems": [
    "Verif.Rot.Props.C113_coverage",
    "Verif.Rot.Props.C113_amplitude",
    "Verif.Rot.Props.C113_enough",
    "Verif.Rot.Props.C113_period",
    "Verif.Rot.Props.C113_consistent",
    "Verif.Rot.Props.C113_insufficient",
    "Verif.Rot.Props.C113_single",
    "Verif.Rot.Props.C113_flags",
    "Verif.Rot.Props.C113_reasons",
    "Verif.Rot.Props.C113_reason_false",
    "Verif.Rot.Props.C113_search",
    "Verif.Rot.Props.C113_flags_false"
   ],
   "note": "Exact real arithmetic, all numbers finite; the solution and the fit at half the frequency are arbitrary."
  },
  {
   "property": "C114",
   "status": "proved",
   "theorems": [
    "Verif.Rot.Props.C114_validate",
    "Verif.Rot.Props.C114_refused",
    "Verif.Rot.Props.C114_screened",
    "Verif.Rot.Props.C114_errors",
    "Verif.Rot.Props.C114_raises",
    "Verif.Rot.Props.C114_safe",
    "Verif.Rot.Props.C114_sessions",
    "Verif.Rot.Props.C114_bic_false",
    "Verif.Rot.Props.C114_fidelity",
    "Verif.Rot.Props.C114_screen_false",
    "Verif.Rot.Props.C114_strings_false",
    "Verif.Rot.Props.C114_shift",
    "Verif.Rot.Props.C114_sigmas",
    "Verif.Rot.Props.C114_auto_false",
    "Verif.Rot.Props.C114_period_false"
   ],
   "note": "Rot.Estimate transcribes the estimator over the reals; least squares, the F distribution, the phase priors and the speed of light are arbitrary, the two backends are taken to give the same fits, and orders are at least 1."
  },
  {
   "property": "C115",
   "status": "proved",
   "theorems": [
    "Verif.Rot.Props.C115_groups",
    "Verif.Rot.Props.C115_same",
    "Verif.Rot.Props.C115_single",
    "Verif.Rot.Props.C115_best",
    "Verif.Rot.Props.C115_swallow_false",
    "Verif.Rot.Props.C115_order",
    "Verif.Rot.Props.C115_params_false"
   ],
   "note": "Rot.Wrap over the reals; the estimator is an arbitrary function of the observations, and C115_params_false uses the model of C114."
  },
  {
   "property": "C116",
   "status": "proved",
   "theorems": [
    "Verif.Rot.Props.C116_rows",
    "Verif.Rot.Props.C116_errors",
    "Verif.Rot.Props.C116_swallow_false",
    "Verif.Rot.Props.C116_ids_false"
   ],
   "note": "Rot.Wrap: the estimator is an arbitrary function of the row numbers; ids are lists of characters compared by code point, as numpy does."
  },
  {
   "property": "C117",
   "status": "proved",
   "theorems": [
    "Verif.Rot.Props.C117_rows",
    "Verif.Rot.Props.C117_errors",
    "Verif.Rot.Props.C117_time_false"
   ],
   "note": "Rot.Wrap over the reals; observatory positions, nights and phase angles are arbitrary functions, the frame is taken to be the ecliptic one already, and exposure ids are strings that are not null."
  },
  {
   "property": "C118",
   "status": "proved",
   "theorems": [
    "Verif.Rot.Props.C118_night",
    "Verif.Rot.Props.C118_monotone",
    "Verif.Rot.Props.C118_early_false",
    "Verif.Rot.Props.C118_host_false"
   ],
   "note": "Rot.Wrap over the reals; time zones are arbitrary functions from instants to offsets. The observatory table and the grouping by code are left out."
  },
  {
   "property": "C119",
   "status": "proved",
   "theorems": [
    "Verif.Rot.Props.C119_same",
    "Verif.Rot.Props.C119_close",
    "Verif.Rot.Props.C119_ridge_false",
    "Verif.Rot.Props.C119_bucket"
   ],
   "note": "Rot.Jax over the reals; jnp.linalg.solve is any function that solves equations that are not singular, LinSolve. Caching of compiled code is left out. The threshold of clipping is taken to be positive, as the estimator requires."
  },
  {
   "property": "C120",
   "status": "proved",
   "theorems": [
    "Verif.Rot.Props.C120_harmonic",
    "Verif.Rot.Props.C120_adjusted",
    "Verif.Rot.Props.C120_bucket",
    "Verif.Rot.Props.C120_names",
    "Verif.Rot.Props.C120_label",
    "Verif.Rot.Props.C120_tolerance",
    "Verif.Rot.Props.C120_negative_false",
    "Verif.Rot.Props.C120_alias",
    "Verif.Rot.Props.C120_exact_false"
   ],
   "note": "Rot.Metrics over the reals, without NaN and without a true period of zero."
  },
  {
   "property": "C121",
   "status": "proved",
   "theorems": [
    "Verif.Cov.Props.C121_shape",
    "Verif.Cov.Props.C121_rows",
    "Verif.Cov.Props.C121_round_trip",
    "Verif.Cov.Props.C121_refuses",
    "Verif.Cov.Props.C121_one_each",
    "Verif.Cov.Props.C121_miscut",
    "Verif.Cov.Props.C121_nulls",
    "Verif.Cov.Props.C121_all_nan",
    "Verif.Cov.Props.C121_case"
   ],
   "note": "Exact conditions in both directions (C121_shape, C121_refuses, C121_one_each), the readings (C121_rows, C121_round_trip, C121_nulls, C121_all_nan) and the miscut witness (C121_miscut), over an arbitrary type of numbers."
  },
  {
   "property": "C122",
   "status": "proved",
   "theorems": [
    "Verif.Cov.Props.C122_entry",
    "Verif.Cov.Props.C122_diagonal",
    "Verif.Cov.Props.C122_zero_off_diagonal",
    "Verif.Cov.Props.C122_symmetric",
    "Verif.Cov.Props.C122_round_trip",
    "Verif.Cov.Props.C122_refuses",
    "Verif.Cov.Props.C122_case"
   ],
   "note": "Numbers are real numbers, infinities or NaN with the rules of IEEE arithmetic for 0 times them; rounding of the squares is not modelled. The docstring's claim of zeros is refuted by the exact conditions C122_entry, C122_zero_off_diagonal, C122_symmetric."
  },
  {
   "property": "C123",
   "status": "proved",
   "theorems": [
    "Verif.Ric.Props.C123_rotation",
    "Verif.Ric.Props.C123_axes",
    "Verif.Ric.Props.C123_unique",
    "Verif.Ric.Props.C123_frame",
    "Verif.Ric.Props.C123_degenerate",
    "Verif.Ric.Props.C123_tolerance_absolute",
    "Verif.Ric.Props.C123_six",
    "Verif.Ric.Props.C123_case"
   ],
   "note": "In exact real arithmetic."
  },
  {
   "property": "C124",
   "status": "proved",
   "theorems": [
    "Verif.Tiss.Props.C124_names",
    "Verif.Tiss.Props.C124_number",
    "Verif.Tiss.Props.C124_crossing",
    "Verif.Tiss.Props.C124_crossing_unbound",
    "Verif.Tiss.Props.C124_three",
    "Verif.Tiss.Props.C124_inclination",
    "Verif.Tiss.Props.C124_case",
    "Verif.Tiss.Props.C124_planets"
   ],
   "note": "In exact real arithmetic, with NaN as no value."
  },
  {
   "property": "C125",
   "status": "proved",
   "theorems": [
    "Verif.Catalog.Props.C125_objects",
    "Verif.Catalog.Props.C125_objects_order",
    "Verif.Catalog.Props.C125_exposures",
    "Verif.Catalog.Props.C125_exposure_groups",
    "Verif.Catalog.Props.C125_codes",
    "Verif.Catalog.Props.C125_pixels",
    "Verif.Catalog.Props.C125_case"
   ],
   "note": "Rows and keys are of arbitrary type; the healpix number is an arbitrary function of the row."
  },
  {
   "property": "C126",
   "status": "proved",
   "theorems": [
    "Verif.Catalog.Props.C126_detections",
    "Verif.Catalog.Props.C126_exposures_refused",
    "Verif.Catalog.Props.C126_exposures",
    "Verif.Catalog.Props.C126_exposures_conflict",
    "Verif.Catalog.Props.C126_covariance",
    "Verif.Catalog.Props.C126_covariance_missing",
    "Verif.Catalog.Props.C126_midpoints_agree",
    "Verif.Catalog.Props.C126_midpoints",
    "Verif.Catalog.Props.C126_midpoints_empty_false",
    "Verif.Catalog.Props.C126_midpoints_refused",
    "Verif.Catalog.Props.C126_case"
   ],
   "note": "Column validators and non-null columns are modelled as refusals; durations are rational, covariances real."
  },
  {
   "property": "C127",
   "status": "proved",
   "theorems": [
    "Verif.Link.Props.C127_refuses",
    "Verif.Link.Props.C127_every_row_once",
    "Verif.Link.Props.C127_linked",
    "Verif.Link.Props.C127_close",
    "Verif.Link.Props.C127_boundary",
    "Verif.Link.Props.C127_warning",
    "Verif.Link.Props.C127_warning_hidden",
    "Verif.Link.Props.C127_times",
    "Verif.Link.Props.C127_case"
   ],
   "note": "The scale conversion is an arbitrary function of the row (Time module: C07). quivr's MultiKeyLinkage is modelled as the partition of both tables by key."
  },
  {
   "property": "C128",
   "status": "proved",
   "theorems": [
    "Verif.Dates.Props.C128_round_trip",
    "Verif.Dates.Props.C128_refuses",
    "Verif.Dates.Props.C128_time",
    "Verif.Dates.Props.C128_fields",
    "Verif.Dates.Props.C128_fourteen_digits",
    "Verif.Dates.Props.C128_long_refused",
    "Verif.Dates.Props.C128_sixty_seconds",
    "Verif.Dates.Props.C128_lenient",
    "Verif.Dates.Props.C128_characters",
    "Verif.Dates.Props.C128_list",
    "Verif.Dates.Props.C128_case"
   ],
   "note": "Binary64 rounding is modelled (F64.fl), so C128_long_refused and C128_sixty_seconds are about the values the code computes. What astropy accepts is a stated contract (hours at most 23, minutes at most 59, no minus sign, sixty seconds is the next minute)."
  },
  {
   "property": "C129",
   "status": "proved",
   "theorems": [
    "Verif.Dc.Props.C129_serial",
    "Verif.Dc.Props.C129_input",
    "Verif.Dc.Props.C129_ids_ignored",
    "Verif.Dc.Props.C129_ids_restrict",
    "Verif.Dc.Props.C129_parallel",
    "Verif.Dc.Props.C129_parallel_differs",
    "Verif.Dc.Props.C129_mixed_differs",
    "Verif.Dc.Props.C129_repeated_id",
    "Verif.Dc.Props.C129_chunk",
    "Verif.Dc.Props.C129_case"
   ],
   "note": "The fit of one orbit (od, C53, C84) is an arbitrary function of its rows that may fail; the scheduler is every choice of completions and of when the queue is full."
  },
  {
   "property": "C130",
   "status": "proved",
   "theorems": [
    "Verif.Dc.Props.C130_members",
    "Verif.Dc.Props.C130_same_members",
    "Verif.Dc.Props.C130_order",
    "Verif.Dc.Props.C130_unique",
    "Verif.Dc.Props.C130_linkages",
    "Verif.Dc.Props.C130_repeated",
    "Verif.Dc.Props.C130_case"
   ],
   "note": "The join delivers its rows in an arbitrary order (C130 theorems hold for every permutation)."
  },
  {
   "property": "C131",
   "status": "proved",
   "theorems": [
    "Verif.Elements.Props.C131_keplerian",
    "Verif.Elements.Props.C131_turn",
    "Verif.Elements.Props.C131_cometary",
    "Verif.Elements.Props.C131_parabola",
    "Verif.Elements.Props.C131_inconsistent",
    "Verif.Elements.Props.C131_case"
   ],
   "note": "In exact real arithmetic with infinities and NaN. The motion is the solution of Newton's equation (PeriapsisMotion, C98), nearest, farthest, period and semi-latus rectum are defined from the motion alone."
  },
  {
   "property": "C132",
   "status": "proved",
   "theorems": [
    "Verif.Sbdb.Props.C132_accepts",
    "Verif.Sbdb.Props.C132_matrix",
    "Verif.Sbdb.Props.C132_sigmas",
    "Verif.Sbdb.Props.C132_unchecked",
    "Verif.Sbdb.Props.C132_case"
   ],
   "note": "JSON is modelled by what the code can tell apart; numbers are reals, infinities or NaN. The conversion of the times is in module Time, that of the elements in module Kep."
  },
  {
   "property": "C133",
   "status": "proved",
   "theorems": [
    "Verif.Sbdb.Props.C133_same",
    "Verif.Sbdb.Props.C133_newer_reads_more",
    "Verif.Sbdb.Props.C133_case"
   ],
   "note": "What astroquery makes of an answer is a stated contract (astro): dicts with the last value of each name, numbers read as by float. Matrices smaller than 6 by 6 are taken as refused by the older query."
  },
  {
   "property": "C134",
   "status": "proved",
   "theorems": [
    "Verif.Scout.Props.C134_attempts",
    "Verif.Scout.Props.C134_negative_delay",
    "Verif.Scout.Props.C134_case"
   ],
   "note": "The server is an arbitrary oracle. That a body which is no JSON raises a RequestException without response is a contract on requests."
  },
  {
   "property": "C135",
   "status": "proved",
   "theorems": [
    "Verif.Scout.Props.C135_classes",
    "Verif.Scout.Props.C135_attributes",
    "Verif.Scout.Props.C135_not_json"
   ],
   "note": "casefold is an arbitrary function of the text."
  },
  {
   "property": "C136",
   "status": "proved",
   "theorems": [
    "Verif.Scout.Props.C136_one",
    "Verif.Scout.Props.C136_extra_field",
    "Verif.Scout.Props.C136_query",
    "Verif.Scout.Props.C136_ids_shared"
   ],
   "note": "Which values fit a column of pyarrow and which numbers a text denotes are arbitrary functions; the conversion to Cartesian coordinates is in module Kep."
  },
  {
   "property": "C137",
   "status": "proved",
   "theorems": [
    "Verif.Scout.Props.C137_query",
    "Verif.Scout.Props.C137_one",
    "Verif.Scout.Props.C137_errors",
    "Verif.Scout.Props.C137_number_version",
    "Verif.Scout.Props.C137_case"
   ],
   "note": "Uses the exact characterisation of the strict reader (C18). The hash is an opaque text."
  },
  {
   "property": "C138",
   "status": "proved",
   "theorems": [
    "Verif.Horizons.Props.C138_rows",
    "Verif.Horizons.Props.C138_failure",
    "Verif.Horizons.Props.C138_arguments",
    "Verif.Horizons.Props.C138_order",
    "Verif.Horizons.Props.C138_origin",
    "Verif.Horizons.Props.C138_origin_false",
    "Verif.Horizons.Props.C138_case"
   ],
   "note": "Horizons and astroquery are an arbitrary oracle; the conversions of times and elements are arbitrary functions. C138_order needs that they keep the order of the times asked for, and a stable sort (pandas with several keys, pyarrow)."
  },
  {
   "property": "C139",
   "status": "proved",
   "theorems": [
    "Verif.Horizons.EphProps.C139_rows",
    "Verif.Horizons.EphProps.C139_errors",
    "Verif.Horizons.EphProps.C139_pairs",
    "Verif.Horizons.EphProps.C139_frame",
    "Verif.Horizons.EphProps.C139_direction_false",
    "Verif.Horizons.EphProps.C139_case"
   ],
   "note": "Dates are rationals. The rotation between the frames is the one of C45."
  },
  {
   "property": "C140",
   "status": "proved",
   "theorems": [
    "Verif.Kep.Props.C140_elliptic",
    "Verif.Kep.Props.C140_limit",
    "Verif.Kep.Props.C140_state"
   ],
   "note": "Exact arithmetic. Convex Newton iteration: the product of the function and its derivative falls to a quarter in every step. Nothing is claimed for 0.9 < e < 1 where the first correction crosses apoapsis."
  },
  {
   "property": "C141",
   "status": "proved",
   "theorems": [
    "Verif.Kep.Props.C141_limit",
    "Verif.Kep.Props.C141_default",
    "Verif.Kep.Props.C141_state",
    "Verif.Kep.Props.C141_default_false"
   ],
   "note": "Exact arithmetic. Nothing is claimed for 1 < e < 1.01 or 35 < |M| < 110 with the default limit of 100 corrections."
  },
  {
   "property": "C142",
   "status": "proved",
   "theorems": [
    "Verif.Univ.Props.C142_rotation",
    "Verif.Univ.Props.C142_frame",
    "Verif.Univ.Props.C142_epoch",
    "Verif.Univ.Props.C142_frame_false"
   ],
   "note": "Exact arithmetic, on the universal-variable model of C96; rotations are linear maps that keep lengths."
  },
  {
   "property": "C143",
   "status": "proved",
   "theorems": [
    "Verif.Sched.Props.C143_index",
    "Verif.Sched.Props.C143_index_false"
   ],
   "note": "Workers complete in any order; the chunk is the one whose failure is noticed first."
  },
  {
   "property": "C144",
   "status": "proved",
   "theorems": [
    "Verif.Neocc.Props.C144_document",
    "Verif.Neocc.Props.C144_accepts"
   ],
   "note": "White space is ASCII and `float` is an arbitrary partial function. Files whose other record tags begin with one of the five tags, or whose name begins like a header line or a tag, are outside the format modelled. The derived parameters in comments are not modelled (they are used nowhere)."
  },
  {
   "property": "C145",
   "status": "proved",
   "theorems": [
    "Verif.Neocc.Props.C145_rows",
    "Verif.Neocc.Props.C145_error",
    "Verif.Neocc.Props.C145_arguments",
    "Verif.Neocc.Props.C145_missing_false"
   ],
   "note": "Server answers are arbitrary; the construction of the orbit (which includes the transformation to Cartesian coordinates) is an arbitrary partial function of the record."
  },
  {
   "property": "C146",
   "status": "proved",
   "theorems": [
    "Verif.Lsq.Props.C146_result",
    "Verif.Lsq.Props.C146_edges",
    "Verif.Lsq.Props.C146_options",
    "Verif.Lsq.Props.C146_cost",
    "Verif.Lsq.Props.C146_not_worse",
    "Verif.Lsq.Props.C146_labels_false"
   ],
   "note": "Propagator, residuals of one row and the minimiser (scipy) are arbitrary functions; exact real arithmetic."
  },
  {
   "property": "C147",
   "status": "proved",
   "theorems": [
    "Verif.Lsq.Props.C147_inverse",
    "Verif.Lsq.Props.C147_few",
    "Verif.Lsq.Props.C147_six",
    "Verif.Lsq.Props.C147_information",
    "Verif.Lsq.Props.C147_information_false"
   ],
   "note": "Exact arithmetic. The Jacobian of the minimiser is arbitrary in C147_inverse and C147_few and exact in the other theorems; \"missing\" is the row of NaN."
  },
  {
   "property": "C148",
   "status": "proved",
   "theorems": [
    "Verif.Lsq.Step.Props.C148_step",
    "Verif.Lsq.Step.Props.C148_columns",
    "Verif.Lsq.Step.Props.C148_limit",
    "Verif.Lsq.Step.Props.C148_limit_false"
   ],
   "note": "Exact arithmetic; the ephemeris is an arbitrary function of the state with right ascensions in [0, 360)."
  },
  {
   "property": "C149",
   "status": "proved",
   "theorems": [
    "Verif.Lsq.Step.Props.C149_minimum",
    "Verif.Lsq.Step.Props.C149_error",
    "Verif.Lsq.Step.Props.C149_rms"
   ],
   "note": "Exact arithmetic; partial derivatives and residuals are arbitrary numbers. The loop around it is C55 and C85."
  },
  {
   "property": "C150",
   "status": "proved",
   "theorems": [
    "Verif.Viz.Props.C150_errors",
    "Verif.Viz.Props.C150_tables",
    "Verif.Viz.Props.C150_order_false",
    "Verif.Viz.Props.C150_first_false"
   ],
   "note": "The radius of the body and the transformation to geocentric coordinates are an arbitrary function of body, place and time."
  },
  {
   "property": "C151",
   "status": "proved",
   "theorems": [
    "Verif.Viz.Props.C151_times",
    "Verif.Viz.Props.C151_end_false",
    "Verif.Viz.Props.C151_tables",
    "Verif.Viz.Props.C151_errors",
    "Verif.Viz.Props.C151_orbits_false"
   ],
   "note": "Exact arithmetic instead of floats; propagator and transformations arbitrary; the times of impact are in the scale of the variants."
  },
  {
   "property": "C152",
   "status": "proved",
   "theorems": [
    "Verif.Viz.Props.C152_dates",
    "Verif.Viz.Props.C152_end_false"
   ],
   "note": "Exact arithmetic: np.arange with floats can include one more date by rounding."
  },
  {
   "property": "C153",
   "status": "proved",
   "theorems": [
    "Verif.Variants.Props.C153_create",
    "Verif.Variants.Props.C153_error",
    "Verif.Variants.Props.C153_round_trip",
    "Verif.Variants.Props.C153_position",
    "Verif.Variants.Props.C153_affine",
    "Verif.Variants.Props.C153_duplicates_false"
   ],
   "note": "Exact arithmetic; the matrix square root is exact where covariances are recovered (C48_root_exists)."
  },
  {
   "property": "C154",
   "status": "proved",
   "theorems": [
    "Verif.Vendor.Props.C154_curve",
    "Verif.Vendor.Props.C154_errors",
    "Verif.Vendor.Props.C154_order",
    "Verif.Vendor.Props.C154_again",
    "Verif.Vendor.Props.C154_first_false"
   ],
   "note": "Exact arithmetic; np.argsort returns any permutation that sorts."
  },
  {
   "property": "C155",
   "status": "proved",
   "theorems": [
    "Verif.Vendor.Props.C155_curves",
    "Verif.Vendor.Props.C155_normal"
   ],
   "note": "The download and the file written are not modelled: the answer of the service is arbitrary."
  },
  {
   "property": "C156",
   "status": "proved",
   "theorems": [
    "Verif.Vendor.Props.C156_order",
    "Verif.Vendor.Props.C156_spectrum",
    "Verif.Vendor.Props.C156_rows",
    "Verif.Vendor.Props.C156_registered",
    "Verif.Vendor.Props.C156_registered_false",
    "Verif.Vendor.Props.C156_mean",
    "Verif.Vendor.Props.C156_flux"
   ],
   "note": "Exact arithmetic; files are not modelled; curves have samples."
  },
  {
   "property": "C157",
   "status": "proved",
   "theorems": [
    "Verif.Vendor.Props.C157_templates",
    "Verif.Vendor.Props.C157_mixes"
   ],
   "note": "Over the reals, with the exact exponential."
  },
  {
   "property": "C158",
   "status": "proved",
   "theorems": [
    "Verif.Vendor.Props.C158_terms",
    "Verif.Vendor.Props.C158_delta_mag",
    "Verif.Vendor.Props.C158_unknown_false",
    "Verif.Vendor.Props.C158_source"
   ],
   "note": "Exact arithmetic; magnitudes are an arbitrary function except for the change of source, which is over the reals."
  },
  {
   "property": "C159",
   "status": "proved",
   "theorems": [
    "Verif.Openspace.Props.C159_read",
    "Verif.Openspace.Props.C159_entries",
    "Verif.Openspace.Props.C159_list_false",
    "Verif.Openspace.Props.C159_quote_false"
   ],
   "note": "The text of a number is an arbitrary word without quotes or braces; the Lua reader in the specification covers tables, strings, numbers, truth values and calls with one string."
  },
  {
   "property": "C160",
   "status": "proved",
   "theorems": [
    "Verif.Openspace.Props.C160_nodes",
    "Verif.Openspace.Props.C160_kepler",
    "Verif.Openspace.Props.C160_errors",
    "Verif.Openspace.Props.C160_ignored",
    "Verif.Openspace.Props.C160_identifiers_false",
    "Verif.Openspace.Props.C160_modes_false",
    "Verif.Openspace.Props.C160_initialization"
   ],
   "note": "Exact arithmetic; the text of numbers, the form of epochs and the SPICE kernel part of the asset are arbitrary functions."
  },
  {
   "property": "C161",
   "status": "proved",
   "theorems": [
    "Verif.Openspace.Props.C161_epoch",
    "Verif.Openspace.Props.C161_epoch_false"
   ],
   "note": "Exact arithmetic; epochs whose decimal form has no exponent; astropy rounds to milliseconds, half upwards."
  },
  {
   "property": "C162",
   "status": "proved",
   "theorems": [
    "Verif.Band.ResolveProps.C162_total",
    "Verif.Band.ResolveProps.C162_map",
    "Verif.Band.ResolveProps.C162_station",
    "Verif.Band.ResolveProps.C162_wide",
    "Verif.Band.ResolveProps.C162_johnson",
    "Verif.Band.ResolveProps.C162_again",
    "Verif.Band.ResolveProps.C162_assert"
   ],
   "note": "The packaged tables are the lists in vendor.py, not the parquet files made from them."
  },
  {
   "property": "C163",
   "status": "proved",
   "theorems": [
    "Verif.Porkchop.OrbitProps.C163_rows",
    "Verif.Porkchop.OrbitProps.C163_flight"
   ],
   "note": "Exact arithmetic; columns of the table that are null or NaN are one thing."
  },
  {
   "property": "C164",
   "status": "proved",
   "theorems": [
    "Verif.Porkchop.OrbitProps.C164_directions",
    "Verif.Porkchop.OrbitProps.C164_speed",
    "Verif.Porkchop.OrbitProps.C164_errors"
   ],
   "note": "Exact arithmetic; velocities in ecliptic or equatorial axes, ITRF93 is left out."
  },
  {
   "property": "C165",
   "status": "proved",
   "theorems": [
    "Verif.Spice.BodyProps.C165_states",
    "Verif.Spice.BodyProps.C165_errors",
    "Verif.Spice.BodyProps.C165_history",
    "Verif.Spice.BodyProps.C165_perturber",
    "Verif.Spice.BodyProps.C165_case"
   ],
   "note": "State vectors are exact elements of a group; the float ephemeris time is a function of the TDB instant; spkez is a function of loaded kernels, body, ephemeris time, frame and origin."
  },
  {
   "property": "C166",
   "status": "proved",
   "theorems": [
    "Verif.Ray.Props.C166_answer",
    "Verif.Ray.Props.C166_first",
    "Verif.Ray.Props.C166_connect",
    "Verif.Ray.Props.C166_address",
    "Verif.Ray.Props.C166_limit_false"
   ],
   "note": "Ray is two arbitrary functions; logging and the warnings filter are left out."
  },
  {
   "property": "C167",
   "status": "proved",
   "theorems": [
    "Verif.Sph.UnitProps.C167_rows",
    "Verif.Sph.UnitProps.C167_again",
    "Verif.Sph.UnitProps.C167_direction",
    "Verif.Sph.UnitProps.C167_velocity",
    "Verif.Sph.UnitProps.C167_back",
    "Verif.Sph.UnitProps.C167_missing_false"
   ],
   "note": "Exact arithmetic; null and NaN are one thing; a position with any of its three coordinates missing counts as missing."
  },
  {
   "property": "C168",
   "status": "proved",
   "theorems": [
    "Verif.Spk.Type9Props.C168_states",
    "Verif.Spk.Type9Props.C168_polynomial",
    "Verif.Spk.Type9Props.C168_centered",
    "Verif.Spk.Type9Props.C168_written",
    "Verif.Spk.Type9Props.C168_case"
   ],
   "note": "Exact arithmetic; spkw09 and the SPICE reader of type 9 are modelled by their documentation; the text of a float Julian date is an arbitrary function in C168_states and exact elsewhere."
  },
  {
   "property": "C169",
   "status": "proved",
   "theorems": [
    "Verif.Spk.Type9Props.C169_steps",
    "Verif.Spk.Type9Props.C169_short",
    "Verif.Spk.Type9Props.C169_file",
    "Verif.Spk.Type9Props.C169_errors"
   ],
   "note": "The propagator and the writer of a segment are arbitrary functions; a file is its list of segments and whether it is closed."
  },
  {
   "property": "C170",
   "status": "proved",
   "theorems": [
    "Verif.Sph.SiteProps.C170_latitude",
    "Verif.Sph.SiteProps.C170_axis",
    "Verif.Sph.SiteProps.C170_longitude",
    "Verif.Sph.SiteProps.C170_timezone",
    "Verif.Sph.SiteProps.C170_timezone_errors",
    "Verif.Sph.SiteProps.C170_latitude_false",
    "Verif.Sph.SiteProps.C170_small",
    "Verif.Sph.SiteProps.C170_case"
   ],
   "note": "Exact arithmetic; a zero cosine is taken as positive zero; names of the observatories are left out; the answers of the time zone library are arbitrary."
  },
  {
   "property": "C171",
   "status": "proved",
   "theorems": [
    "Verif.Sigma.TransformProps.C171_rows",
    "Verif.Sigma.TransformProps.C171_errors",
    "Verif.Sigma.TransformProps.C171_spread",
    "Verif.Sigma.TransformProps.C171_undefined",
    "Verif.Sigma.TransformProps.C171_affine",
    "Verif.Sigma.TransformProps.C171_repeat_false"
   ],
   "note": "Exact reals; random draws are arbitrary; at least two samples per row and two dimensions, as np.cov otherwise returns another shape."
  },
  {
   "property": "C172",
   "status": "proved",
   "theorems": [
    "Verif.Sigma.TransformProps.C172_rows",
    "Verif.Sigma.TransformProps.C172_compose",
    "Verif.Sigma.TransformProps.C172_back",
    "Verif.Sigma.TransformProps.C172_names",
    "Verif.Sigma.TransformProps.C172_errors",
    "Verif.Sigma.TransformProps.C172_library",
    "Verif.Sigma.TransformProps.C172_order_false",
    "Verif.Sigma.TransformProps.C172_case"
   ],
   "note": "Exact reals; jacfwd is the mathematical derivative where the function is differentiable."
  },
  {
   "property": "C173",
   "status": "proved",
   "theorems": [
    "Verif.Impact.DistanceProps.C173_rows",
    "Verif.Impact.DistanceProps.C173_distance",
    "Verif.Impact.DistanceProps.C173_symmetric",
    "Verif.Impact.DistanceProps.C173_linear",
    "Verif.Impact.DistanceProps.C173_symmetric_false",
    "Verif.Impact.DistanceProps.C173_case"
   ],
   "note": "Exact reals, on top of the model of Residuals.calculate; the value theorems are for complete rows, incomplete rows are covered by C93 and C94."
  },
  {
   "property": "C174",
   "status": "proved",
   "theorems": [
    "Verif.Cart.Props.C174_magnitude",
    "Verif.Cart.Props.C174_direction",
    "Verif.Cart.Props.C174_momentum",
    "Verif.Cart.Props.C174_momentum_constant",
    "Verif.Cart.Props.C174_sigma_missing",
    "Verif.Cart.Props.C174_mean_square",
    "Verif.Cart.Props.C174_directions",
    "Verif.Cart.Props.C174_rotation",
    "Verif.Cart.Props.C174_distance_false",
    "Verif.Cart.Props.C174_km",
    "Verif.Cart.Props.C174_covariance_km",
    "Verif.Cart.Props.C174_covariance_of_km",
    "Verif.Cart.Props.C174_case"
   ],
   "note": "Exact reals, one row; h is modelled for complete rows only (the code also gives single components when others are missing)."
  },
  {
   "property": "C175",
   "status": "proved",
   "theorems": [
    "Verif.Time.Props.C175_assumptions_met",
    "Verif.Time.Props.C175_utc_to_tai",
    "Verif.Time.Props.C175_order_kept",
    "Verif.Time.Props.C175_tai_round_trip",
    "Verif.Time.Props.C175_tai_round_trip_false"
   ],
   "note": "ERFA utctai and taiutc (three rounds of iteration) are modelled from 1972 on, with exact arithmetic; C175_assumptions_met shows that they meet the assumptions of C07, from which utc -> tai -> utc follows (C07_round_trip_exact)."
  },
  {
   "property": "C176",
   "status": "proved",
   "theorems": [
    "Verif.Time.Props.C176_text",
    "Verif.Time.Props.C176_text_ordinary",
    "Verif.Time.Props.C176_text_kept",
    "Verif.Time.Props.C176_row_kept",
    "Verif.Time.Props.C176_utc_text_to_tai",
    "Verif.Time.Props.C176_utc_text_to_tai_false",
    "Verif.Time.Props.C176_text_false"
   ],
   "note": "A text is represented by its fields, the calendar date by its MJD; ERFA d2dtf (three decimals) and dtf2d are modelled with exact arithmetic; floating-point rounding of Julian dates is not."
  },
  {
   "property": "C177",
   "status": "proved",
   "theorems": [
    "Verif.Origin.Props.C177_mu",
    "Verif.Origin.Props.C177_acceleration",
    "Verif.Origin.Props.C177_barycenter",
    "Verif.Origin.Props.C177_origins_false",
    "Verif.Origin.Props.C177_origins",
    "Verif.Origin.Props.C177_code",
    "Verif.Origin.Props.C177_code_round_trip",
    "Verif.Origin.Props.C177_equal",
    "Verif.Origin.Props.C177_unequal",
    "Verif.Origin.Props.C177_naif",
    "Verif.Origin.SharedProps.C177_constant"
   ],
   "note": "Exact arithmetic; nulls in the code column are not modelled. Comparison of arrays of different length is that of numpy 2 (ValueError)."
  },
  {
   "property": "C178",
   "status": "proved",
   "theorems": [
    "Verif.Spice.Props.C178_spread",
    "Verif.Spice.Props.C178_no_collision",
    "Verif.Spice.Props.C178_states_false",
    "Verif.Spice.Props.C178_observer_false",
    "Verif.Time.Int64Props.C178_key",
    "Verif.Time.Int64Props.C178_key_distinct",
    "Verif.Time.Int64Props.C178_key_collide_false",
    "Verif.Time.Int64Props.C178_table",
    "Verif.Time.Int64Props.C178_signature",
    "Verif.Time.Int64Props.C178_arithmetic",
    "Verif.Time.Int64Props.C178_difference",
    "Verif.Time.Int64Props.C178_units",
    "Verif.Time.Int64Props.C178_units_false",
    "Verif.Time.Int64Props.C178_unchecked"
   ],
   "note": "numpy int64 arithmetic and the unchecked pyarrow kernels reduce modulo 2^64, add_checked raises. C178_units_false, C178_states_false, C178_observer_false, C178_key_collide_false are the witnesses."
  },
  {
   "property": "C179",
   "status": "proved",
   "theorems": [
    "Verif.Lambert.IterProps.C179_derivatives",
    "Verif.Lambert.IterProps.C179_step",
    "Verif.Lambert.IterProps.C179_halley",
    "Verif.Lambert.IterProps.C179_local",
    "Verif.Lambert.IterProps.C179_converges",
    "Verif.Lambert.IterProps.C179_minimum",
    "Verif.Lambert.IterProps.C179_shortest_stale",
    "Verif.Lambert.IterProps.C179_shortest_false",
    "Verif.Lambert.IterProps.C179_skipped_false",
    "Verif.Lambert.IterProps.C179_revolutions_false"
   ],
   "note": "Exact reals. Convergence is local: the distance from which the halving holds is not computed, and the range near the parabola in which the series is used (0.77 < x < 1.19, no revolutions) is left out of the statements on steps. C179_skipped_false, C179_shortest_false, C179_revolutions_false are the witnesses."
  },
  {
   "property": "C180",
   "status": "proved",
   "theorems": [
    "Verif.Lambert.CompleteProps.C180_lambert",
    "Verif.Lambert.CompleteProps.C180_solver",
    "Verif.Lambert.CompleteProps.C180_no_time"
   ],
   "note": "Exact reals. The specification IsTransfer is independent of the solver: a solution of Newton's equation (an ODE on all of time) through the two states, the sign of the z component of the angular momentum and the number of periods. The time asked for is met up to the residual, whose smallness is not claimed (see C179)."
  },
  {
   "property": "C181",
   "status": "proved",
   "theorems": [
    "Verif.Lambert.CompleteProps.C181_several",
    "Verif.Lambert.CompleteProps.C181_refused_false",
    "Verif.Lambert.CompleteProps.C181_too_many",
    "Verif.Lambert.CompleteProps.C181_enough"
   ],
   "note": "Exact reals; IsTransfer as for C180. Which of the two transfers the low_path argument selects is not claimed. C181_refused_false is the witness."
  },
  {
   "property": "C182",
   "status": "proved",
   "theorems": [
    "Verif.Iod.CompleteProps.C182_nothing",
    "Verif.Iod.CompleteProps.C182_nothing_false"
   ],
   "note": "The solver and its chi2 values are oracles. Worst observations are those with strictly larger chi2 (ties are broken arbitrarily). C182_nothing_false is the witness for no outliers."
  },
  {
   "property": "C183",
   "status": "proved",
   "theorems": [
    "Verif.Collapse.AberrProps.C183_coordinates",
    "Verif.Collapse.AberrProps.C183_collapse",
    "Verif.Collapse.AberrProps.C183_recompute",
    "Verif.Collapse.AberrProps.C183_edges",
    "Verif.Collapse.AberrProps.C183_fallback_false",
    "Verif.Collapse.AberrProps.C183_recompute_false"
   ],
   "note": "Light-time correction, observatory states, frame changes and the emission-time subtraction are arbitrary functions of one row; float64 is an ordered field; a null and a NaN light time are identified (the code treats them alike in the sums)."
  },
  {
   "property": "C184",
   "status": "proved",
   "theorems": [
    "Verif.Chunk.VectorProps.C184_any_lengths",
    "Verif.Chunk.VectorProps.C184_two_arrays",
    "Verif.Chunk.VectorProps.C184_rows",
    "Verif.Chunk.VectorProps.C184_append",
    "Verif.Chunk.VectorProps.C184_direct",
    "Verif.Chunk.VectorProps.C184_lengths_false"
   ],
   "note": "The conversion of one row is an arbitrary function; jit and vmap are its application to every row."
  },
  {
   "property": "C185",
   "status": "proved",
   "theorems": [
    "Verif.Porkchop.PlotProps.C185_axes",
    "Verif.Porkchop.PlotProps.C185_cells",
    "Verif.Porkchop.PlotProps.C185_shape",
    "Verif.Porkchop.PlotProps.C185_best",
    "Verif.Porkchop.PlotProps.C185_insufficient",
    "Verif.Porkchop.PlotProps.C185_levels",
    "Verif.Porkchop.PlotProps.C185_errors",
    "Verif.Porkchop.PlotProps.C185_unsolved_false",
    "Verif.Porkchop.PlotProps.C185_all",
    "Verif.Porkchop.PlotProps.C185_marker_false"
   ],
   "note": "Grid cells, axes, contour levels, markers, empty figures and refusals are characterised for every table and all limits; the failure on unsolved rows and the hidden marker are proved. Exact reals; dates as MJD (the conversion to datetime reads every scale as UTC); colours, labels and layout are not modelled."
  },
  {
   "property": "C186",
   "status": "proved",
   "theorems": [
    "Verif.Porkchop.ColorProps.C186_scale",
    "Verif.Porkchop.ColorProps.C186_errors",
    "Verif.Porkchop.ColorProps.C186_primary",
    "Verif.Porkchop.ColorProps.C186_names",
    "Verif.Porkchop.ColorProps.C186_saturated",
    "Verif.Porkchop.ColorProps.C186_dark_false",
    "Verif.Porkchop.ColorProps.C186_perceptual",
    "Verif.Porkchop.ColorProps.C186_lightness",
    "Verif.Porkchop.ColorProps.C186_first_false"
   ],
   "note": "Both scales for every colour text and number of levels; light-to-dark is refuted for both. Exact reals; opacity before it is printed with two decimals; hex codes and case folding in ASCII."
  },
  {
   "property": "C187",
   "status": "proved",
   "theorems": [
    "Verif.Viz.SimProps.C187_frames",
    "Verif.Viz.SimProps.C187_tallies",
    "Verif.Viz.SimProps.C187_traces",
    "Verif.Viz.SimProps.C187_best",
    "Verif.Viz.SimProps.C187_errors",
    "Verif.Viz.SimProps.C187_monotone",
    "Verif.Viz.SimProps.C187_complete",
    "Verif.Viz.SimProps.C187_total",
    "Verif.Viz.SimProps.C187_impacting",
    "Verif.Viz.SimProps.C187_hide_false",
    "Verif.Viz.SimProps.C187_complete_false",
    "Verif.Viz.SimProps.C187_percent_false",
    "Verif.Viz.SimProps.C187_midnight_false"
   ],
   "note": "Frames, counts, traces, samples, errors and end of the animation for every input and every random choice without replacement; four natural claims are refuted by witnesses. Times are compared as numbers whatever their scales, as the code does; MJDs without rounding; the best-fit orbit is assumed to have a row per time; Earth, Moon, texts and layout are not modelled."
  },
  {
   "property": "C188",
   "status": "proved",
   "theorems": [
    "Verif.Viz.CorridorProps.C188_errors",
    "Verif.Viz.CorridorProps.C188_frames",
    "Verif.Viz.CorridorProps.C188_ticks",
    "Verif.Viz.CorridorProps.C188_ties_false"
   ],
   "note": "All frames, minutes, ticks and the centre for every table and every order of ties. Exact arithmetic; the transformation to geodetic coordinates is arbitrary; labels, hover texts and layout are not modelled."
  },
  {
   "property": "C189",
   "status": "proved",
   "theorems": [
    "Verif.Viz.ShapeProps.C189_sphere",
    "Verif.Viz.ShapeProps.C189_ellipsoid",
    "Verif.Viz.ShapeProps.C189_extent",
    "Verif.Viz.ShapeProps.C189_error",
    "Verif.Viz.ShapeProps.C189_missing",
    "Verif.Viz.ShapeProps.C189_error_false"
   ],
   "note": "All points of the grids for every input, over the reals; one natural claim is refuted by a witness. Colours and layout are not modelled."
  },
  {
   "property": "C190",
   "status": "proved",
   "theorems": [
    "Verif.Viz.OrbitPlotProps.C190_dates",
    "Verif.Viz.OrbitPlotProps.C190_curves",
    "Verif.Viz.OrbitPlotProps.C190_axes",
    "Verif.Viz.OrbitPlotProps.C190_errors",
    "Verif.Viz.OrbitPlotProps.C190_resolution_false"
   ],
   "note": "Dates, curves, planets, axes and errors for every list of orbits and every propagator; one natural claim is refuted by a witness. Exact arithmetic; infinite periods, for which the conversion to an integer is undefined, and NaN coordinates are left out, as are texts and layout."
  },
  {
   "property": "C191",
   "status": "proved",
   "theorems": [
    "Verif.Openspace.KeplerProps.C191_errors",
    "Verif.Openspace.KeplerProps.C191_files",
    "Verif.Openspace.KeplerProps.C191_attributes",
    "Verif.Openspace.KeplerProps.C191_table",
    "Verif.Openspace.KeplerProps.C191_overwritten_false",
    "Verif.Openspace.KeplerProps.C191_directory_false",
    "Verif.Openspace.KeplerProps.C191_modes_false"
   ],
   "note": "All options, paths and files; three natural claims are refuted by witnesses. Directories, failures to write and the text format of the table (pandas) are not modelled; the elements are those of transform_coordinates. C159 says what a reader of Lua makes of the text of the asset, C161 what the epochs are."
  },
  {
   "property": "C192",
   "status": "proved",
   "theorems": [
    "Verif.Univ.Props.C192_stops",
    "Verif.Univ.Props.C192_default",
    "Verif.Univ.Props.C192_state",
    "Verif.Univ.Props.C192_hyperbola_false",
    "Verif.Univ.Props.C192_outbound",
    "Verif.Univ.Props.C192_outbound_state"
   ],
   "note": "Exact arithmetic instead of float64. Newton's error squares with the factor e/(2(1-e)) and starts below 2e, so 0.9^(2^k) bounds it up to e = 0.6; on the way out the equation is convex. Nothing is claimed for ellipses with e > 0.6, or for parabolas and hyperbolas that pass the closest point within the time span or approach it forward in time, beyond C35_accuracy."
  },
  {
   "property": "C193",
   "status": "proved",
   "theorems": [
    "Verif.Univ.Props.C193_reversal",
    "Verif.Univ.Props.C193_units"
   ],
   "note": "Exact arithmetic instead of float64. The tolerance is a length to the power one half, so a change of units with the same tolerance may stop the iteration elsewhere. Rotations and reflections are C142."
  },
  {
   "property": "C194",
   "status": "proved",
   "theorems": [
    "Verif.Time.FloatProps.C194_mjd",
    "Verif.Time.FloatProps.C194_from_mjd",
    "Verif.Time.FloatProps.C194_round_trip",
    "Verif.Time.FloatProps.C194_round_trip_2038",
    "Verif.Time.FloatProps.C194_normalised",
    "Verif.Time.FloatProps.C194_normalised_false",
    "Verif.Time.FloatProps.C194_exact",
    "Verif.Time.FloatProps.C194_exact_false",
    "Verif.Time.FloatProps.C194_order",
    "Verif.Time.FloatProps.C194_distinct_false",
    "Verif.Time.FloatProps.C194_jd_exact",
    "Verif.Time.FloatProps.C194_jd_mjd",
    "Verif.Time.FloatProps.C194_jd_round_trip",
    "Verif.Time.FloatProps.C194_et",
    "Verif.Time.FloatProps.C194_from_et"
   ],
   "note": "Rounding to nearest, ties to even, with 53 significant bits; exponents are unbounded, infinities and NaN are left out. The leading digits of a float64 are those of its binade, the fraction of a float64 of at least one is exact, and rounding is monotone."
  },
  {
   "property": "C195",
   "status": "proved",
   "theorems": [
    "Verif.Time.AddFloatProps.C195_units_exact",
    "Verif.Time.AddFloatProps.C195_units_error",
    "Verif.Time.AddFloatProps.C195_fractional_refused",
    "Verif.Time.AddFloatProps.C195_fractional_error",
    "Verif.Time.AddFloatProps.C195_fractional_nanos",
    "Verif.Time.AddFloatProps.C195_fractional_exact_false",
    "Verif.Time.AddFloatProps.C195_fractional_back_false"
   ],
   "note": "The same rounding as in C194. The unit and back is off by less than 0.02 ns, which rounding to an integer removes; out of range by monotonicity. The fraction of a float64 of at least one is a multiple of 2^-52, so only a small negative number has a fraction that is rounded to one."
  },
  {
   "property": "C196",
   "status": "proved",
   "theorems": [
    "Verif.Time.AstropyFloatProps.C196_from_astropy",
    "Verif.Time.AstropyFloatProps.C196_round_trip",
    "Verif.Time.AstropyFloatProps.C196_to_astropy",
    "Verif.Time.AstropyFloatProps.C196_scalar",
    "Verif.Time.AstropyFloatProps.C196_scalar_false",
    "Verif.Time.AstropyFloatProps.C196_carry"
   ],
   "note": "Rounding as in C194; divmod by one is the floor and the rounded rest. Astropy itself is not modelled: its two numbers are hypotheses."
  },
  {
   "property": "C197",
   "status": "proved",
   "theorems": [
    "Verif.Time.LeapFloatProps.C197_whole_seconds",
    "Verif.Time.LeapFloatProps.C197_same",
    "Verif.Time.LeapFloatProps.C197_utc_tai",
    "Verif.Time.LeapFloatProps.C197_noon_false"
   ],
   "note": "The code's operations are rounded (as in C194); ERFA's result is an argument, compared with the ERFA model of C175."
  },
  {
   "property": "C198",
   "status": "proved",
   "theorems": [
    "Verif.Viz.SampleFloatProps.C198_dates",
    "Verif.Viz.SampleFloatProps.C198_steps",
    "Verif.Viz.SampleFloatProps.C198_span",
    "Verif.Viz.SampleFloatProps.C198_steps_false",
    "Verif.Viz.SampleFloatProps.C198_dates_false"
   ],
   "note": "numpy's arange is modelled as it computes (count rounded up, values from the difference of the first two). Other steps and dates outside 1948-2038 are covered by the counterexamples only."
  },
  {
   "property": "C199",
   "status": "proved",
   "theorems": [
    "Verif.Time.DurationFloatProps.C199_error",
    "Verif.Time.DurationFloatProps.C199_error_2038",
    "Verif.Time.DurationFloatProps.C199_zero_reverse",
    "Verif.Time.DurationFloatProps.C199_chain",
    "Verif.Time.DurationFloatProps.C199_order",
    "Verif.Time.DurationFloatProps.C199_whole_days",
    "Verif.Time.DurationFloatProps.C199_shift_false",
    "Verif.Time.DurationFloatProps.C199_arc"
   ],
   "note": "The rows are those the code subtracts (for propagation already in TDB). The arc length's rows are those of the observations used."
  },
  {
   "property": "C200",
   "status": "proved",
   "theorems": [
    "Verif.Traj.FloatProps.C200_accepted",
    "Verif.Traj.FloatProps.C200_sound",
    "Verif.Traj.FloatProps.C200_lookup",
    "Verif.Traj.FloatProps.C200_false"
   ],
   "note": "The times are rows in TDB; rescaling them is not part of this model (C07, C09)."
  },
  {
   "property": "C201",
   "status": "proved",
   "theorems": [
    "Verif.Obs80.FloatProps.C201_ra",
    "Verif.Obs80.FloatProps.C201_dec",
    "Verif.Obs80.FloatProps.C201_ra_read",
    "Verif.Obs80.FloatProps.C201_dec_read",
    "Verif.Obs80.FloatProps.C201_order",
    "Verif.Obs80.FloatProps.C201_false"
   ],
   "note": "float of a text is the nearest float64; subnormal numbers are not modelled. The exact readings are those of C17."
  },
  {
   "property": "C202",
   "status": "proved",
   "theorems": [
    "Verif.Time.IsoFloatProps.C202_error",
    "Verif.Time.IsoFloatProps.C202_millis",
    "Verif.Time.IsoFloatProps.C202_leap",
    "Verif.Time.IsoFloatProps.C202_order",
    "Verif.Time.IsoFloatProps.C202_nearest_false"
   ],
   "note": "astropy's split of the MJD is exact and ERFA's d2dtf is modelled with exact arithmetic; only the rounding of Timestamp.mjd is modelled. Rows of other scales are first rescaled to UTC (C07, C175)."
  },
  {
   "property": "C203",
   "status": "proved",
   "theorems": [
    "Verif.Catalog.FloatProps.C203_agree",
    "Verif.Catalog.FloatProps.C203_exact",
    "Verif.Catalog.FloatProps.C203_error",
    "Verif.Catalog.FloatProps.C203_inside",
    "Verif.Catalog.FloatProps.C203_order",
    "Verif.Catalog.FloatProps.C203_tie_false"
   ],
   "note": "Durations without nulls; overflow of int64 is not modelled here."
  },
  {
   "property": "C204",
   "status": "proved",
   "theorems": [
    "Verif.Units.FloatProps.C204_scalars",
    "Verif.Units.FloatProps.C204_round_trip",
    "Verif.Units.FloatProps.C204_states",
    "Verif.Units.FloatProps.C204_covariances",
    "Verif.Units.FloatProps.C204_identity_false",
    "Verif.Units.FloatProps.C204_definite_false"
   ],
   "note": "The theorems hold for every rational argument; overflow, subnormals, infinities and NaN are left out."
  },
  {
   "property": "C205",
   "status": "proved",
   "theorems": [
    "Verif.Time.LabelFloatProps.C205_error",
    "Verif.Time.LabelFloatProps.C205_fixed",
    "Verif.Time.LabelFloatProps.C205_durations",
    "Verif.Time.LabelFloatProps.C205_order",
    "Verif.Time.LabelFloatProps.C205_exact",
    "Verif.Time.LabelFloatProps.C205_times",
    "Verif.Time.LabelFloatProps.C205_requested_false"
   ],
   "note": "Times in other scales are first rescaled to TDB (C07, C175). C30 and C142 state the times in exact arithmetic."
  },
  {
   "property": "C206",
   "status": "proved",
   "theorems": [
    "Verif.Impact.MeanFloatProps.C206_error",
    "Verif.Impact.MeanFloatProps.C206_two",
    "Verif.Impact.MeanFloatProps.C206_equal_false"
   ],
   "note": "C33 states the mean in exact arithmetic. The bound is for fewer than 2^40 additions in a row."
  }
 ]
}