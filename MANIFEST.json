{
 "claims": [
  {
   "property": "C01",
   "status": "proved",
   "theorems": [
    "Verif.EnumBitset.check_run",
    "Verif.EnumBitset.check_other",
    "Verif.EnumBitset.isClean_run",
    "Verif.EnumBitset.eq_run_iff",
    "Verif.EnumBitset.ne_run_iff",
    "Verif.EnumBitset.check_overlap_counterexample",
    "Verif.EnumBitset.check_zero"
   ],
   "note": "Any bit width, any history; one-hot enumerators. Two witnesses show the one-hot hypothesis is needed."
  },
  {
   "property": "C02",
   "status": "proved",
   "theorems": [
    "Verif.EnumBitset.ofList_eq_run",
    "Verif.EnumBitset.check_ofList",
    "Verif.EnumBitset.ofList_eq_iff"
   ],
   "note": ""
  },
  {
   "property": "C03",
   "status": "proved",
   "theorems": [
    "Verif.Mat2D.offset_lt",
    "Verif.Mat2D.offset_inj",
    "Verif.Mat2D.offset_surj",
    "Verif.Mat2D.trap_row_contiguous",
    "Verif.Mat2D.runSets_spec",
    "Verif.Mat2D.fillWith_spec",
    "Verif.Mat2D.fillWith_outside",
    "Verif.Mat2D.trap_numElements_closed",
    "Verif.Mat2D.trap_upper_alias",
    "Verif.Mat2D.trap_upper_out_of_bounds"
   ],
   "note": "All shapes (also more columns than rows), cells on or below the diagonal; cells above it alias others or leave the buffer, as two theorems show."
  },
  {
   "property": "C04",
   "status": "proved",
   "theorems": [
    "Verif.Mat2D.offset_lt",
    "Verif.Mat2D.offset_inj",
    "Verif.Mat2D.offset_surj",
    "Verif.Mat2D.dense_slices",
    "Verif.Mat2D.dense_numElements",
    "Verif.Mat2D.runSets_spec",
    "Verif.Mat2D.fillWith_spec",
    "Verif.Mat2D.fillWith_outside"
   ],
   "note": ""
  },
  {
   "property": "C05",
   "status": "partial",
   "theorems": [
    "Verif.Mat2D.run_refines",
    "Verif.Mat2D.no_leak",
    "Verif.Mat2D.no_ub",
    "Verif.Mat2D.moveAssign_ub",
    "Verif.Mat2D.moveAssign_leaks"
   ],
   "note": "Holds for every history without move assignment. Violated by move assignment (missing return; old buffer lost). Copying does not compile when instantiated."
  },
  {
   "property": "C06",
   "status": "proved",
   "theorems": [
    "Verif.Harmonic.addr_inBuffer",
    "Verif.Harmonic.addr_inj",
    "Verif.Harmonic.addr_surj",
    "Verif.Harmonic.runStores_spec",
    "Verif.Harmonic.addr_S_zero"
   ],
   "note": ""
  },
  {
   "property": "C07",
   "status": "partial",
   "theorems": [
    "Verif.Harmonic.step_safe",
    "Verif.Harmonic.no_ub",
    "Verif.Harmonic.access_ok",
    "Verif.Harmonic.no_leak_partial",
    "Verif.Harmonic.shrink_leaks_counterexample",
    "Verif.Harmonic.moveAssign_leaks_counterexample",
    "Verif.Harmonic.selfMove_leaks_counterexample",
    "Verif.Harmonic.default_resize_zero_counterexample"
   ],
   "note": "No double free or dangling row for every history. The no-leak half fails for shrinking resize and for move assignment onto a table with data (witnesses); proved for the other histories."
  },
  {
   "property": "C08",
   "status": "proved",
   "theorems": [
    "Verif.Factorial.factorial_eq",
    "Verif.Factorial.factorialRatio_mul",
    "Verif.Factorial.factorialRatio_eq_div",
    "Verif.Factorial.factorialRatio_comm",
    "Verif.Factorial.factorialRatio_lt_counterexample",
    "Verif.Factorial.factorial_wrap"
   ],
   "note": "Element type: any commutative (semi)ring. For N < D the code returns D!/N! (witness)."
  },
  {
   "property": "C09",
   "status": "proved",
   "theorems": [
    "Verif.Harmonic.denormalize_spec",
    "Verif.Harmonic.denormalize_idem",
    "Verif.Harmonic.denormalize_bad_order",
    "Verif.Harmonic.denormalize_degree_zero",
    "Verif.Harmonic.denormalize_partial_order_sticks"
   ],
   "note": "Over the reals."
  },
  {
   "property": "C10",
   "status": "proved",
   "theorems": [
    "Verif.SystemInfo.ofChar_toChar",
    "Verif.SystemInfo.toChar_ofChar",
    "Verif.SystemInfo.ofChar_isSome",
    "Verif.SystemInfo.make_valid",
    "Verif.SystemInfo.make_of_valid",
    "Verif.SystemInfo.make_none_iff",
    "Verif.SystemInfo.make_wraps_counterexample",
    "Verif.SystemInfo.toStr_inj",
    "Verif.SystemInfo.eq_iff"
   ],
   "note": "make_wraps_counterexample shows the narrowing to 8 bits outside -128..127 (257 is taken as 1)."
  },
  {
   "property": "C100",
   "status": "partial",
   "theorems": [
    "Verif.Pod.design_partial",
    "Verif.Pod.design_drag_counterexample",
    "Verif.Pod.design_random_counterexample"
   ],
   "note": "Right for position, velocity, linear clock and wet delay with fixed satellite vectors. Refuted: the partial of the drag coefficient is the constant -1, and with RANDOM_RFO the clock partial has the wrong sign."
  },
  {
   "property": "C101",
   "status": "partial",
   "theorems": [
    "Verif.Pod.sigma_grows",
    "Verif.Pod.sigma_counterexample"
   ],
   "note": "Refuted: the deviation is divided by the cosine of the elevation, so it grows towards the zenith, where it is unbounded."
  },
  {
   "property": "C102",
   "status": "partial",
   "theorems": [
    "Verif.Pod.transition_counterexample",
    "Verif.Pod.transition_not_solution_counterexample",
    "Verif.Pod.covariance_wiped",
    "Verif.Pod.velocity_never_corrected",
    "Verif.Pod.epoch_partial"
   ],
   "note": "Refuted: the matrix is read from the initial values, not from the solution, and lacks its last column; the variance of the z velocity becomes zero and that component is never corrected. Proved: the time update for the matrix it is given."
  },
  {
   "property": "C103",
   "status": "partial",
   "theorems": [
    "Verif.Pod.ecc_norm",
    "Verif.Pod.start_spec",
    "Verif.Pod.integrate_continues_partial",
    "Verif.Pod.integrate_reached"
   ],
   "note": "The hand-over supposes, as C57, that the destroyed temporaries keep their values. The build without attitude (NO_ATTITUDE) is not modelled."
  },
  {
   "property": "C104",
   "status": "proved",
   "theorems": [
    "Verif.Pod.prepare_ok",
    "Verif.Pod.prepare_code",
    "Verif.Pod.antenna_distance",
    "Verif.Pod.prepare_failure",
    "Verif.Pod.coordinates_iff",
    "Verif.Pod.arp2ion_spec"
   ],
   "note": "For any local frame. The table is given as a list of entries; its reader is the subject of other claims."
  },
  {
   "property": "C105",
   "status": "partial",
   "theorems": [
    "Verif.Pod.massCog_spec",
    "Verif.Pod.massCog_file",
    "Verif.Pod.l3pco_eq",
    "Verif.Pod.l3pco_partial",
    "Verif.Pod.l3pco_counterexample"
   ],
   "note": "Mass and centre of gravity hold, for files as in C39. Refuted: the phase centre combination has the opposite sign (Jason-3: more than 13 mm). The program calls mass_cog inside an assertion, so without assertions both stay unset; this is not part of the model."
  },
  {
   "property": "C106",
   "status": "partial",
   "theorems": [
    "Verif.Pod.tropoGpt_angle",
    "Verif.Pod.tropoVmf_partial",
    "Verif.Pod.tropoVmf_counterexample"
   ],
   "note": "Refuted for the variant in use: an angle in radians is converted from degrees. The variant whose call is commented out is right. vmf3 is an external function and a parameter."
  },
  {
   "property": "C107",
   "status": "proved",
   "theorems": [
    "Verif.Filters.batch_normal",
    "Verif.Filters.batch_perm",
    "Verif.Filters.batch_least_squares"
   ],
   "note": "Over the real numbers. Observations are linear: the value computed from the estimates is the product of partials and estimates."
  },
  {
   "property": "C108",
   "status": "partial",
   "theorems": [
    "Verif.RfoFit.fit_least_squares_partial",
    "Verif.RfoFit.fit_exact_partial",
    "Verif.RfoFit.room_partial",
    "Verif.RfoFit.room_counterexample",
    "Verif.RfoFit.no_data_counterexample",
    "Verif.RfoFit.fit_failure"
   ],
   "note": "Proved over the real numbers for files with complete windows only, enough room and a linear solver that solves regular systems. False otherwise: the number of rows is guessed from the number of files or days, and rows beyond it are written outside the matrix; a file without data adds a row with the value zero; incomplete windows are C62."
  },
  {
   "property": "C109",
   "status": "partial",
   "theorems": [
    "Verif.Icgem.load_complete_partial",
    "Verif.Icgem.load_bad_degree",
    "Verif.Icgem.load_no_file",
    "Verif.Icgem.load_degree_1_counterexample"
   ],
   "note": "Proved for degree and order at least 1 and proper data sections (see C30), de-normalisation over the real numbers. False for files without the coefficients of degree 1, which are accepted: S(1,1) is uninitialised memory then."
  },
  {
   "property": "C11",
   "status": "proved",
   "theorems": [
    "Verif.SystemInfo.nominal_zero",
    "Verif.SystemInfo.nominal_law",
    "Verif.SystemInfo.nominal_strictMono",
    "Verif.SystemInfo.nominal_ratio",
    "Verif.SystemInfo.nominal_pos"
   ],
   "note": "Over the reals."
  },
  {
   "property": "C110",
   "status": "partial",
   "theorems": [
    "Verif.Gravity.Debug.debug_low_orders_partial",
    "Verif.Gravity.Debug.debug_rejects",
    "Verif.Gravity.Debug.debug_sectorial_counterexample"
   ],
   "note": "Bounds and refusal proved; the values hold for orders 0 and 1, and for all orders if y = 0. False otherwise: the factor 2m-1 multiplies only the first product of the sectorial recursion."
  },
  {
   "property": "C111",
   "status": "proved",
   "theorems": [
    "Verif.Atmosphere.Msis.plg_legendre",
    "Verif.Atmosphere.Msis.longitude_turn",
    "Verif.Atmosphere.Msis.pole_same"
   ],
   "note": "For library functions with the period of a full turn. Longitudes above -1000 (smaller ones mean an absent longitude). At the poles for states whose Legendre functions belong to the pole or are computed anew."
  },
  {
   "property": "C112",
   "status": "partial",
   "theorems": [
    "Verif.Variational.density_inputs_partial",
    "Verif.Variational.ms_close",
    "Verif.Variational.local_time_unset",
    "Verif.Variational.local_time_counterexample",
    "Verif.Variational.celestial_place_counterexample"
   ],
   "note": "Date, space weather, units and the place of the coordinates handed over: proved. False: local time is never set, and the coordinates handed over are celestial, not Earth-fixed."
  },
  {
   "property": "C113",
   "status": "proved",
   "theorems": [
    "Verif.Sgode.step_memory_safe",
    "Verif.Sgode.intrp_memory_safe",
    "Verif.Sgode.places_distinct"
   ],
   "note": "For histories without a crash that is not followed by a restart. The columns of weights and states, of one element per equation, are outside the trace; the flag of failed attempts is the subject of C41."
  },
  {
   "property": "C114",
   "status": "partial",
   "theorems": [
    "Verif.Variational.gravity_from_file_partial",
    "Verif.Variational.coefficients_used",
    "Verif.Variational.calls_agree",
    "Verif.Variational.toM3_mulVec",
    "Verif.Variational.gravity_zonal_counterexample",
    "Verif.Variational.gravity_degree_1_counterexample"
   ],
   "note": "Proved for order at least 1 and files with all coefficients. False: order 0 reads outside the arrays; for files without degree 1 the acceleration depends on what memory held. The partials are the subject of C54 and C58."
  },
  {
   "property": "C115",
   "status": "partial",
   "theorems": [
    "Verif.Atmosphere.Profile.upper_temperature",
    "Verif.Atmosphere.Profile.upper_profile",
    "Verif.Atmosphere.Profile.caps_of_pos",
    "Verif.Atmosphere.Profile.lower_profile",
    "Verif.Atmosphere.Profile.whole_temperature",
    "Verif.Atmosphere.Profile.nodes_continue",
    "Verif.Atmosphere.Profile.profile_gap_counterexample"
   ],
   "note": "Proved for positive temperatures and, for negative molecular weight differences, exponents below the limit 50 of the code. Below 32.5 km it needs tn3[0] = tn2[3], which no function sets: otherwise the temperature has a gap at 32.5 km."
  },
  {
   "property": "C116",
   "status": "proved",
   "theorems": [
    "Verif.Float.double_mean_between",
    "Verif.Float.double_variance_nonneg",
    "Verif.Float.double_squares_grow",
    "Verif.Float.double_equal_values"
   ],
   "note": "For every rounding to nearest, fused or not. Overflow is outside the model."
  },
  {
   "property": "C117",
   "status": "partial",
   "theorems": [
    "Verif.Float.denormalize_accuracy_partial",
    "Verif.Float.product_le_of_degree",
    "Verif.Float.denormalize_overflow_counterexample",
    "Verif.Float.denormalize_sectorial_counterexample"
   ],
   "note": "The error bound holds while (n+m)!/(n-m)! is at most 2^1000, which covers all degrees up to 80. For larger products the code fails: the product overflows and the coefficient becomes zero, for degree 90 (asked for by config/config-ja3.yaml) from order 83 on."
  },
  {
   "property": "C118",
   "status": "partial",
   "theorems": [
    "Verif.Float.l1_epoch_partial",
    "Verif.Float.l2_epoch_partial",
    "Verif.Float.clock_offset_counterexample",
    "Verif.Float.l21_offset_counterexample"
   ],
   "note": "The code does not have the property: the cut-off loses one unit for some written values, for example 0.000000015 s gives 14 ns. Proved instead: the shift is the written one or one unit nearer to zero."
  },
  {
   "property": "C119",
   "status": "partial",
   "theorems": [
    "Verif.Float.orientation_date_partial",
    "Verif.Float.orientation_date_mono",
    "Verif.Float.date_resolution_counterexample"
   ],
   "note": "The code does not have the property: all times within 300 ns of a midnight give the same date. Proved instead: the date is valid, monotone, and within 316 ns of the true one."
  },
  {
   "property": "C12",
   "status": "proved",
   "theorems": [
    "Verif.SystemInfo.iono_removed",
    "Verif.SystemInfo.iono_removed_beacon",
    "Verif.SystemInfo.iono_none",
    "Verif.SystemInfo.phase_center",
    "Verif.SystemInfo.gamma_ne_one"
   ],
   "note": "Over the reals."
  },
  {
   "property": "C120",
   "status": "partial",
   "theorems": [
    "Verif.Float.norm_ge_component",
    "Verif.Float.node_number_partial",
    "Verif.Float.declination_number_partial",
    "Verif.Float.perigee_nan_counterexample",
    "Verif.Float.circular_nan_counterexample",
    "Verif.Float.right_ascension_nan_counterexample"
   ],
   "note": "The code does not have the property: perigee and anomaly, the eccentricity of the Montenbruck variant and the right ascension are NaN for the states given. Proved instead: inclination, node and declination are always numbers, for non-zero denominators. Overflow is outside the model."
  },
  {
   "property": "C121",
   "status": "partial",
   "theorems": [
    "Verif.Float.cylinder_margin_partial",
    "Verif.Float.margin_metres",
    "Verif.Float.vallado_nan_counterexample",
    "Verif.Float.vallado_exact_dark",
    "Verif.Float.bernese_nan_counterexample",
    "Verif.Float.bernese_exact_dark",
    "Verif.Float.conical_nan_counterexample"
   ],
   "note": "Three of the four functions do not have the property: on the axis of the shadow vallado_shadow and bernese_shadow1 give full light and conical_shadow gives NaN. For montebruck_shadow (vector overload) the property is proved, with a margin of 0.12 micrometres at 7200 km. Overflow is outside the model."
  },
  {
   "property": "C122",
   "status": "partial",
   "theorems": [
    "Verif.Float.time_moves",
    "Verif.Float.step_ends_partial",
    "Verif.Float.target_ahead",
    "Verif.Float.last_point_partial",
    "Verif.Float.nan_derivative_hangs_counterexample",
    "Verif.Float.past_output_counterexample",
    "Verif.Float.accepted_within",
    "Verif.Float.first_size",
    "Verif.Float.shrink_size"
   ],
   "note": "The code does not have the property at time zero: with a derivative that is NaN the step routine never returns. In the stop mode a step can end past the output time. Proved instead: away from time zero every call returns and accepted steps advance; the time passes the last point by a few roundings at most. Overflow of time and step size is outside the model."
  },
  {
   "property": "C123",
   "status": "partial",
   "theorems": [
    "Verif.Atmosphere.Msis.ccor_transition",
    "Verif.Atmosphere.Msis.ccor_limit",
    "Verif.Atmosphere.Msis.ccor2_transition",
    "Verif.Atmosphere.Msis.ccor2_between",
    "Verif.Atmosphere.Msis.ccor2_reversed",
    "Verif.Atmosphere.Msis.scale_lengths",
    "Verif.Atmosphere.Msis.dnet_powerSum",
    "Verif.Atmosphere.Msis.dnet_bounds",
    "Verif.Atmosphere.Msis.dnet_one_zero_partial",
    "Verif.Atmosphere.Msis.g0_bounds",
    "Verif.Atmosphere.Msis.sg0_sum",
    "Verif.Atmosphere.Msis.sg0_bounds",
    "Verif.Atmosphere.Msis.magnetic_index_bounds",
    "Verif.Atmosphere.Msis.daily_index_bounds",
    "Verif.Atmosphere.Msis.response_tables",
    "Verif.Atmosphere.Msis.flux_factors",
    "Verif.Atmosphere.Msis.dnet_vanishing_counterexample",
    "Verif.Atmosphere.Msis.constant_history_counterexample"
   ],
   "note": "Two parts of the claim are false: where both densities vanish the net density is one particle per cubic centimetre, and the weights of the magnetic history do not add up to one, so that a constant history gives less than its response. Proved instead: the transitions, the power sum for positive densities up to the cut-off of the code, and bounds for the magnetic index. Over the real numbers; the powers, exponentials and logarithms are the exact functions."
  },
  {
   "property": "C124",
   "status": "partial",
   "theorems": [
    "Verif.Atmosphere.Msis.gtd7_request_partial",
    "Verif.Atmosphere.Msis.gts7_request",
    "Verif.Atmosphere.Msis.gts7_left",
    "Verif.Atmosphere.Msis.gtdMix_request",
    "Verif.Atmosphere.Msis.nitrogen_zero",
    "Verif.Atmosphere.Msis.nitrogen_request_counterexample"
   ],
   "note": "The claim is false for atomic nitrogen: its branch in gts7 is not entered when it alone is asked for, so that from 72.5 km on the answer is zero, while the answer for all species is positive above 450 km. Proved for all other species at all altitudes and for atomic nitrogen below 72.5 km, where the departures from diffusive equilibrium are switched on (as everywhere in the repository). At and below 32.5 km the restriction of C64 on the node left by earlier calls remains."
  },
  {
   "property": "C125",
   "status": "partial",
   "theorems": [
    "Verif.Sgode.next_call_accepted",
    "Verif.Sgode.direction_kept",
    "Verif.Sgode.onward_continues",
    "Verif.Sgode.turning_restarts",
    "Verif.Sgode.two_calls_partial",
    "Verif.Sgode.step_refuses_tiny",
    "Verif.Sgode.continue_after_stop_counterexample"
   ],
   "note": "False after a call that must not step past its target (negative status) and ended within the resolution before it: the remaining distance is left as step size, the member that records this end (isnold) is never read, and the next call is refused. Proved for all other calls."
  },
  {
   "property": "C126",
   "status": "proved",
   "theorems": [
    "Verif.Atmosphere.Msis.densities_fall",
    "Verif.Atmosphere.Msis.anomalous_layer"
   ],
   "note": "Over the real numbers. The temperatures the profiles are built from are assumed plausible (structure Plausible); they come from the spherical harmonics, which are unbounded in the solar flux and the magnetic index. Above 2539 km the correction of molecular oxygen is cut off, which for a weak sun raises its exact value there by a part in 10^31."
  },
  {
   "property": "C127",
   "status": "partial",
   "theorems": [
    "Verif.Script.Fetch.fetch_covers_iff",
    "Verif.Script.Fetch.fetch_finds",
    "Verif.Script.Fetch.default_limit",
    "Verif.Script.Fetch.sorted_two",
    "Verif.Script.Fetch.first_day_counterexample",
    "Verif.Script.Fetch.silent_counterexample",
    "Verif.Script.Fetch.sorted_counterexample",
    "Verif.Script.Fetch.put_spec",
    "Verif.Script.Fetch.first_guess"
   ],
   "note": "False in general; fetch_covers_iff states exactly when it holds: both ends strictly inside a bulletin and at most two bulletins met. Otherwise the loop does not end, raises an exception, or writes an incomplete file. fetch_finds gives termination and the files in order. Dates within 100000 days of 2008-12-12."
  },
  {
   "property": "C128",
   "status": "partial",
   "theorems": [
    "Verif.Script.Bulletin.section_iff",
    "Verif.Script.Bulletin.merge_iff",
    "Verif.Script.Bulletin.line_words",
    "Verif.Script.Bulletin.line_length",
    "Verif.Script.Bulletin.wide_counterexample",
    "Verif.Script.Bulletin.unreadable_counterexample",
    "Verif.Script.Bulletin.columns_counterexample"
   ],
   "note": "Extraction, joining and writing hold (writing for values below 1000 in magnitude: wide_counterexample). Reading fails: unreadable_counterexample shows for all files of usual values that the reader stores no row, because std::from_chars does not accept the plus sign; columns_counterexample shows which quantities a reader of all signs would mix up. int, float, rounding to decimals and from_chars are parameters."
  },
  {
   "property": "C129",
   "status": "partial",
   "theorems": [
    "Verif.Script.Log.parse_block",
    "Verif.Script.Log.header_recognised",
    "Verif.Script.Log.antennas_listed",
    "Verif.Script.Log.height_decimal",
    "Verif.Script.Log.height_whole",
    "Verif.Script.Log.last_part_counterexample",
    "Verif.Script.Log.no_part_counterexample",
    "Verif.Script.Log.blanks_counterexample",
    "Verif.Script.Log.header4_counterexample",
    "Verif.Script.Log.block4_counterexample",
    "Verif.Script.Log.block3_counterexample",
    "Verif.Script.Log.short_height_counterexample",
    "Verif.Script.Log.millimetre_counterexample",
    "Verif.Script.Log.first_line_counterexample"
   ],
   "note": "Holds for a block followed by the heading of another block other than 0 and 4, with parts that have a field and no key twice, and for heights with a decimal point. False for the last block, for blocks 3 and 4, for blocks without parts, for lines of blanks, and for heights of one or two digits or in millimetres: see the counterexamples. float and strptime are parameters."
  },
  {
   "property": "C13",
   "status": "proved",
   "theorems": [
    "Verif.Rinex.header_consistent",
    "Verif.Rinex.header_stations_exact"
   ],
   "note": "strtod/strtof/strptime are parameters. header_stations_exact needs lines with a label field (60 characters)."
  },
  {
   "property": "C130",
   "status": "partial",
   "theorems": [
    "Verif.Script.Gfc.matchAt_iff",
    "Verif.Script.Gfc.sub_chars",
    "Verif.Script.Gfc.sub_eq_iff",
    "Verif.Script.Gfc.words_sub",
    "Verif.Script.Gfc.sub_number",
    "Verif.Script.Gfc.convert_file",
    "Verif.Script.Gfc.coefficients_read",
    "Verif.Script.Gfc.unconverted_refused",
    "Verif.Script.Gfc.constant_counterexample",
    "Verif.Script.Gfc.whole_counterexample",
    "Verif.Script.Gfc.endless_counterexample"
   ],
   "note": "Holds for the coefficients with decimals. False for the constants of the header, which the script does not convert and of which the reader takes the mantissa alone; numbers without decimals are not converted; a file without the end of a header is never finished: see the counterexamples. strtod is a parameter; a concrete one meets the assumptions."
  },
  {
   "property": "C131",
   "status": "partial",
   "theorems": [
    "Verif.Forces.Passes.program_lists",
    "Verif.Forces.Passes.count_spec",
    "Verif.Forces.Passes.passes_shadow",
    "Verif.Forces.Passes.passes_umbra_partial",
    "Verif.Forces.Passes.umbra_starts",
    "Verif.Forces.Passes.newest_pass",
    "Verif.Forces.Passes.extra_counterexample",
    "Verif.Forces.Passes.first_counterexample",
    "Verif.Forces.Passes.many_counterexample",
    "Verif.Forces.Passes.lost_counterexample",
    "Verif.Forces.Passes.umbra_end_counterexample",
    "Verif.Forces.Passes.conic_counterexample"
   ],
   "note": "Holds for the models without penumbra from the second entry on, and for the models with penumbra when no epoch is in penumbra; the beginnings of umbra are right for all sequences. False otherwise: see the counterexamples. The shadow coefficients are parameters here; C56 and C90 treat them."
  },
  {
   "property": "C132",
   "status": "partial",
   "theorems": [
    "Verif.Pod.OnePass.pass_counts",
    "Verif.Pod.OnePass.extract_counts",
    "Verif.Pod.OnePass.pass_iono_free",
    "Verif.Pod.OnePass.summary_counts",
    "Verif.Pod.OnePass.percent_range",
    "Verif.Pod.OnePass.program_counts_partial",
    "Verif.Pod.OnePass.distance_partial",
    "Verif.Pod.OnePass.first_block_counterexample",
    "Verif.Pod.OnePass.interpolation_counterexample",
    "Verif.Pod.OnePass.unknown_beacon_counterexample",
    "Verif.Pod.OnePass.stale_counterexample",
    "Verif.Pod.OnePass.percent_counterexample",
    "Verif.Pod.OnePass.distance_counterexample",
    "Verif.Pod.OnePass.pco_counterexample"
   ],
   "note": "The pairs, counts and summaries are proved for every sequence of observations that reaches the loop. False for whole files: the first block is not used, failed interpolations are not noticed, beacon coordinates are scaled by 1000 in the distance only. The range of a beacon and the orbit are parameters."
  },
  {
   "property": "C133",
   "status": "partial",
   "theorems": [
    "Verif.Rkf.fehl_is_step",
    "Verif.Rkf.error_is_difference",
    "Verif.Rkf.table_orders",
    "Verif.Rkf.fehl_polynomial",
    "Verif.Rkf.fehl_linear",
    "Verif.Rkf.call_total",
    "Verif.Rkf.time_in_interval",
    "Verif.Rkf.no_increase_after_failure",
    "Verif.Rkf.tolerance_partial",
    "Verif.Rkf.tolerance_counterexample",
    "Verif.Rkf.beyond_matrix_counterexample",
    "Verif.Rkf.decrease_counterexample",
    "Verif.Rkf.increase_counterexample",
    "Verif.Rkf.first_step_counterexample",
    "Verif.Rkf.too_many_points_counterexample",
    "Verif.Rkf.stuck_counterexample",
    "Verif.Rkf.unset_member_counterexample",
    "Verif.Rkf.resume_after_interruption",
    "Verif.Rkf.first_step_without_tolerance",
    "Verif.Rkf.output_counter"
   ],
   "note": "Formulas, order conditions, termination, flag 2 and the composition of steps are proved in exact arithmetic. The tolerance holds for one equation only; for more it is false (transposed index), as are the limits of the changes of the step size. Rounding is not modelled."
  },
  {
   "property": "C134",
   "status": "partial",
   "theorems": [
    "Verif.Pod.Sp3.lines_partial",
    "Verif.Pod.Sp3.line_partial",
    "Verif.Pod.Sp3.epoch_error",
    "Verif.Pod.Sp3.initial_transition",
    "Verif.Pod.Sp3.interpolated_date",
    "Verif.Pod.Sp3.interpolated_state",
    "Verif.Pod.Sp3.interpolated_lines",
    "Verif.Pod.Sp3.body_mass_iff",
    "Verif.Pod.Sp3.moon_mass_iff",
    "Verif.Pod.Sp3.last_record_counterexample",
    "Verif.Pod.Sp3.backwards_counterexample",
    "Verif.Pod.Sp3.body_mass_counterexample",
    "Verif.Pod.Sp3.transition_counterexample",
    "Verif.Pod.Sp3.transition_not_solution_counterexample",
    "Verif.Pod.Sp3.read_error_counterexample",
    "Verif.Pod.Sp3.flags_counterexample"
   ],
   "note": "The line of a record is right for every motion that the integrator follows, forward in time; all lines are right if a limit is reached. False: the last record is used twice at the end of a file, intervals backwards, masses of Sun and Moon in the second program, transition matrix, errors and flags in the third. Integrator, frames and SP3 reader are parameters."
  },
  {
   "property": "C135",
   "status": "partial",
   "theorems": [
    "Verif.Var.outside",
    "Verif.Var.inside",
    "Verif.Var.nearest_spec",
    "Verif.Var.linear_between",
    "Verif.Var.linear_exact",
    "Verif.Var.third_spec",
    "Verif.Var.quadratic_exact",
    "Verif.Var.quadratic_node",
    "Verif.Var.last_node_counterexample",
    "Verif.Var.two_nodes_counterexample"
   ],
   "note": "Proved in exact arithmetic from the first node to before the last. At the last node the status is 2, and with two nodes the quadratic interpolator fails."
  },
  {
   "property": "C136",
   "status": "proved",
   "theorems": [
    "Verif.Var.Legendre.plegendre_spec",
    "Verif.Var.Legendre.plegendre_domain"
   ],
   "note": "Exact arithmetic; the specification is the formula of Rodrigues with polynomials of Mathlib."
  },
  {
   "property": "C137",
   "status": "partial",
   "theorems": [
    "Verif.Var.set_event",
    "Verif.Var.clear_event",
    "Verif.Var.reset_all",
    "Verif.Var.combination_spec",
    "Verif.Var.set_combination_partial",
    "Verif.Var.set_combination_counterexample",
    "Verif.Var.packed_flags",
    "Verif.Var.version3_spec",
    "Verif.Var.version1_iff",
    "Verif.Var.signed_flag_counterexample",
    "Verif.Var.version2_iff",
    "Verif.Var.special_value_counterexample",
    "Verif.Var.first_round_partial",
    "Verif.Var.later_rounds_counterexample"
   ],
   "note": "Single events, combinations and packed numbers are proved for all values. Setting a combination takes back other events; the versions with signed flags and with a special value differ; the loops that are timed do different work."
  },
  {
   "property": "C138",
   "status": "partial",
   "theorems": [
    "Verif.Var.Kepler.bernese_recovers",
    "Verif.Var.Kepler.beutler_partial",
    "Verif.Var.Kepler.beutler_time_counterexample",
    "Verif.Var.Kepler.tapley_iff",
    "Verif.Var.Kepler.tapley_quadrant_counterexample",
    "Verif.Var.Kepler.schwarz_partial",
    "Verif.Var.Kepler.schwarz_half_counterexample",
    "Verif.Var.Kepler.test_counterexample"
   ],
   "note": "The conversion after the Bernese software is proved right. The time of the perigee after Beutler is wrong off the line of apsides; after Tapley perigee and mean anomaly are right exactly in the quadrants named; after Schwarz node and perigee lose their sign. The program converts the last record twice."
  },
  {
   "property": "C139",
   "status": "partial",
   "theorems": [
    "Verif.Astro.kepler_converges_partial",
    "Verif.Astro.vallado_converges_partial",
    "Verif.Astro.gives_up_counterexample",
    "Verif.Astro.eccAnom_eq",
    "Verif.Astro.second_difference",
    "Verif.Astro.first_difference_counterexample",
    "Verif.Astro.comparison_partial"
   ],
   "note": "Proved in exact arithmetic for eccentricities up to 0.85; at 1 - 1e-13 both solvers give up. The solver of the test program is the same method as kepler, so the first difference is always 0."
  },
  {
   "property": "C14",
   "status": "proved",
   "theorems": [
    "Verif.Rinex.labels_prefix_free",
    "Verif.Rinex.label_unique",
    "Verif.Rinex.dispatch_iff",
    "Verif.Rinex.dispatch_order_irrelevant",
    "Verif.Rinex.order_complete",
    "Verif.Rinex.dispatch_line",
    "Verif.Rinex.format_labels",
    "Verif.Rinex.format_labels_all"
   ],
   "note": ""
  },
  {
   "property": "C140",
   "status": "partial",
   "theorems": [
    "Verif.Float.kepler_double_partial",
    "Verif.Float.vallado_double_partial",
    "Verif.Float.first_revolution",
    "Verif.Float.large_counterexample"
   ],
   "note": "Success is proved for all finite mean anomalies and e <= 0.85; the error is 5.1e-15 on the first revolution and grows by 2.5e-16 for each further turn, because the reduction uses the rounded 2 pi: a counterexample for large mean anomalies."
  },
  {
   "property": "C141",
   "status": "partial",
   "theorems": [
    "Verif.Mat2D.offsets_exact_iff",
    "Verif.Mat2D.some_offset_overflows",
    "Verif.Mat2D.trap_size_exact",
    "Verif.Mat2D.dense_size_iff",
    "Verif.Mat2D.slices_exact",
    "Verif.Mat2D.trapezoid_offset_counterexample",
    "Verif.Mat2D.dense_size_counterexample",
    "Verif.Mat2D.gravity_ints_exact",
    "Verif.Mat2D.gravity_ints_iff",
    "Verif.Mat2D.gravity_factor_counterexample",
    "Verif.Mat2D.sites_reached",
    "Verif.Mat2D.site_extremes",
    "Verif.Mat2D.negative_size",
    "Verif.Mat2D.negative_size_counterexample"
   ],
   "note": "Offsets are exact exactly for at most 2^31 elements, dense sizes up to 2^31 - 1, gravity factors exactly up to degree 46339; beyond, counterexamples."
  },
  {
   "property": "C142",
   "status": "partial",
   "theorems": [
    "Verif.Var.Icgem.old_against_new",
    "Verif.Var.Icgem.compute_gradient_iff",
    "Verif.Var.Icgem.zonal_gradient",
    "Verif.Var.Icgem.y_component_counterexample",
    "Verif.Var.Icgem.denormalize_once",
    "Verif.Var.Icgem.denormalize_twice",
    "Verif.Var.Icgem.denormalize_twice_counterexample",
    "Verif.Var.Icgem.accel_scale",
    "Verif.Var.Icgem.zonal_too_small",
    "Verif.Var.Icgem.normalised_counterexample",
    "Verif.Var.Icgem.usage_never",
    "Verif.Var.Icgem.arguments_partial",
    "Verif.Var.Icgem.degree_and_order_iff",
    "Verif.Var.Icgem.degree_ignored_counterexample",
    "Verif.Var.Icgem.argument_count_counterexample"
   ],
   "note": "The gradient of the potential with the coefficients as they stand in the file, exactly when a sum over the terms of order 1 and more vanishes; false otherwise, for normalised coefficients, for a degree given together with an order, and for a second denormalisation."
  },
  {
   "property": "C143",
   "status": "partial",
   "theorems": [
    "Verif.Filters.KalmanPy.infoForm_inverse",
    "Verif.Filters.KalmanPy.update_cov",
    "Verif.Filters.KalmanPy.least_squares",
    "Verif.Filters.KalmanPy.versions_agree",
    "Verif.Filters.KalmanPy.order_irrelevant",
    "Verif.Filters.KalmanPy.process_noise_counterexample",
    "Verif.Filters.KalmanPy.arrays_overwritten_counterexample",
    "Verif.Filters.KalmanPy.recreate_before_end",
    "Verif.Filters.KalmanPy.recreate_ends",
    "Verif.Filters.KalmanPy.first_used_twice"
   ],
   "note": "Least squares, covariance and agreement of the versions hold in exact arithmetic without process noise; with process noise the versions differ, and the caller's arrays are overwritten."
  },
  {
   "property": "C144",
   "status": "partial",
   "theorems": [
    "Verif.Pod.Setup.first_block_missing",
    "Verif.Pod.Setup.failed_block",
    "Verif.Pod.Setup.names",
    "Verif.Pod.Setup.checked_names",
    "Verif.Pod.Setup.own_names_partial",
    "Verif.Pod.Setup.stale_name_counterexample",
    "Verif.Pod.Setup.degree_partial",
    "Verif.Pod.Setup.degree_counterexample",
    "Verif.Pod.Setup.covariance_eq",
    "Verif.Pod.Setup.covariance_iff",
    "Verif.Pod.Setup.covariance_counterexample",
    "Verif.Pod.Setup.estimates_eq",
    "Verif.Pod.Setup.blocks_done",
    "Verif.Pod.Setup.blocks_partial",
    "Verif.Pod.Setup.half_day_counterexample",
    "Verif.Pod.Setup.read_error_counterexample",
    "Verif.Pod.Setup.indexes_spec",
    "Verif.Pod.Setup.relativity_error",
    "Verif.Pod.Setup.relativity_counterexample",
    "Verif.Pod.Setup.clocks_iff",
    "Verif.Pod.Setup.clock_difference_counterexample"
   ],
   "note": "Exact description of the names used, the first covariance matrix, the blocks done and the relativistic term.  The property fails for names whose look-ups are not tested, for the degree, for the variances of two or more beacons, for files of more than twelve hours, for reading errors and for the relativistic term."
  },
  {
   "property": "C145",
   "status": "partial",
   "theorems": [
    "Verif.Exc.pass_count",
    "Verif.Exc.line_times",
    "Verif.Exc.initial_values_once",
    "Verif.Exc.stale_lines_counterexample",
    "Verif.Exc.resumes",
    "Verif.Exc.elliptic_invariants",
    "Verif.Exc.default_order_partial",
    "Verif.Exc.default_order_counterexample",
    "Verif.Exc.state_columns",
    "Verif.Exc.variational_columns",
    "Verif.Exc.start_columns",
    "Verif.Exc.times_spec",
    "Verif.Exc.warning_counterexample",
    "Verif.Exc.matrices",
    "Verif.Exc.printed_matrix_counterexample",
    "Verif.Exc.moon_constant_counterexample",
    "Verif.Exc.pass_span",
    "Verif.Exc.truth_counterexample",
    "Verif.Exc.partials_chain",
    "Verif.Exc.range_partials",
    "Verif.Exc.azimuth_counterexample",
    "Verif.Exc.args_accepted"
   ],
   "note": "Loops, variational equations, derivative of the rotation and partials are right for all inputs.  The property fails for lines after a failed integration, for a degree below 20 without order, for the leap second warning, for the printed matrix (transposed), for the constant of the Moon, for the truth orbit and for azimuths at the cut."
  },
  {
   "property": "C146",
   "status": "partial",
   "theorems": [
    "Verif.Script.Plot.several_files_partial",
    "Verif.Script.Plot.one_file",
    "Verif.Script.Plot.eleventh_file_counterexample",
    "Verif.Script.Plot.colon_counterexample",
    "Verif.Script.Plot.kept_columns",
    "Verif.Script.Plot.columns_iff",
    "Verif.Script.Plot.columns_transpose",
    "Verif.Script.Plot.blank_line_counterexample",
    "Verif.Script.Plot.convert_spec",
    "Verif.Script.Plot.times_partial",
    "Verif.Script.Plot.time_counterexample",
    "Verif.Script.Plot.ragged_counterexample",
    "Verif.Script.Plot.time_columns",
    "Verif.Script.Plot.two_strings_counterexample",
    "Verif.Script.Plot.subplots_spec",
    "Verif.Script.Plot.odd_counterexample"
   ],
   "note": "Substitution, columns kept, transposition and conversion are right for all strings and files with file numbers below ten.  The property fails for the eleventh file, for a colon in a string for one file, for blank lines, for every time column whose first time Python can read as it is, for fractions of unequal length, for two strings and several files with --time and for the last of an odd number of strings."
  },
  {
   "property": "C147",
   "status": "partial",
   "theorems": [
    "Verif.Rinex.Write.file_roundtrip",
    "Verif.Rinex.Write.header_roundtrip",
    "Verif.Rinex.Write.data_roundtrip",
    "Verif.Rinex.Write.header_lists",
    "Verif.Rinex.Write.header_refused",
    "Verif.Rinex.Write.exact_honest",
    "Verif.Rinex.Write.all_references_counterexample",
    "Verif.Rinex.Write.no_scale_counterexample",
    "Verif.Rinex.Write.dcbs_counterexample",
    "Verif.Rinex.Write.long_name_counterexample"
   ],
   "note": "The composition of the header reader and the block iterator inverts the writer of WriteSpec.lean for all headers and blocks that fit their columns, with one line of codes and one line of factors and fewer reference stations than stations.  Headers in which every station is a reference, without a line of factors, with a line SYS / DCBS APPLIED or with a name of 59 or 60 characters are refused."
  },
  {
   "property": "C148",
   "status": "partial",
   "theorems": [
    "Verif.SpaceWeather.Write.header_names",
    "Verif.SpaceWeather.Write.line_roundtrip",
    "Verif.SpaceWeather.Write.parse_written",
    "Verif.SpaceWeather.Write.parse_at_end",
    "Verif.SpaceWeather.Write.parse_before",
    "Verif.SpaceWeather.Write.construct_served",
    "Verif.SpaceWeather.Write.update_served",
    "Verif.SpaceWeather.Write.updates_served_partial",
    "Verif.SpaceWeather.Write.last_day_counterexample",
    "Verif.SpaceWeather.Write.empty_cp_counterexample",
    "Verif.SpaceWeather.Write.monthly_counterexample"
   ],
   "note": "Reader and feed invert the writer of WriteSpec.lean.  Missing: after the last day but one has been served the kept position is behind the last line, and the next update to any other day of the file, the last one included, is refused once.  Lines with an empty column CP and monthly predictions without 3-hour values are refused."
  },
  {
   "property": "C149",
   "status": "proved",
   "theorems": [
    "Verif.Float.norm_exact",
    "Verif.Float.elements_exact",
    "Verif.Float.elements_numbers",
    "Verif.Float.vallado_node_exact",
    "Verif.Float.montenbruck_ecc_exact",
    "Verif.Float.pos2ad_exact",
    "Verif.Float.pos2ad_numbers",
    "Verif.Float.montebruck_exact",
    "Verif.Float.conical_angles_exact",
    "Verif.Float.conical_exact",
    "Verif.Float.bernese_exact",
    "Verif.Float.vallado_exact",
    "Verif.Float.stat_exact",
    "Verif.Float.epochs_exact",
    "Verif.Float.kepler_exact"
   ],
   "note": "The models of Verif/Float against those of Verif/Orbit, Verif/Forces, Verif/Pod and Verif/Astro, which are written separately from the same lines."
  },
  {
   "property": "C15",
   "status": "partial",
   "theorems": [
    "Verif.Rinex.header_buffer_independent_partial",
    "Verif.Rinex.header_in_bounds_partial",
    "Verif.Rinex.stale_label_counterexample",
    "Verif.Rinex.empty_file_counterexample",
    "Verif.Rinex.blank_name_counterexample"
   ],
   "note": "Violated by lines shorter than 60 characters (label taken from an older line), by an empty file (uninitialised buffer) and by a blank name field (reads line[-1]). Proved for all files whose lines have a label field."
  },
  {
   "property": "C150",
   "status": "partial",
   "theorems": [
    "Verif.Icgem.Write.load_written",
    "Verif.Icgem.Write.gravity_written",
    "Verif.Icgem.Write.load_converted",
    "Verif.Icgem.Write.no_newline_counterexample",
    "Verif.Icgem.Write.trailing_blank_counterexample"
   ],
   "note": "Holds for order at least 1 and files whose last line ends with a newline. False for files without it (the last coefficients are not seen and the file is refused) and with blanks behind fully_normalized (the coefficients then count as not normalised): see the counterexamples. Order 0 is C30; constants in Fortran notation are C130. strtod is a parameter; a concrete one meets the assumptions."
  },
  {
   "property": "C151",
   "status": "partial",
   "theorems": [
    "Verif.Script.Tools.extension_iff",
    "Verif.Script.Tools.isLog_iff",
    "Verif.Script.Tools.fetched_served",
    "Verif.Script.Tools.default_names",
    "Verif.Script.Tools.stations_listed",
    "Verif.Script.Tools.heading_columns",
    "Verif.Script.Tools.header_wrapped",
    "Verif.Script.Tools.error_page_counterexample",
    "Verif.Script.Tools.absolute_name_counterexample",
    "Verif.Script.Tools.address_counterexample",
    "Verif.Script.Tools.directory_counterexample",
    "Verif.Script.Tools.bad_log_counterexample",
    "Verif.Script.Tools.own_output_counterexample",
    "Verif.Script.Tools.missing_header_counterexample"
   ],
   "note": "False where a script does not look at the outcome: an error page takes the place of the file, a name with a leading slash that of the directory; attitude files are always looked for under the year 2021 of Jason-3 and stored as foo; one unreadable log (its own output, if named as a log) ends the list; a missing header gives an open brace: see the counterexamples."
  },
  {
   "property": "C152",
   "status": "partial",
   "theorems": [
    "Verif.Script.Table.heights_from_logs",
    "Verif.Script.Table.height_iff",
    "Verif.Script.Table.lines_loaded",
    "Verif.Script.Table.record_line",
    "Verif.Script.Table.line_columns",
    "Verif.Script.Table.blank_column_counterexample",
    "Verif.Script.Table.long_name_counterexample",
    "Verif.Script.Table.whole_metre_counterexample"
   ],
   "note": "Proved for names of at most four characters, heights with decimals and a date reader that skips blanks; false otherwise: the reader looks for the end of the interval one column early, one longer name makes the whole table unreadable, and a height such as 3 m arrives as zero: see the counterexamples."
  },
  {
   "property": "C153",
   "status": "partial",
   "theorems": [
    "Verif.Rinex.Meta.toStr_text",
    "Verif.Rinex.Meta.beaconText_inj",
    "Verif.Rinex.Meta.metadata_written",
    "Verif.Rinex.Meta.metadata_report",
    "Verif.Rinex.Meta.read_epochs",
    "Verif.Rinex.Meta.epochOf_header",
    "Verif.Rinex.Meta.full_name_counterexample",
    "Verif.Rinex.Meta.documented_buffer_counterexample",
    "Verif.Rinex.Meta.overrun_counterexample",
    "Verif.Rinex.Meta.missing_line_counterexample",
    "Verif.Rinex.Meta.second_read_counterexample",
    "Verif.Rinex.Meta.cut_difference_counterexample"
   ],
   "note": "Proved for names of fewer than 30 characters, headers that have all the printed lines and the first call of the loop; false otherwise: a name that fills its columns is printed with the DOMES number behind it and can overrun the buffer, lines left out are printed from members never set, and a second call of the loop prints nothing: see the counterexamples."
  },
  {
   "property": "C154",
   "status": "partial",
   "theorems": [
    "Verif.Float.Pcv.pcv_double",
    "Verif.Float.Pcv.cell_exact",
    "Verif.Float.Pcv.degrees_close",
    "Verif.Float.Pcv.before_right",
    "Verif.Float.Pcv.interpolate_close",
    "Verif.Float.Pcv.exact_lipschitz",
    "Verif.Float.Pcv.pcv_double_outside",
    "Verif.Float.Pcv.right_angle_counterexample",
    "Verif.Float.Pcv.debug_check_counterexample"
   ],
   "note": "Proved for every double below the right angle. False for one double, the right angle itself: it is let through and the entry behind the table is read, in the debug build as well; and the Alcatel antenna reports nothing outside the quadrant (C60)."
  },
  {
   "property": "C155",
   "status": "partial",
   "theorems": [
    "Verif.RfoFit.textFile_written",
    "Verif.RfoFit.text_least_squares_partial",
    "Verif.RfoFit.text_exact_partial",
    "Verif.RfoFit.value_written",
    "Verif.RfoFit.blank_offset_counterexample",
    "Verif.RfoFit.blank_mean_counterexample",
    "Verif.RfoFit.no_code_counterexample"
   ],
   "note": "Proved for files whose epochs in range come in complete windows (C108 for the others). False for epochs without an offset: the marker for a missing value enters the mean; a file without the code F is not refused and an array is read outside."
  },
  {
   "property": "C156",
   "status": "partial",
   "theorems": [
    "Verif.RfoFit.values_prints_partial",
    "Verif.RfoFit.printed_line",
    "Verif.RfoFit.values_usage",
    "Verif.RfoFit.copies_inside",
    "Verif.RfoFit.copies_outside",
    "Verif.RfoFit.slope_lost_counterexample",
    "Verif.RfoFit.same_length_counterexample",
    "Verif.RfoFit.number_counterexample"
   ],
   "note": "Proved: the lines printed, to half a unit of the ninth decimal, for files with complete windows; the exact condition under which the copies of the names stay inside. False: a slope below half a unit of the ninth decimal is printed as zero; names of equal length are written outside their memory; the number of files is one too large."
  },
  {
   "property": "C157",
   "status": "partial",
   "theorems": [
    "Verif.Icgem.Ask.ask_written_partial",
    "Verif.Icgem.Ask.session_words",
    "Verif.Icgem.Ask.session_left",
    "Verif.Icgem.Ask.ask_degree",
    "Verif.Icgem.Ask.order_zero_counterexample",
    "Verif.Icgem.Ask.input_end_counterexample",
    "Verif.Icgem.Ask.degree_zero_counterexample"
   ],
   "note": "Proved: C for all degrees and orders, S for all orders but zero, the refusals, and the end at a negative number. False: S of order zero is printed as another coefficient; the end of the input is not noticed; degree zero addresses outside the table."
  },
  {
   "property": "C158",
   "status": "proved",
   "theorems": [
    "Verif.Icgem.Ask.old_header",
    "Verif.Icgem.Ask.old_data",
    "Verif.Icgem.Ask.old_program"
   ],
   "note": "For every file."
  },
  {
   "property": "C159",
   "status": "partial",
   "theorems": [
    "Verif.SunMoon.Ref.average_mean_partial",
    "Verif.SunMoon.Ref.average_first",
    "Verif.SunMoon.Ref.average_double",
    "Verif.SunMoon.Ref.sun_rows",
    "Verif.SunMoon.Ref.moon_rows",
    "Verif.SunMoon.Ref.intended_mean",
    "Verif.SunMoon.Ref.average_counterexample",
    "Verif.SunMoon.Ref.sun_averages_counterexample",
    "Verif.SunMoon.Ref.moon_averages_counterexample",
    "Verif.SunMoon.Ref.perfect_counterexample"
   ],
   "note": "Proved: every row is read in order; the printed number is the first distance, in exact and in double arithmetic, hence the average when there is one row or all distances are equal. False: for other files it is not the average, and zero is printed though later positions differ."
  },
  {
   "property": "C16",
   "status": "partial",
   "theorems": [
    "Verif.Rinex.block_shape",
    "Verif.Rinex.block_values_partial",
    "Verif.Rinex.isSpace_iff",
    "Verif.Rinex.block_ids",
    "Verif.Rinex.short_line_counterexample"
   ],
   "note": "Shape and lines proved for every input; the ids are those of the lines whenever a line has three characters. A shorter line is accepted with an id left over from older input: see the counterexample."
  },
  {
   "property": "C160",
   "status": "partial",
   "theorems": [
    "Verif.SpaceWeather.Write.feed_status",
    "Verif.SpaceWeather.Write.feed_passes_partial",
    "Verif.SpaceWeather.Write.feed_short_file_counterexample"
   ],
   "note": "Proved: the exit status for every such file; it is 0 when two more days follow 26 July. False: status 1 when the file ends with 26 or 27 July."
  },
  {
   "property": "C161",
   "status": "partial",
   "theorems": [
    "Verif.Eop.Example.example_status",
    "Verif.Eop.Example.example_rows_partial",
    "Verif.Eop.Example.example_failure_counterexample"
   ],
   "note": "Proved: when the status is 0, and the printed records for an interpolation linear in the tabulated values. False: a failed interpolation is not noticed."
  },
  {
   "property": "C162",
   "status": "partial",
   "theorems": [
    "Verif.Float.variance_scalar",
    "Verif.Float.state_direction",
    "Verif.Float.variance_floor_partial",
    "Verif.Float.time_floor_partial",
    "Verif.Float.observation_exact",
    "Verif.Float.negative_variance_counterexample",
    "Verif.Float.asymmetric_counterexample"
   ],
   "note": "Proved: no negative variance with one parameter; with any number of parameters a bound of about 2n rounding units below zero; the state. False: two observations from a diagonal prior give a negative variance, and the matrix is not symmetric."
  },
  {
   "property": "C163",
   "status": "proved",
   "theorems": [
    "Verif.Float.nominal_exact",
    "Verif.Float.nominal_same",
    "Verif.Float.nominal_large_counterexample"
   ],
   "note": "Exact for |k| <= 2^20; nominal_large_counterexample shows that the range cannot be all of int."
  },
  {
   "property": "C164",
   "status": "partial",
   "theorems": [
    "Verif.Float.iono_zero_partial",
    "Verif.Float.iono_bound",
    "Verif.Float.iono_fused_counterexample"
   ],
   "note": "Proved: the bound for all carriers, and exactly zero without fused operations. False: with a fused product the correction of 543 and 107 cycles is not zero."
  },
  {
   "property": "C165",
   "status": "proved",
   "theorems": [
    "Verif.Float.range_rate_bound",
    "Verif.Float.range_rate_sharp"
   ],
   "note": "The product frT is taken as rounded before the subtraction, since the program also prints it."
  },
  {
   "property": "C166",
   "status": "partial",
   "theorems": [
    "Verif.Float.linear_node",
    "Verif.Float.linear_mono",
    "Verif.Float.linear_anti",
    "Verif.Float.linear_error",
    "Verif.Float.linear_overshoot_counterexample",
    "Verif.Float.nearest_exact_partial",
    "Verif.Float.nearest_close",
    "Verif.Float.nearest_wrong_counterexample"
   ],
   "note": "Proved: nodes, order inside an interval, error bound; the nearest node when each node is at most twice the one before or that is zero, and within 2^-51 always. False: the linear interpolator can exceed the right value just before its node, and the nearest-neighbour interpolator can choose the farther node."
  },
  {
   "property": "C167",
   "status": "partial",
   "theorems": [
    "Verif.Float.jc_error",
    "Verif.Float.jc_strict_partial",
    "Verif.Float.jc_same_counterexample",
    "Verif.Float.restore_bound_partial",
    "Verif.Float.restore_counterexample"
   ],
   "note": "Proved: the error of the argument from 1900 to 2099, the order from MJD 32768 on, the error of restoration. False: the order before MJD 32768 (two neighbouring epochs coincide), and restoration without error."
  },
  {
   "property": "C168",
   "status": "partial",
   "theorems": [
    "Verif.Var.Proto.nextH_agrees",
    "Verif.Var.Proto.accept_agrees",
    "Verif.Var.Proto.denormalize_agrees",
    "Verif.Var.Proto.denormalize_twice_counterexample",
    "Verif.Var.Proto.pcv1_agrees",
    "Verif.Var.Proto.pcv2_agrees_partial",
    "Verif.Var.Proto.pcv2_flag_counterexample"
   ],
   "note": "Proved: the block after a successful step, the first de-normalisation, the phase law of frequency 1. False: a second de-normalisation scales again, and the phase law of frequency 2 does not report angles out of range (nor does that of Alcatel on frequency 1, in prototype and library alike). The other blocks of the prototype integrator were compared with the library as text only."
  },
  {
   "property": "C169",
   "status": "partial",
   "theorems": [
    "Verif.Pod.Name.construct_iff",
    "Verif.Pod.Name.program_fits",
    "Verif.Pod.Name.construct_overflow_counterexample"
   ],
   "note": "Proved: exactly the names of at most 255 characters are copied inside the array; in the program every name fits (a longer one is written past the buffer of the program before, see C144). False: the constructors for arbitrary names."
  },
  {
   "property": "C17",
   "status": "proved",
   "theorems": [
    "Verif.Rinex.linesPerBeacon_eq",
    "Verif.Rinex.skip_eq_read",
    "Verif.Rinex.skip_consumes"
   ],
   "note": ""
  },
  {
   "property": "C170",
   "status": "proved",
   "theorems": [
    "Verif.Float.dist_bound",
    "Verif.Float.utheo_bound",
    "Verif.Float.residual_bound"
   ],
   "note": "The present distance comes from a library outside the repository and is assumed right to 1e-8 m; for the norm of Eigen this is proved. The result of a product that is also printed is taken as rounded."
  },
  {
   "property": "C171",
   "status": "partial",
   "theorems": [
    "Verif.Float.poly_error",
    "Verif.Float.poly_ref",
    "Verif.Float.line_mono",
    "Verif.Float.lineD_mono",
    "Verif.Float.poly_mono",
    "Verif.Float.order_ok",
    "Verif.Float.rfo_value",
    "Verif.Float.poly_cancel_counterexample"
   ],
   "note": "Proved: the error bound for every order, exactness at the reference epoch, monotonicity, and the value of the linear fit to 1e-10 of its unit; powers of the time must not underflow. False: a bound relative to the value (cancellation)."
  },
  {
   "property": "C172",
   "status": "proved",
   "theorems": [
    "Verif.Float.slerpD_exact",
    "Verif.Float.slerpD_range",
    "Verif.Float.slerpD_start",
    "Verif.Float.slerpD_mono",
    "Verif.Float.slerpD_near",
    "Verif.Float.recTime_err",
    "Verif.Float.recTime_strict",
    "Verif.Float.slerpD_total"
   ],
   "note": "The fraction of the day delivered by the date library counts as exact; slerp itself is external."
  },
  {
   "property": "C173",
   "status": "proved",
   "theorems": [
    "Verif.Float.sq_rel",
    "Verif.Float.nrm_rel",
    "Verif.Float.cube_rel",
    "Verif.Float.pointMass_error",
    "Verif.Float.pointMass_small",
    "Verif.Float.srp_rel",
    "Verif.Float.srp_error",
    "Verif.Float.clock_rel",
    "Verif.Float.clockJ2_rel",
    "Verif.Float.drel_error"
   ],
   "note": "Overflow is outside the model; the sine of the latitude is the double the library delivers."
  },
  {
   "property": "C174",
   "status": "proved",
   "theorems": [
    "Verif.Float.Drag.relVel_error",
    "Verif.Float.Drag.acc_rel",
    "Verif.Float.Drag.acc_opposes",
    "Verif.Float.Drag.acc_rest",
    "Verif.Float.Drag.drag_error",
    "Verif.Float.Drag.dc_rel",
    "Verif.Float.Drag.dv_rel",
    "Verif.Float.Drag.dv_symm",
    "Verif.Float.Drag.dragDV_entry",
    "Verif.Float.Drag.dragDR_entry",
    "Verif.Float.Drag.dr_error",
    "Verif.Float.Drag.dvI_fin",
    "Verif.Float.Drag.partials_at_rest_counterexample"
   ],
   "note": "Overflow is outside the model. The counterexample is the last clause of the statement: 0/0 in the velocity partials of a satellite at rest in the air."
  },
  {
   "property": "C175",
   "status": "proved",
   "theorems": [
    "Verif.Float.Station.at_epoch",
    "Verif.Float.Station.at_rest",
    "Verif.Float.Station.moves_with_velocity",
    "Verif.Float.Station.mjd_err",
    "Verif.Float.Station.extrap_error",
    "Verif.Float.Station.extrap_exact"
   ],
   "note": "as_mjd() belongs to the date library and is taken as day plus fraction, each rounded."
  },
  {
   "property": "C176",
   "status": "proved",
   "theorems": [
    "Verif.Float.Gravity.accel_error",
    "Verif.Float.Gravity.accel_error_120",
    "Verif.Float.Gravity.accel_exact",
    "Verif.Float.Gravity.accel_zero",
    "Verif.Float.Gravity.accel_point",
    "Verif.Float.Gravity.turns_length",
    "Verif.Float.Gravity.Ev.sum"
   ],
   "note": "The overload without partials, for given work arrays (the rounding errors of the recurrences are not part of the claim); overflow is outside the model."
  },
  {
   "property": "C177",
   "status": "proved",
   "theorems": [
    "Verif.Float.Recur.geo_rel",
    "Verif.Float.Recur.sect_error",
    "Verif.Float.Recur.col_error",
    "Verif.Float.Recur.entry_error",
    "Verif.Float.Recur.zonal_size",
    "Verif.Float.Recur.zonal_error",
    "Verif.Float.Recur.plane_exact",
    "Verif.Float.Recur.zonal_first"
   ],
   "note": "Entry by entry; which entries are written is C52. Overflow is outside the model."
  },
  {
   "property": "C178",
   "status": "proved",
   "theorems": [
    "Verif.Float.Field.field_error",
    "Verif.Float.Field.field_error_120",
    "Verif.Float.Field.field_exact",
    "Verif.Float.Field.accel_lin",
    "Verif.Float.Field.total_lin",
    "Verif.Float.Field.size_lin"
   ],
   "note": "The overload without partials. The sizes are those of the terms before cancellation, not of the result. Overflow is outside the model."
  },
  {
   "property": "C179",
   "status": "proved",
   "theorems": [
    "Verif.Float.State.pos_error",
    "Verif.Float.State.vel_error",
    "Verif.Float.State.mean_error",
    "Verif.Float.State.mean_epoch",
    "Verif.Float.State.epoch_state",
    "Verif.Float.State.later_state",
    "Verif.Float.State.row_nr",
    "Verif.Float.State.vmag_nr"
   ],
   "note": "The overload with vectors. The product of matrix and vector is a function of the library matvec, taken to add the products in their order; overflow is outside the model."
  },
  {
   "property": "C18",
   "status": "partial",
   "theorems": [
    "Verif.Rinex.block_values_partial",
    "Verif.Rinex.missing_scaled_counterexample",
    "Verif.Rinex.trimmed_line_counterexample",
    "Verif.Rinex.missing_least"
   ],
   "note": "Violated: the missing-value sentinel is divided by the scale factor as well; lines without trailing blanks take values from an older line."
  },
  {
   "property": "C180",
   "status": "proved",
   "theorems": [
    "Verif.Float.Hess.up_rel",
    "Verif.Float.Hess.down_rel",
    "Verif.Float.Hess.ratio_exact",
    "Verif.Float.Hess.down_end",
    "Verif.Float.Hess.ent_error",
    "Verif.Float.Hess.part_error",
    "Verif.Float.Hess.yy_error",
    "Verif.Float.Hess.part_error_120",
    "Verif.Float.Hess.ent_exact",
    "Verif.Float.Hess.matrix_error",
    "Verif.Float.Hess.part_point"
   ],
   "note": "The overload with partials. The error is with respect to the sum of the code in exact arithmetic, which lacks the terms of order one of two entries and leaves the upper triangle to the caller (C54). Overflow is outside the model."
  },
  {
   "property": "C181",
   "status": "proved",
   "theorems": [
    "Verif.Float.ForcePart.pm_symmetric",
    "Verif.Float.ForcePart.srp_symmetric",
    "Verif.Float.ForcePart.pm_rel",
    "Verif.Float.ForcePart.pm_error",
    "Verif.Float.ForcePart.srpFac_rel",
    "Verif.Float.ForcePart.srp_terms",
    "Verif.Float.ForcePart.srp_off_rel",
    "Verif.Float.ForcePart.srp_part_error",
    "Verif.Float.ForcePart.srp_dc_rel"
   ],
   "note": "The error for the third body is with respect to the formula of the code, which is not the derivative of the acceleration (C51). Overflow is outside the model."
  },
  {
   "property": "C182",
   "status": "proved",
   "theorems": [
    "Verif.Float.Frame.axis_nr",
    "Verif.Float.Frame.c2t_nr",
    "Verif.Float.Frame.rcel2ter_error",
    "Verif.Float.Frame.rter2cel_error",
    "Verif.Float.Frame.round_trip_error",
    "Verif.Float.Frame.omega_error",
    "Verif.Float.Frame.omega_mono"
   ],
   "note": "std::sin and std::cos are taken to be right to 2^-53 (for arguments of any size). The order in which Eigen adds three products is either of the two. Overflow is outside the model."
  },
  {
   "property": "C183",
   "status": "proved",
   "theorems": [
    "Verif.Float.Quat.matX_quatX",
    "Verif.Float.Quat.quat_nr",
    "Verif.Float.Quat.mat_nr",
    "Verif.Float.Quat.angles_nr",
    "Verif.Float.Quat.propagate_error",
    "Verif.Float.Quat.eigen_error",
    "Verif.Float.Quat.propagate_epoch",
    "Verif.Float.Quat.routes_agree",
    "Verif.Float.Quat.perifocal_same",
    "Verif.Float.Quat.perifocal_error",
    "Verif.Float.Quat.propagate_later"
   ],
   "note": "The products of rotations follow the documented behaviour of Eigen (AngleAxis times AngleAxis is a quaternion). Halving an angle is taken to be exact. std::sin and std::cos are taken to be right to 2^-53. Overflow is outside the model."
  },
  {
   "property": "C184",
   "status": "partial",
   "theorems": [
    "Verif.Float.Peri.p2e_nr",
    "Verif.Float.Peri.convert_error",
    "Verif.Float.Peri.last_row_error",
    "Verif.Float.Peri.not_rotation_counterexample",
    "Verif.Float.Peri.rotation_partial"
   ],
   "note": "False as a rotation: the last row uses the node where the argument of perigee belongs (C48), and with doubles the squared length of a column is 2 for a polar orbit. The error of the last row is given for all orbits. The conversions are those of the exact product with the matrix written in the code; the matrix is the rotation when node and argument of perigee have the same sine and cosine."
  },
  {
   "property": "C185",
   "status": "proved",
   "theorems": [
    "Verif.Float.Inertial.acc_error",
    "Verif.Float.Inertial.acc_error_field",
    "Verif.Float.Inertial.mul_left_err",
    "Verif.Float.Inertial.mul_right_err",
    "Verif.Float.Inertial.part_error"
   ],
   "note": "The partials are compared with the exact product U G U^T that the code forms, which is not the derivative in the inertial frame (C58). The errors of grav_potential_accel enter as hypotheses; they are C178 and C180. Overflow is outside the model."
  },
  {
   "property": "C19",
   "status": "partial",
   "theorems": [
    "Verif.Rinex.truncated_reported_partial",
    "Verif.Rinex.truncated_reported_one_line",
    "Verif.Rinex.truncated_counterexample"
   ],
   "note": "Violated when the file ends inside the continuation lines of the last beacon; proved otherwise."
  },
  {
   "property": "C20",
   "status": "partial",
   "theorems": [
    "Verif.Rinex.epoch_columns_partial",
    "Verif.Rinex.epoch_marker",
    "Verif.Rinex.short_epoch_counterexample"
   ],
   "note": "Proved for lines with all fixed columns (56 characters); violated for shorter ones (uninitialised bytes are parsed)."
  },
  {
   "property": "C21",
   "status": "proved",
   "theorems": [
    "Verif.Rinex.internal_lookup",
    "Verif.Rinex.station_lookup",
    "Verif.Rinex.lookups_inverse",
    "Verif.Rinex.shift_lookup",
    "Verif.Rinex.station_by_internal",
    "Verif.Rinex.block_lookup",
    "Verif.Rinex.code_lookup"
   ],
   "note": ""
  },
  {
   "property": "C22",
   "status": "proved",
   "theorems": [
    "Verif.Rinex.next_block",
    "Verif.Rinex.iterate_visits_all",
    "Verif.Rinex.eof_only_at_end"
   ],
   "note": ""
  },
  {
   "property": "C23",
   "status": "proved",
   "theorems": [
    "Verif.Rinex.l1_epoch",
    "Verif.Rinex.overloads_agree"
   ],
   "note": "Over the rationals; whole nanoseconds by truncation."
  },
  {
   "property": "C24",
   "status": "partial",
   "theorems": [
    "Verif.Eop.no_undefined_behaviour",
    "Verif.Eop.read_defined",
    "Verif.Eop.write_read_same",
    "Verif.Eop.write_read_other",
    "Verif.Eop.resize_keeps",
    "Verif.Eop.moveCtor_reads",
    "Verif.Eop.moveAssign_reads",
    "Verif.Eop.copyCtor_reads_partial",
    "Verif.Eop.no_leak",
    "Verif.Eop.copyCtor_counterexample",
    "Verif.Eop.copyAssign_counterexample",
    "Verif.Eop.copy_of_moved_counterexample",
    "Verif.Eop.moveAssign_leak_counterexample"
   ],
   "note": "Columns and moves proved for every history. Copies violate the property (memcpy gets the number of records, not of bytes; moved tables report a wrong column distance); copyCtor_reads_partial gives the part that is copied."
  },
  {
   "property": "C25",
   "status": "partial",
   "theorems": [
    "Verif.Eop.C04.success_counts",
    "Verif.Eop.C04.success_complete_partial",
    "Verif.Eop.C04.inside_table_partial",
    "Verif.Eop.C04.complete_succeeds_partial",
    "Verif.Eop.C04.file_read_partial",
    "Verif.Eop.C04.items_until",
    "Verif.Eop.C04.empty_interval",
    "Verif.Eop.C04.duplicate_counterexample",
    "Verif.Eop.C04.outside_counterexample",
    "Verif.Eop.C04.stale_counterexample"
   ],
   "note": "Proved for files in chronological order (each day at most once). Violated otherwise: a repeated day hides a missing one or is written outside the table."
  },
  {
   "property": "C26",
   "status": "partial",
   "theorems": [
    "Verif.SpaceWeather.construct_window_partial",
    "Verif.SpaceWeather.advance_window",
    "Verif.SpaceWeather.failed_advance",
    "Verif.SpaceWeather.window_after_advances_partial",
    "Verif.SpaceWeather.window_counterexample"
   ],
   "note": "Advances proved for every file. Construction succeeds with an incomplete window when the file ends early (window_counterexample); proved when a line follows the current day."
  },
  {
   "property": "C27",
   "status": "partial",
   "theorems": [
    "Verif.SpaceWeather.success_stores",
    "Verif.SpaceWeather.success_complete_partial",
    "Verif.SpaceWeather.single_day_complete",
    "Verif.SpaceWeather.regular_complete",
    "Verif.SpaceWeather.eof_counterexample",
    "Verif.SpaceWeather.present_refused_counterexample"
   ],
   "note": "Violated when the file ends before the last requested day (status 0). Proved when the reader reports a position, for single days, and for regular files having the last day."
  },
  {
   "property": "C28",
   "status": "proved",
   "theorems": [
    "Verif.SpaceWeather.ap_entries",
    "Verif.SpaceWeather.From.ap_length",
    "Verif.SpaceWeather.leap_second_counterexample",
    "Verif.SpaceWeather.init_congr"
   ],
   "note": "Over the rationals, whole seconds of day 0..86399. leap_second_counterexample: from second 86400 on the code reads outside the record."
  },
  {
   "property": "C29",
   "status": "partial",
   "theorems": [
    "Verif.SpaceWeather.history_independent_partial",
    "Verif.SpaceWeather.current_unique",
    "Verif.SpaceWeather.construct_current",
    "Verif.SpaceWeather.update_current",
    "Verif.SpaceWeather.failed_update_counterexample"
   ],
   "note": "Proved for regular files (complete lines, increasing dates), days in the file and successful updates. Violated after an unsuccessful update."
  },
  {
   "property": "C30",
   "status": "partial",
   "theorems": [
    "Verif.Icgem.read_success_partial",
    "Verif.Icgem.read_complete",
    "Verif.Icgem.read_complete_but_1",
    "Verif.Icgem.read_duplicate_counterexample",
    "Verif.Icgem.read_order_zero_counterexample",
    "Verif.Icgem.read_outside_counterexample",
    "Verif.Icgem.read_degree_zero_counterexample",
    "Verif.Icgem.read_last_line_refused"
   ],
   "note": "Proved for degree and order at least 1 and data sections without repeated pairs or orders above degrees. Missing: the property is false in the code otherwise (counterexamples: repeated pairs are counted twice, order 0 leaves C(1,1) at -999, lines with order above degree are stored outside the table)."
  },
  {
   "property": "C31",
   "status": "proved",
   "theorems": [
    "Verif.Icgem.coeffsNr_eq",
    "Verif.Icgem.pairs_spec"
   ],
   "note": ""
  },
  {
   "property": "C32",
   "status": "partial",
   "theorems": [
    "Verif.Icgem.header_members_partial",
    "Verif.Icgem.header_normalized_partial",
    "Verif.Icgem.header_success_end",
    "Verif.Icgem.header_trailing_blank_counterexample",
    "Verif.Icgem.header_leftover_counterexample",
    "Verif.Icgem.header_bare_keyword_counterexample",
    "Verif.Icgem.header_tab_counterexample"
   ],
   "note": "Termination and success condition proved outright; members proved for headers whose text arguments end their lines. Missing: the property is false in the code when a blank or tab follows the argument, and for a bare keyword (counterexamples)."
  },
  {
   "property": "C33",
   "status": "proved",
   "theorems": [
    "Verif.Filters.slot_lt",
    "Verif.Filters.slot_inj",
    "Verif.Filters.slot_surj"
   ],
   "note": ""
  },
  {
   "property": "C34",
   "status": "partial",
   "theorems": [
    "Verif.Filters.setTropo_one",
    "Verif.Filters.setTropo_all_none",
    "Verif.Filters.setTropo_all_linear_partial",
    "Verif.Filters.setTropo_counterexample",
    "Verif.Filters.setRfoffLinear_one",
    "Verif.Filters.setRfoffLinear_all",
    "Verif.Filters.setRfoffNone_one",
    "Verif.Filters.setRfoffNone_all",
    "Verif.Filters.setDrag_spec"
   ],
   "note": "Proved for every setter except setting all troposphere values with the linear clock model. Missing: there the property is false in the code for every number of beacons above one (setTropo_counterexample: the stride is 2 instead of 3)."
  },
  {
   "property": "C35",
   "status": "proved",
   "theorems": [
    "Verif.Filters.observation_psd",
    "Verif.Filters.observation_not_larger",
    "Verif.Filters.observation_textbook",
    "Verif.Filters.observation_variance",
    "Verif.Filters.filter_psd"
   ],
   "note": "Over the real numbers."
  },
  {
   "property": "C36",
   "status": "proved",
   "theorems": [
    "Verif.Filters.time_psd",
    "Verif.Filters.time_variance",
    "Verif.Filters.filter_psd"
   ],
   "note": "Over the real numbers."
  },
  {
   "property": "C37",
   "status": "proved",
   "theorems": [
    "Verif.Filters.Rfo.update_valid",
    "Verif.Filters.Rfo.update_info",
    "Verif.Filters.Rfo.run_info",
    "Verif.Filters.Rfo.run_perm",
    "Verif.Filters.Rfo.info_injective",
    "Verif.Filters.Rfo.new_valid",
    "Verif.Filters.Rfo.offdiagonal_symmetric"
   ],
   "note": "Over the real numbers."
  },
  {
   "property": "C38",
   "status": "partial",
   "theorems": [
    "Verif.Attitude.success_brackets",
    "Verif.Attitude.slerp_param_range",
    "Verif.Attitude.before_buffer_reported",
    "Verif.Attitude.success_uses_file_records_partial",
    "Verif.Attitude.epoch_in_file_answered",
    "Verif.Attitude.uninitialised_counterexample",
    "Verif.Attitude.first_line_counterexample",
    "Verif.Attitude.mixed_record_counterexample"
   ],
   "note": "Bracketing, parameter range and refusal of earlier epochs hold in every state. That the records used are consecutive records of the file is proved once the buffer holds five records of the file; before that uninitialised slots are used (counterexample)."
  },
  {
   "property": "C39",
   "status": "partial",
   "theorems": [
    "Verif.Corrections.corrections_general",
    "Verif.Corrections.corrections_in_force_partial",
    "Verif.Corrections.bad_date_refused",
    "Verif.Corrections.bad_value_refused",
    "Verif.Corrections.first_character_counterexample",
    "Verif.Corrections.later_day_counterexample",
    "Verif.Corrections.same_epoch_counterexample",
    "Verif.Corrections.short_line_counterexample"
   ],
   "note": "The first character of every number is lost, the epoch comparison is not lexicographic, a record at exactly the epoch is not used, and short lines are read past their end (counterexamples). Proved: what the code returns for all well-formed files, and that this is the right record when those cases are excluded."
  },
  {
   "property": "C40",
   "status": "proved",
   "theorems": [
    "Verif.Stations.results_in_order",
    "Verif.Stations.results_extrapolated",
    "Verif.Stations.refused_empty",
    "Verif.Stations.refused_status",
    "Verif.Stations.station_found",
    "Verif.Stations.station_tolerated_iff",
    "Verif.Stations.axis_defined_iff",
    "Verif.Stations.strncmpEq_four",
    "Verif.Stations.beacons_in_order",
    "Verif.Stations.beacons_core",
    "Verif.Stations.missing_tolerated_counterexample",
    "Verif.Stations.dropped_silently_counterexample"
   ],
   "note": "The SINEX reader is a parameter. Two counterexamples record behaviour beside the claim: tolerated missing stations are refused, stations without velocities are dropped with status 0."
  },
  {
   "property": "C41",
   "status": "partial",
   "theorems": [
    "Verif.Sgode.order_in_range",
    "Verif.Sgode.order_change_partial",
    "Verif.Sgode.order_after_rejection",
    "Verif.Sgode.rejected_restores",
    "Verif.Sgode.beta_positive",
    "Verif.Sgode.order_drop_counterexample",
    "Verif.Sgode.uninitialised_ifail_counterexample"
   ],
   "note": "Over every linearly ordered field. The order stays in 1..12 and a rejection restores abscissa and differences, through all histories. The order changes by at most one per accepted attempt; a rejection sets it to one at the first failure (counterexample), and the failure counter is uninitialised except on a start (counterexample)."
  },
  {
   "property": "C42",
   "status": "partial",
   "theorems": [
    "Verif.Sgode.invalid_reported",
    "Verif.Sgode.success_at_target",
    "Verif.Sgode.steps_bounded",
    "Verif.Sgode.failure_reported",
    "Verif.Sgode.step_arguments",
    "Verif.Sgode.first_step",
    "Verif.Sgode.zero_tolerance_counterexample"
   ],
   "note": "For every step routine. Two zero tolerances are invalid (quotients 0/0) but accepted (counterexample); everything else of the claim is proved."
  },
  {
   "property": "C43",
   "status": "proved",
   "theorems": [
    "Verif.Sgode.intrp_current",
    "Verif.Sgode.intrp_current_derivative",
    "Verif.Sgode.accepted_derivative"
   ],
   "note": "Also for the interpolated derivative."
  },
  {
   "property": "C44",
   "status": "proved",
   "theorems": [
    "Verif.Astro.kepler_unique",
    "Verif.Astro.kepler_accurate",
    "Verif.Astro.vallado_accurate",
    "Verif.Astro.reduced_anomaly",
    "Verif.Astro.iterations_bounded",
    "Verif.Astro.failure_meaning"
   ],
   "note": "Over the real numbers; both solvers. The exact solution is that for the mean anomaly reduced to one revolution, which differs from the given one by whole revolutions."
  },
  {
   "property": "C45",
   "status": "proved",
   "theorems": [
    "Verif.Orbit.state_invariants",
    "Verif.Orbit.propagate_invariants",
    "Verif.Orbit.eigen_invariants",
    "Verif.Orbit.momentum_tilt"
   ],
   "note": "For all three functions; the Eigen overload has the stated invariants but its node is the argument of perigee (see C47)."
  },
  {
   "property": "C46",
   "status": "partial",
   "theorems": [
    "Verif.Orbit.round_trip_partial",
    "Verif.Orbit.angles_recovered_partial",
    "Verif.Orbit.mean_anomaly_recovered_partial",
    "Verif.Orbit.mean_anomaly_moderate_partial",
    "Verif.Orbit.eigen_round_trip",
    "Verif.Orbit.eigen_round_trip_counterexample"
   ],
   "note": "Holds for the vector overload, for every time offset, and there also for argument of perigee and mean anomaly. False for the Eigen overload, which returns the argument of perigee as the node; norm_angle is an outside function taken by its specification."
  },
  {
   "property": "C47",
   "status": "partial",
   "theorems": [
    "Verif.Orbit.overloads_agree_partial",
    "Verif.Orbit.eigen_agrees_partial",
    "Verif.Orbit.eigen_exchanges",
    "Verif.Orbit.eigen_disagrees_counterexample",
    "Verif.Orbit.perifocal_disagrees_counterexample"
   ],
   "note": "Vector overload and propagate_state agree for all elements. The Eigen overload exchanges node and argument of perigee, and the perifocal route uses a wrong last row: both refuted by a polar orbit."
  },
  {
   "property": "C48",
   "status": "partial",
   "theorems": [
    "Verif.Orbit.p2e_orthogonal_iff",
    "Verif.Orbit.perifocal_round_trip_partial",
    "Verif.Orbit.perifocal_counterexample",
    "Verif.Orbit.intended_matrix_rotation"
   ],
   "note": "False in general: the last row of the matrix uses the node for the argument of perigee. The theorem gives exactly the angles for which the matrix is orthogonal."
  },
  {
   "property": "C49",
   "status": "partial",
   "theorems": [
    "Verif.Forces.drag_law",
    "Verif.Forces.drag_antiparallel",
    "Verif.Forces.drag_velocity_partials",
    "Verif.Forces.drag_coefficient_partials",
    "Verif.Forces.drag_position_partials",
    "Verif.Forces.drag_overloads_agree_partial",
    "Verif.Forces.drag_overloads_counterexample",
    "Verif.Forces.drag_dangling_counterexample"
   ],
   "note": "Direction and all partials (velocity, coefficient and position) proved. The true-of-date overload agrees only if the matrix leaves the axis of rotation alone, and it reads a destroyed temporary (lazy Eigen expression)."
  },
  {
   "property": "C50",
   "status": "partial",
   "theorems": [
    "Verif.Forces.srp_direction",
    "Verif.Forces.srp_inverse_square",
    "Verif.Forces.srp_overloads_agree",
    "Verif.Forces.srp_position_partials",
    "Verif.Forces.srp_coefficient_partials_partial",
    "Verif.Forces.srp_zero_coefficient_counterexample"
   ],
   "note": "Everything holds except the coefficient partials for a zero coefficient, which are computed as 0/0."
  },
  {
   "property": "C51",
   "status": "partial",
   "theorems": [
    "Verif.Forces.point_mass_geocentre",
    "Verif.Forces.point_mass_overloads_agree",
    "Verif.Forces.point_mass_jacobian",
    "Verif.Forces.point_mass_partials_partial",
    "Verif.Forces.point_mass_partials_counterexample"
   ],
   "note": "The partials are wrong along the line to the body: sign and distance of the second term. They are right for directions perpendicular to it."
  },
  {
   "property": "C52",
   "status": "proved",
   "theorems": [
    "Verif.Gravity.lagrange_safe",
    "Verif.Gravity.lagrange_rejects",
    "Verif.Gravity.wrapper_accel_safe",
    "Verif.Gravity.wrapper_partials_safe",
    "Verif.Gravity.lagrange_zonal_W",
    "Verif.Gravity.lagrange_plane",
    "Verif.Gravity.lagrange_parity",
    "Verif.Gravity.lagrange_one_row_counterexample"
   ],
   "note": "The size check is the one of the wrappers in egravity.hpp (at least degree+2 rows, order+2 columns). A direct call with one row only writes outside (lagrange_one_row_counterexample)."
  },
  {
   "property": "C53",
   "status": "proved",
   "theorems": [
    "Verif.Gravity.overloads_agree",
    "Verif.Gravity.accel_safe",
    "Verif.Gravity.accel_linear",
    "Verif.Gravity.accel_central"
   ],
   "note": "Doubles as field elements."
  },
  {
   "property": "C54",
   "status": "partial",
   "theorems": [
    "Verif.Gravity.partials_trace_partial",
    "Verif.Gravity.partials_safe",
    "Verif.Gravity.partials_upper",
    "Verif.Gravity.partials_symmetry_counterexample",
    "Verif.Gravity.partials_order0_counterexample",
    "Verif.Gravity.accAt_deriv",
    "Verif.Gravity.partials_entries_partial",
    "Verif.Gravity.partials_lower_no_order1",
    "Verif.Gravity.partials_order1_counterexample"
   ],
   "note": "False for symmetry and independence: the upper triangle is the caller's old contents, scaled. Zero trace and the lower triangle's independence proved; diagonal and (1,0) entries proved to be derivatives of the acceleration; (2,0) and (2,1) lack the order-1 terms; order 0 reads outside the arrays."
  },
  {
   "property": "C55",
   "status": "proved",
   "theorems": [
    "Verif.Forces.clock_agree",
    "Verif.Forces.clock_difference",
    "Verif.Forces.clock_isotropic"
   ],
   "note": "The latitude function (car2ell) is a parameter."
  },
  {
   "property": "C56",
   "status": "proved",
   "theorems": [
    "Verif.Forces.shadow_spec",
    "Verif.Forces.shadow_light",
    "Verif.Forces.shadow_overloads_agree",
    "Verif.Forces.shadow_direction_only",
    "Verif.Forces.bernese_spec"
   ],
   "note": "For a Sun not at the geocentre. The specification is the geometric cylinder. The Bernese test is characterised too; for the conical tests see C89, C90."
  },
  {
   "property": "C57",
   "status": "partial",
   "theorems": [
    "Verif.Forces.position_round_trip",
    "Verif.Forces.position_round_trip'",
    "Verif.Forces.length_preserved",
    "Verif.Forces.length_preserved'",
    "Verif.Forces.state_round_trip_partial",
    "Verif.Forces.state_round_trip'_partial",
    "Verif.Forces.velocity_is_derivative_partial",
    "Verif.Forces.omega_lod",
    "Verif.Forces.dangling_counterexample"
   ],
   "note": "Positions proved outright. For velocities the code keeps an unevaluated Eigen product that refers to a destroyed temporary; the theorems assume it is read as computed."
  },
  {
   "property": "C58",
   "status": "partial",
   "theorems": [
    "Verif.Forces.inertial_jacobian",
    "Verif.Forces.gravity_partials_partial",
    "Verif.Forces.gravity_partials_counterexample"
   ],
   "note": "False: the partials are rotated with the inverse rotation. Proved when the rotation is symmetric."
  },
  {
   "property": "C59",
   "status": "partial",
   "theorems": [
    "Verif.Forces.density_gradient_partial",
    "Verif.Forces.density_gradient_z",
    "Verif.Forces.density_gradient_counterexample"
   ],
   "note": "First two components proved; the third is always zero because the same displaced position is used twice."
  },
  {
   "property": "C60",
   "status": "partial",
   "theorems": [
    "Verif.Pcv.pcv1_interpolates_partial",
    "Verif.Pcv.pcv1_node",
    "Verif.Pcv.lin5_right",
    "Verif.Pcv.lin5_between",
    "Verif.Pcv.out_of_range_flagged",
    "Verif.Pcv.pcv2_in_range",
    "Verif.Pcv.alcatel_never_flags",
    "Verif.Pcv.zenith_zero",
    "Verif.Pcv.pcv1_ninety_counterexample"
   ],
   "note": "Violated at 90 degrees (reads one element past the table) and for Alcatel frequency 1 (out-of-range angles are not flagged)."
  },
  {
   "property": "C61",
   "status": "partial",
   "theorems": [
    "Verif.BeaconTable.load_exact",
    "Verif.BeaconTable.load_valid",
    "Verif.BeaconTable.load_one_per_site",
    "Verif.BeaconTable.load_blank_counterexample",
    "Verif.BeaconTable.load_long_counterexample",
    "Verif.BeaconTable.load_stale_errno"
   ],
   "note": "Exact for header plus record lines reaching the height column and errno clear; false for blank lines (previous record repeated), over-long lines (rest of table dropped) and stale errno (good table refused). Date and number parsing are parameters."
  },
  {
   "property": "C62",
   "status": "partial",
   "theorems": [
    "Verif.RfoFit.designRow_eq",
    "Verif.RfoFit.windows_partial",
    "Verif.RfoFit.windows_values_partial",
    "Verif.RfoFit.leftover_never_mean",
    "Verif.RfoFit.empty_counterexample",
    "Verif.RfoFit.every_one_counterexample"
   ],
   "note": "Proved for complete windows of length at least 2; proved false for every incomplete last window (division by zero or access outside the buffer), for files without epochs in range, and (dates) for window length 1."
  },
  {
   "property": "C63",
   "status": "partial",
   "theorems": [
    "Verif.Doppler.counts_partial",
    "Verif.Doppler.one_record_partial",
    "Verif.Doppler.unterminated_counterexample",
    "Verif.Doppler.repeated_counterexample",
    "Verif.Doppler.one_value_counterexample"
   ],
   "note": "Proved when the byte after each three-character identifier is NUL and no block repeats a beacon; false otherwise (identifiers are not terminated but compared with strcmp)."
  },
  {
   "property": "C64",
   "status": "partial",
   "theorems": [
    "Verif.Atmosphere.Msis.gtd7_agree",
    "Verif.Atmosphere.Msis.gtd7_history_partial",
    "Verif.Atmosphere.Msis.Data.tabQ_ok",
    "Verif.Atmosphere.Msis.Data.tabR_ok",
    "Verif.Atmosphere.Msis.spread_example",
    "Verif.Atmosphere.Msis.two_instances_counterexample",
    "Verif.Atmosphere.Msis.near_latitude_counterexample",
    "Verif.Atmosphere.Msis.unset_node_counterexample",
    "Verif.Atmosphere.Msis.stale_mix_counterexample"
   ],
   "note": "Proved for any history on one instance when the latitudes and local times that occur differ by more than the cache tolerance 1e-6, with the compiled tables; below 32.5 km for equal contents of the never-written tn3[0], and below 72.5 km with switch 14 on. False otherwise: for two instances (shared statics), within the tolerance, at 32.5 km, with switch 14 off."
  },
  {
   "property": "C65",
   "status": "proved",
   "theorems": [
    "Verif.Atmosphere.spline_solves",
    "Verif.Atmosphere.spline_unique",
    "Verif.Atmosphere.bisect_brackets",
    "Verif.Atmosphere.splint_eq",
    "Verif.Atmosphere.splint_node",
    "Verif.Atmosphere.splint_at_node",
    "Verif.Atmosphere.cubic_hasDerivAt",
    "Verif.Atmosphere.splint_hasDerivAt_inside",
    "Verif.Atmosphere.splint_smooth_at_nodes",
    "Verif.Atmosphere.splini_eq_integral",
    "Verif.Atmosphere.splint_two",
    "Verif.Atmosphere.splint_two_counterexample"
   ],
   "note": "Exact arithmetic (reals for the calculus). With two nodes and an abscissa before the first node splint returns 1e-30 (splint_two_counterexample); such a call is outside the property and does not occur."
  },
  {
   "property": "C66",
   "status": "proved",
   "theorems": [
    "Verif.Atmosphere.Exponential.layer_covers",
    "Verif.Atmosphere.Exponential.layer_unique",
    "Verif.Atmosphere.Exponential.density_eq",
    "Verif.Atmosphere.Exponential.density_pos",
    "Verif.Atmosphere.Exponential.density_strictAnti",
    "Verif.Atmosphere.Exponential.density_le_nominal",
    "Verif.Atmosphere.Exponential.table_contiguous",
    "Verif.Atmosphere.Exponential.scale_height_row_counterexample"
   ],
   "note": "The row 180-200 km has scale height 29740 instead of 29.740 (scale_height_row_counterexample): density is practically constant there, the property holds nevertheless."
  },
  {
   "property": "C67",
   "status": "proved",
   "theorems": [
    "Verif.Atmosphere.Msis.gtd7d_mass",
    "Verif.Atmosphere.Msis.gtd7d_others",
    "Verif.Atmosphere.Msis.gtd7_units",
    "Verif.Atmosphere.Msis.gtd7d_units"
   ],
   "note": "Whole NRLMSISE-00 evaluation modelled; for every table with the molecular weight pdm[2][4] not near zero (actual value 28.95)."
  },
  {
   "property": "C68",
   "status": "proved",
   "theorems": [
    "Verif.Atmosphere.Switches.setSwitch_spec",
    "Verif.Atmosphere.Switches.setSwitch_outside",
    "Verif.Atmosphere.Switches.run_spec",
    "Verif.Atmosphere.Switches.run_defined_iff",
    "Verif.Atmosphere.Switches.run_range"
   ],
   "note": "use_aparray sets the cross switch of index 8 to 0 where the main-switch rule of tselec would give 1; recorded in DESIGN.md."
  },
  {
   "property": "C69",
   "status": "partial",
   "theorems": [
    "Verif.Web.existing_untouched",
    "Verif.Web.refused_iff",
    "Verif.Web.others_untouched",
    "Verif.Web.zero_iff",
    "Verif.Web.value_range",
    "Verif.Web.success_complete_partial",
    "Verif.Web.failure_absent_partial",
    "Verif.Web.lost_tail_counterexample",
    "Verif.Web.unremoved_counterexample",
    "Verif.Web.directory_counterexample",
    "Verif.Web.unopened_counterexample"
   ],
   "note": "Status part proved in full. No partial file remains provided remove and fclose succeed: their results are ignored, so otherwise a partial file stays (with status 0 in the case of fclose). An empty directory of that name is deleted even without force."
  },
  {
   "property": "C70",
   "status": "partial",
   "theorems": [
    "Verif.Spice.found_iff",
    "Verif.Spice.strnEq_take",
    "Verif.Spice.loadIfUnloaded_spec",
    "Verif.Spice.kernels_once_partial",
    "Verif.Spice.text_pck_counterexample",
    "Verif.Spice.prefix_counterexample",
    "Verif.Spice.long_name_counterexample"
   ],
   "note": "Proved for names shorter than 128 characters, none the beginning of another, each requested through the function of its category. False for text PCK files through load_if_unloaded_pck (as get_sun_moon_GM does), for prefixes, and for long names."
  },
  {
   "property": "C71",
   "status": "partial",
   "theorems": [
    "Verif.Poly.valueAt_eq",
    "Verif.Poly.linear_eq_poly",
    "Verif.Poly.value_semantics_partial",
    "Verif.Poly.eval_after",
    "Verif.Poly.move_counterexample",
    "Verif.Poly.move_shares_counterexample",
    "Verif.Poly.move_assign_counterexample",
    "Verif.Poly.constant_leak_counterexample"
   ],
   "note": "Evaluation proved in full; value semantics proved for all histories without moves. False with moves (shared storage, double free); order 0 leaks."
  },
  {
   "property": "C72",
   "status": "proved",
   "theorems": [
    "Verif.SunMoon.equatorial_length",
    "Verif.SunMoon.sunMontenbruck_eq",
    "Verif.SunMoon.sunMontenbruck_length",
    "Verif.SunMoon.sunVallado_eq",
    "Verif.SunMoon.sunVallado_length",
    "Verif.SunMoon.sunApprox21_eq",
    "Verif.SunMoon.sunCurtis_eq",
    "Verif.SunMoon.sunCurtis_length",
    "Verif.SunMoon.dlambda_eq",
    "Verif.SunMoon.latitudeSeries_eq",
    "Verif.SunMoon.moonDistance_eq",
    "Verif.SunMoon.moonApprox_eq",
    "Verif.SunMoon.moonApprox_length",
    "Verif.SunMoon.moonVallado_eq",
    "Verif.SunMoon.moonVallado_length",
    "Verif.SunMoon.mbDistance_pos",
    "Verif.SunMoon.vaDistance_pos",
    "Verif.SunMoon.cuDistance_pos",
    "Verif.SunMoon.moonDistance_pos",
    "Verif.SunMoon.vmDistance_bounds",
    "Verif.SunMoon.curtis_argument_counterexample"
   ],
   "note": "Over the reals with exact angle constants; fundamental arguments are parameters. Also that the angle reductions do not change the vectors. The documented unit of the Curtis argument is wrong."
  },
  {
   "property": "C73",
   "status": "partial",
   "theorems": [
    "Verif.Yaml.lookup_iff",
    "Verif.Yaml.depth2_spec",
    "Verif.Yaml.depth2_zombie",
    "Verif.Yaml.depth3_partial",
    "Verif.Yaml.depth2s_partial",
    "Verif.Yaml.overflow_counterexample",
    "Verif.Yaml.scalar_root_counterexample"
   ],
   "note": "Two-key look-up proved in full. Three keys: an exception escapes if the document is a scalar. Strings: only if the value fits the buffer (strcpy)."
  },
  {
   "property": "C74",
   "status": "proved",
   "theorems": [
    "Verif.SystemInfo.station_line_columns",
    "Verif.SystemInfo.station_line_status",
    "Verif.Rinex.header_stations_exact"
   ],
   "note": ""
  },
  {
   "property": "C75",
   "status": "proved",
   "theorems": [
    "Verif.Gravity.accel_is_gradient"
   ],
   "note": "Directional derivatives in every direction, over the reals."
  },
  {
   "property": "C76",
   "status": "proved",
   "theorems": [
    "Verif.Orbit.state_partials_deriv",
    "Verif.Orbit.state_partials_code",
    "Verif.Orbit.stateOf_propagate",
    "Verif.Orbit.equatorial_counterexample"
   ],
   "note": "Over the reals, with the eccentric anomaly an exact solution of Kepler's equation (the code iterates to a tolerance). Inclination 0 or pi is outside the property: the code divides by zero there (equatorial_counterexample)."
  },
  {
   "property": "C77",
   "status": "proved",
   "theorems": [
    "Verif.Orbit.element_rows_inverse",
    "Verif.Orbit.transition_identity",
    "Verif.Orbit.transition_deriv",
    "Verif.Orbit.propagate_transition"
   ],
   "note": "Over the reals, with exact eccentric anomalies at both times and the elements recovered exactly from the state (hypothesis hel; that conversion is C46)."
  },
  {
   "property": "C78",
   "status": "partial",
   "theorems": [
    "Verif.Rinex.obsTypes_line",
    "Verif.Rinex.scaleFactor_line",
    "Verif.Rinex.readHeader_reads",
    "Verif.Rinex.header_codes_partial",
    "Verif.Rinex.two_lines_counterexample",
    "Verif.Rinex.all_codes_counterexample",
    "Verif.Rinex.no_line_counterexample"
   ],
   "note": "Proved for headers with one SYS / # / OBS TYPES line and one SYS / SCALE FACTOR line naming observables of the list. False for several scale-factor lines (only the last counts), for the blank count that stands for all observables (refused), and for a header without such a line (refused)."
  },
  {
   "property": "C79",
   "status": "partial",
   "theorems": [
    "Verif.Sgode.predictor_partial",
    "Verif.Sgode.corrector_partial",
    "Verif.Sgode.interpolation_partial",
    "Verif.Sgode.coefficients_partial",
    "Verif.Sgode.stale_psi_counterexample",
    "Verif.Sgode.stale_v_counterexample"
   ],
   "note": "Over the real numbers, for all histories except two situations in which the code keeps coefficients of other points (both refuted by runs of the step): a rejection at order one that returns to the size of the step before, and an order lowered before as many equal steps as the order was. Predictor and corrector without the rounding-error control, which uses a destroyed temporary."
  },
  {
   "property": "C80",
   "status": "partial",
   "theorems": [
    "Verif.Variational.layout",
    "Verif.Variational.columns_partial",
    "Verif.Variational.sun_partials_counterexample",
    "Verif.Variational.area_partials_counterexample"
   ],
   "note": "Layout for all inputs; the lower half of a column is the derivative of the acceleration without Sun and with the area held fixed, given a gravity field with its gradient and a differentiable density. The partials by the Sun and those of the projected area are missing (both refuted)."
  },
  {
   "property": "C81",
   "status": "partial",
   "theorems": [
    "Verif.Variational.utc_instant",
    "Verif.Variational.utc_seconds_partial",
    "Verif.Variational.utc_seconds_counterexample"
   ],
   "note": "The instant is right for all inputs; the seconds lie within the day exactly when the TAI date is less than the leap seconds past midnight, so for most of the day they do not (refuted at noon)."
  },
  {
   "property": "C82",
   "status": "proved",
   "theorems": [
    "Verif.Variational.area_bounds",
    "Verif.Variational.area_scale",
    "Verif.Variational.jason3_area"
   ],
   "note": "Over the real numbers; unit normals for the bounds."
  },
  {
   "property": "C83",
   "status": "partial",
   "theorems": [
    "Verif.Variational.moon_acceleration_partial",
    "Verif.Variational.sun_acceleration_millionth",
    "Verif.Variational.sun_acceleration_counterexample"
   ],
   "note": "Moon and Sun position as claimed; the acceleration by the Sun is a millionth of the law (proved for all inputs, with a witness)."
  },
  {
   "property": "C84",
   "status": "partial",
   "theorems": [
    "Verif.Eop.Interp.regularize_rows",
    "Verif.Eop.Interp.restored_at_nodes_partial",
    "Verif.Eop.Interp.between_nodes_partial",
    "Verif.Eop.Interp.failure_counterexample",
    "Verif.Eop.Interp.omega_counterexample"
   ],
   "note": "The library interpolation is a parameter: exact at tabulated dates of a chronological table, or linear in the values. Failure is never reported and the rotation rate is never set (both refuted)."
  },
  {
   "property": "C85",
   "status": "partial",
   "theorems": [
    "Verif.Eop.Interp.tt_date",
    "Verif.Eop.Interp.rotation_partial",
    "Verif.Eop.Interp.outside_table_counterexample"
   ],
   "note": "SOFA and date functions are parameters; tai2utc is assumed to subtract the leap seconds. Dates outside the table are not refused (refuted)."
  },
  {
   "property": "C86",
   "status": "proved",
   "theorems": [
    "Verif.Sgode.refused_keeps",
    "Verif.Sgode.refused_tolerance",
    "Verif.Sgode.second_retry",
    "Verif.Sgode.attempt_made",
    "Verif.Sgode.driver_tolerances"
   ],
   "note": "Over every linearly ordered field; machine epsilon, tolerances non-negative."
  },
  {
   "property": "C87",
   "status": "partial",
   "theorems": [
    "Verif.Orbit.classic_round_trip",
    "Verif.Orbit.vallado_agrees",
    "Verif.Orbit.montenbruck_partial",
    "Verif.Orbit.montenbruck_counterexample"
   ],
   "note": "state2kepler and the alternative after Vallado hold for all states named. The alternative after Montenbruck and Gill multiplies by the semi-major axis where it should divide; its true anomaly and perigee are wrong (refuted), the other elements right."
  },
  {
   "property": "C88",
   "status": "partial",
   "theorems": [
    "Verif.Orbit.ad_recovers",
    "Verif.Orbit.ad_counterexample"
   ],
   "note": "Direction and declination as claimed; the right ascension lies in (0, 2 pi] and is 2 pi instead of 0 on the half plane of the equinox (refuted)."
  },
  {
   "property": "C89",
   "status": "partial",
   "theorems": [
    "Verif.Forces.conical_angles",
    "Verif.Forces.conical_uncovered_partial",
    "Verif.Forces.conical_number",
    "Verif.Forces.conical_extremes",
    "Verif.Forces.conical_annular_counterexample"
   ],
   "note": "Areas by Lebesgue measure in the plane. Holds unless the Earth is seen inside the solar disc, where the function returns no number (refuted); there is no such place within a million kilometres of the Earth."
  },
  {
   "property": "C90",
   "status": "partial",
   "theorems": [
    "Verif.Forces.vallado_value",
    "Verif.Forces.vallado_shadow_partial",
    "Verif.Forces.vallado_penumbra_counterexample",
    "Verif.Forces.vallado_umbra_counterexample"
   ],
   "note": "The distance behind the Earth enters with the wrong sign: 1/2 is never returned from an Earth radius behind the Earth on, and places in penumbra and umbra get 1 (refuted). Proved: the three values, light on the sunward side, shadow only inside the penumbra."
  },
  {
   "property": "C91",
   "status": "partial",
   "theorems": [
    "Verif.Filters.Rfo.fit_ok_iff",
    "Verif.Filters.Rfo.fit_least_squares",
    "Verif.Filters.Rfo.unreadable_first_counterexample",
    "Verif.Filters.Rfo.empty_block_counterexample",
    "Verif.Filters.Rfo.missing_counterexample"
   ],
   "note": "When the fit succeeds is characterised and its result is the least-squares estimate. Refuted: an unreadable first file terminates the program (exception out of a noexcept function), a block without beacons is undefined behaviour, and a missing value (0 marks it) is used as an observation."
  },
  {
   "property": "C92",
   "status": "partial",
   "theorems": [
    "Verif.Atmosphere.Msis.ghp7_found_partial",
    "Verif.Atmosphere.Msis.ghp7_not_searched_counterexample",
    "Verif.Atmosphere.Msis.ghp7_two_pressures_counterexample"
   ],
   "note": "Proved: success is reported exactly when the atmosphere left behind has the given pressure. Refuted: the estimated altitude is never given to the model, so the result is always the atmosphere at the altitude of the input."
  },
  {
   "property": "C93",
   "status": "proved",
   "theorems": [
    "Verif.Atmosphere.Msis.longitude_ut_off",
    "Verif.Atmosphere.Msis.longitude_off",
    "Verif.Atmosphere.Msis.ut_off",
    "Verif.Atmosphere.Msis.local_time_off",
    "Verif.Atmosphere.Msis.magnetic_off",
    "Verif.Atmosphere.Msis.flux_off",
    "Verif.Atmosphere.Msis.season_off"
   ],
   "note": "Simulation between the runs with the two inputs, from every state of the caches. Longitudes above -1000 for effect 10 (smaller ones mean an absent longitude)."
  },
  {
   "property": "C94",
   "status": "proved",
   "theorems": [
    "Verif.Atmosphere.Msis.reference_flux",
    "Verif.Atmosphere.Msis.reference_ap",
    "Verif.Atmosphere.Msis.reference_aparr"
   ],
   "note": "From every state of the caches; for the array of indexes with the actual tables or any that keep p[51] zero or above the threshold."
  },
  {
   "property": "C95",
   "status": "proved",
   "theorems": [
    "Verif.Pod.running_mean",
    "Verif.Pod.running_count",
    "Verif.Pod.running_variance",
    "Verif.Pod.running_perm",
    "Verif.Pod.screen_spec",
    "Verif.Pod.screen_iff",
    "Verif.Pod.screen_lockout"
   ],
   "note": "Over the reals. screen_lockout: after more than five equal residuals the threshold is 0 and nothing is accepted any more, a consequence of the rule as stated."
  },
  {
   "property": "C96",
   "status": "partial",
   "theorems": [
    "Verif.Pod.pair_iff",
    "Verif.Pod.pair_interval_partial",
    "Verif.Pod.pair_same_epoch_counterexample",
    "Verif.Pod.pair_missing_counterexample"
   ],
   "note": "Which counts are formed is characterised. Refuted: two observations of a beacon in one block give an interval of zero, and missing values are used."
  },
  {
   "property": "C97",
   "status": "proved",
   "theorems": [
    "Verif.Pod.number_bound",
    "Verif.Pod.number_iff",
    "Verif.Pod.number_first",
    "Verif.Pod.arc_number",
    "Verif.Pod.track_some_iff"
   ],
   "note": "Induction over all observations; the beacons are those of the header."
  },
  {
   "property": "C98",
   "status": "partial",
   "theorems": [
    "Verif.Pod.uobs_iono",
    "Verif.Pod.uobs_iono_counterexample",
    "Verif.Pod.uobs_iono_partial",
    "Verif.Pod.uobs_minus"
   ],
   "note": "Refuted: the correction is added where it should be subtracted, so the effect is doubled. Proved: what remains exactly, nothing for a constant electron content, and that subtraction would be right."
  },
  {
   "property": "C99",
   "status": "partial",
   "theorems": [
    "Verif.Pod.oc_grows",
    "Verif.Pod.oc_falls",
    "Verif.Pod.difference_falls",
    "Verif.Pod.oc_zero_partial",
    "Verif.Pod.oc_counterexample"
   ],
   "note": "Refuted for either sign of the phases. Proved: the residual in closed form, and zero on the nominal frequencies."
  }
 ]
}