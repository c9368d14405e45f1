{
 "claims": [
  {
   "property": "C01",
   "status": "proved",
   "theorems": [
    "HB.c01_never_drained",
    "HB.c01_never_drained_exact",
    "HB.c01_only_reduced",
    "HB.c01_honoured"
   ],
   "note": "Bound is exact when every positive request exceeds machine epsilon; otherwise the deficit is at most the sum of the requests below machine epsilon (the code leaves those untouched)."
  },
  {
   "property": "C02",
   "status": "partial",
   "theorems": [
    "HB.c02_overflow_partial",
    "HB.c02_limited_partial",
    "HB.c02_config_error",
    "HB.c02_preloaded_overflow_exceeds",
    "HB.c02_empty_store_exceeds"
   ],
   "note": "Full claim is false of the code: pre-loaded overflow slot and empty over-asked storage are counterexamples; proved outside those two situations."
  },
  {
   "property": "C03",
   "status": "partial",
   "theorems": [
    "HB.c03_proportional",
    "HB.c03_order_independent",
    "HB.c03_idempotent_partial",
    "HB.c03_empty_store_not_idempotent",
    "HB.c03_preloaded_overflow_oscillates"
   ],
   "note": "Proportionality and order independence in full; idempotence fails in the two C02 situations."
  },
  {
   "property": "C04",
   "status": "proved",
   "theorems": [
    "HB.c04_commit",
    "HB.c04_nonneg",
    "HB.c04_error",
    "HB.c04_infinite",
    "HB.c04_idempotent",
    "HB.c04_set"
   ],
   "note": ""
  },
  {
   "property": "C05",
   "status": "proved",
   "theorems": [
    "HB.c05_container",
    "HB.c05_save_reset"
   ],
   "note": "Contents and extents; hidden process state is C44."
  },
  {
   "property": "C06",
   "status": "proved",
   "theorems": [
    "HB.c06_solver_balance"
   ],
   "note": "Every solver and every process law (injected groundwater exchange is counted), feed-forward networks. Staged solvers additionally need the structural conditions of C07. Area consistency of the fluxes is C12."
  },
  {
   "property": "C07",
   "status": "partial",
   "theorems": [
    "HB.c07_stages_leave_no_trace",
    "HB.c07_stages_leave_only_exchange",
    "HB.c07_explicit_balance_partial",
    "HB.Demo.c07_instantaneous_output_creates_water"
   ],
   "note": "Proved for feed-forward networks whose solved bricks have no instantaneous output; a groundwater exchange leaves exactly what it injected (in every stage, see C69). The last theorem shows Heun and RK4 create water otherwise."
  },
  {
   "property": "C08",
   "status": "proved",
   "theorems": [
    "HB.c08_direct_balance"
   ],
   "note": "Error term is exactly the water added by snapping (at most 1e-8 per storage unless a negative content is reported)."
  },
  {
   "property": "C09",
   "status": "partial",
   "theorems": [
    "HB.c09_step_balance_partial",
    "HB.c09_run_balance_partial",
    "HB.c09_discharge_balance_partial",
    "HB.Demo.c09_null_brick_creates_water"
   ],
   "note": "Proved for feed-forward networks where null bricks hold no pending flux and no negative content is reported; the last theorem shows a vanished land cover keeps feeding its targets."
  },
  {
   "property": "C10",
   "status": "partial",
   "theorems": [
    "HB.c10_at_most_ten",
    "HB.c10_feasible_partial",
    "HB.Demo.c10_stable_but_overfull",
    "HB.Demo.c10_never_stabilises",
    "HB.Demo.c10_direct_inflow_ignored"
   ],
   "note": "Termination in full. Feasibility for upstream-to-downstream networks whose limited storages have an overflow and are not empty; false otherwise (counterexamples)."
  },
  {
   "property": "C11",
   "status": "proved",
   "theorems": [
    "HB.c11_topology",
    "HB.c11_splitter_not_checked"
   ],
   "note": "Direct fluxes only: water passing through a splitter is not checked."
  },
  {
   "property": "C12",
   "status": "partial",
   "theorems": [
    "HB.c12_cover_partial",
    "HB.c12_applied",
    "HB.c12_storage",
    "HB.c12_outlet",
    "HB.c12_surface_single",
    "HB.c12_surface_second_output_loses",
    "HB.c12_cover_to_cover_not_conserved"
   ],
   "note": "Land covers (any history of extents), storages, outlet sum. Fails for surface components with several weighted outputs and for cover-to-cover fluxes (counterexamples)."
  },
  {
   "property": "C13",
   "status": "proved",
   "theorems": [
    "HB.c13_exact",
    "HB.c13_released",
    "HB.c13_two_steps"
   ],
   "note": "Exact solution of dS/dt = I - kS (Mathlib derivatives), over the reals."
  },
  {
   "property": "C14",
   "status": "partial",
   "theorems": [
    "HB.c14_bracket",
    "HB.c14_rates_balance",
    "HB.c14_cn_rates_balance",
    "HB.c14_accuracy",
    "HB.c14_cn_stiff_no_solution"
   ],
   "note": "Within 1e-12 of the unique solution whenever the step equation has a non-negative one; Crank-Nicolson on a stiff reservoir has none (last theorem)."
  },
  {
   "property": "C15",
   "status": "proved",
   "theorems": [
    "HB.c15_sequential_balance"
   ],
   "note": "Any rate computation; feed-forward networks."
  },
  {
   "property": "C16",
   "status": "proved",
   "theorems": [
    "HB.c16_threshold",
    "HB.c16_threshold_mono",
    "HB.c16_linear",
    "HB.c16_linear_mono",
    "HB.c16_cemaneige",
    "HB.c16_cemaneige_mono",
    "HB.c16_rain_multi"
   ],
   "note": ""
  },
  {
   "property": "C17",
   "status": "proved",
   "theorems": [
    "HB.c17_bounds",
    "HB.c17_supply",
    "HB.c17_empty",
    "HB.c17_saturated",
    "HB.c17_mono"
   ],
   "note": "All seven laws; the demand of the HBV law includes its correction factor. Supply: open water and GR4J by the law itself, the others through C01."
  },
  {
   "property": "C18",
   "status": "proved",
   "theorems": [
    "HB.c18_infiltration",
    "HB.c18_antitone"
   ],
   "note": "Direct bricks: daily step (the code's own convention)."
  },
  {
   "property": "C19",
   "status": "proved",
   "theorems": [
    "HB.c19_formulas",
    "HB.c19_production_step",
    "HB.c19_processes",
    "HB.c19_overfull_start"
   ],
   "note": "Store level within [0, X1] at the start of the step, which the step preserves; an initial content above X1 is not refused and gives negative infiltration (last theorem)."
  },
  {
   "property": "C20",
   "status": "proved",
   "theorems": [
    "HB.c20_interception",
    "HB.c20_twice_counts_twice"
   ],
   "note": "Exact above 1e-8 mm of rain; below, the code skips the process. Evaluated once per step because land covers are computed directly."
  },
  {
   "property": "C21",
   "status": "proved",
   "theorems": [
    "HB.c21_melt",
    "HB.c21_ice_under_snow"
   ],
   "note": ""
  },
  {
   "property": "C22",
   "status": "proved",
   "theorems": [
    "HB.c22_cemaneige",
    "HB.c22_state_bounded"
   ],
   "note": "Any series of days."
  },
  {
   "property": "C23",
   "status": "proved",
   "theorems": [
    "HB.c23_holding",
    "HB.c23_refreeze",
    "HB.c23_transfer"
   ],
   "note": ""
  },
  {
   "property": "C24",
   "status": "proved",
   "theorems": [
    "HB.c24_nonneg",
    "HB.c24_release",
    "HB.c24_rest_complement",
    "HB.c24_mono",
    "HB.c24_two_day_step"
   ],
   "note": "The direct and rest laws follow a one-day convention: steps of at most one day (longer steps are limited by the constraints, C01)."
  },
  {
   "property": "C25",
   "status": "proved",
   "theorems": [
    "HB.c25_percolation",
    "HB.c25_capillary"
   ],
   "note": ""
  },
  {
   "property": "C26",
   "status": "proved",
   "theorems": [
    "HB.c26_partition",
    "HB.c26_cumulative"
   ],
   "note": "All real base times, also non-positive ones (which the code clamps)."
  },
  {
   "property": "C27",
   "status": "proved",
   "theorems": [
    "HB.c27_convolution",
    "HB.c27_balance",
    "HB.c27_complete"
   ],
   "note": "Constant parameters: resizing the buffers during a run is not modelled."
  },
  {
   "property": "C28",
   "status": "proved",
   "theorems": [
    "HB.c28_prediction",
    "HB.c28_exchange",
    "HB.c28_balance",
    "HB.c28_bounds",
    "HB.c28_run",
    "HB.c28_run_x4",
    "HB.c28_logged_counts_delivered"
   ],
   "note": "Daily step, no short-circuit of the process. The last theorem shows the logged internal storage counts water already delivered."
  },
  {
   "property": "C29",
   "status": "partial",
   "theorems": [
    "HB.c29_bounds",
    "HB.c29_balance",
    "HB.c29_accuracy",
    "HB.c29_not_continuous",
    "HB.c29_not_monotone",
    "HB.c29_container_drift"
   ],
   "note": "Bounds, accounting and balance in full; within X6*1e-6 of the continuous store function; exact continuity is false of the code (c29_not_continuous)."
  },
  {
   "property": "C30",
   "status": "proved",
   "theorems": [
    "HB.c30_conservation",
    "HB.c30_run",
    "HB.c30_on_schedule",
    "HB.c30_on_schedule_exists"
   ],
   "note": "Any inflows and any deliveries for conservation; complete delivery when the requested rate is granted."
  },
  {
   "property": "C31",
   "status": "proved",
   "theorems": [
    "HB.c31_slide_holding",
    "HB.c31_holding_depth",
    "HB.c31_steeper_holds_less",
    "HB.c31_slide_complete",
    "HB.c31_volume",
    "HB.c31_volume_total",
    "HB.c31_frey",
    "HB.c31_density",
    "HB.c31_shares_not_checked",
    "HB.c31_plain_output_loses"
   ],
   "note": "Shares summing to at most one (the code checks them one by one only), steps of at most one day, outputs instantaneous as AddSnowRedistribution makes them."
  },
  {
   "property": "C32",
   "status": "proved",
   "theorems": [
    "HB.c32_change",
    "HB.c32_extents",
    "HB.c32_generic_cover",
    "HB.c32_valid_start",
    "HB.c32_generic_request_ignored"
   ],
   "note": "Start: non-negative extents summing to one after validation, fewer than 9999 covers. A request on the generic cover itself is accepted and ignored (last theorem)."
  },
  {
   "property": "C33",
   "status": "partial",
   "theorems": [
    "HB.c33_conserved_partial",
    "HB.c33_unmatched_snow_lost",
    "HB.c33_glacier_ice_lost"
   ],
   "note": "Exact when the extents sum to one and the change is not below machine epsilon; snow and ice only when the gaining cover has the same storage (counterexamples otherwise)."
  },
  {
   "property": "C34",
   "status": "partial",
   "theorems": [
    "HB.c34_rejected_partial",
    "HB.c34_no_generic_cover_mutates",
    "HB.c34_tolerance_zone_mutates"
   ],
   "note": "Full with a generic cover and extents summing to one; without generic cover, or within the tolerance zone, a refused change may mutate (counterexamples)."
  },
  {
   "property": "C35",
   "status": "partial",
   "theorems": [
    "HB.c35_exactly_once",
    "HB.c35_in_order",
    "HB.c35_changes_sorted",
    "HB.c35_step_partial",
    "HB.c35_dates_handed_over",
    "HB.c35_reset",
    "HB.c35_start_date_late",
    "HB.c35_equal_dates_reversed"
   ],
   "note": "Exactly once, at the first clock date reaching it, in date order, in full. The clock does not visit the first step: an item dated at or before the start is applied before the second step only (c35_start_date_late). Runs where no application fails."
  },
  {
   "property": "C36",
   "status": "partial",
   "theorems": [
    "HB.c36_recurring_partial",
    "HB.c36_two_dates_cross",
    "HB.c36_invalid_replaced",
    "HB.c36_every_step_of_day"
   ],
   "note": "One declared date per action (29 February excluded). Several dates fire on the cross product of their months and days; invalid dates are replaced silently."
  },
  {
   "property": "C37",
   "status": "proved",
   "theorems": [
    "HB.c37_snow_to_ice",
    "HB.c37_unit_mass"
   ],
   "note": "Infinite ice storage: the code throws (the theorem covers applied transformations)."
  },
  {
   "property": "C38",
   "status": "proved",
   "theorems": [
    "HB.c38_row_bounds",
    "HB.c38_row_mono",
    "HB.c38_area_scaling",
    "HB.c38_deltah",
    "HB.c38_area_scaling_zero_row",
    "HB.c38_deltah_zero_row_loses"
   ],
   "note": "Consistent tables: extents not altered by the 1e-8 snapping, ice in every row but the last (the last two theorems show what happens otherwise)."
  },
  {
   "property": "C39",
   "status": "partial",
   "theorems": [
    "HB.c39_visits_all",
    "HB.c39_visits_all_double_partial",
    "HB.fl64_rounds",
    "HB.c39_hourly_overruns",
    "HB.c39_two_hourly_misses"
   ],
   "note": "In full in exact arithmetic; in doubles for steps and dates that are multiples of a common dyadic fraction of a day (whole days, 12 h, 6 h, 3 h, 90 min...). Hourly and two-hourly runs allocate a number of rows different from the steps processed (last two theorems)."
  },
  {
   "property": "C40",
   "status": "partial",
   "theorems": [
    "HB.c40_reads_current_date_partial",
    "HB.c40_hour_offset_misread",
    "HB.c40_three_hourly_misread",
    "HB.c40_other_step_misread"
   ],
   "note": "Series of the model's step starting on the run's time of day, one-unit steps or starting with the run; other series are accepted and misread (last three theorems)."
  },
  {
   "property": "C41",
   "status": "partial",
   "theorems": [
    "HB.c41_accepted_iff",
    "HB.c41_never_out_of_range_partial",
    "HB.c41_long_step_out_of_range",
    "HB.c41_three_hourly_out_of_range"
   ],
   "note": "Acceptance is characterised in full; accepted series with steps longer than the model's, or of several units starting earlier, can still run out (last two theorems)."
  },
  {
   "property": "C42",
   "status": "proved",
   "theorems": [
    "HB.c42_counts_days",
    "HB.c42_date_round_trip",
    "HB.c42_every_day",
    "HB.c42_date_order",
    "HB.c42_round_trip",
    "HB.c42_order",
    "HB.c42_day_of_year",
    "HB.c42_second_sixty"
   ],
   "note": "Also with a numerical error of the day number below half a second. Second 60, accepted by the code, comes back as the next minute."
  },
  {
   "property": "C43",
   "status": "proved",
   "theorems": [
    "HB.c43_spinup",
    "HB.c43_extents",
    "HB.c43_length",
    "HB.c43_within_period",
    "HB.c43_initial_values"
   ],
   "note": ""
  },
  {
   "property": "C44",
   "status": "partial",
   "theorems": [
    "HB.c44_rerun_partial",
    "HB.c44_rerun_without_snowpack_partial",
    "HB.c44_cemaneige_differs"
   ],
   "note": "False for snowpack processes with memory: Snowpack::Reset leaves them as they are (last theorem). Proved for all other models."
  },
  {
   "property": "C45",
   "status": "partial",
   "theorems": [
    "HB.c45_by_name_partial",
    "HB.c45_by_type_partial",
    "HB.c45_list_partial",
    "HB.c45_type_basin_throws",
    "HB.c45_type_nothing_matches",
    "HB.c45_empty_list",
    "HB.c45_list_not_atomic",
    "HB.c45_second_process_ignored",
    "HB.c45_throw_leaves_changes"
   ],
   "note": "Components named on unit level, the parameter held by the component or its first process having it; the other theorems show where the request is silently ignored, half applied or refused."
  },
  {
   "property": "C46",
   "status": "partial",
   "theorems": [
    "HB.c46_find_partial",
    "HB.c46_single",
    "HB.c46_exact",
    "HB.c46_single_never_out_of_range"
   ],
   "note": "Tables of at least two entries; a one-entry table answers not-found even when the value lies outside (last theorem)."
  },
  {
   "property": "C47",
   "status": "partial",
   "theorems": [
    "HB.c47_values_partial",
    "HB.c47_steps_partial",
    "HB.c47_first_step_ignored",
    "HB.c47_unsorted_dates_ignored",
    "HB.c47_refused_table_used",
    "HB.c47_empty_years_accepted"
   ],
   "note": "Parameters registered with the updater, dates sorted and distinct; the first time step is never updated, and refused or unsorted tables are kept (last four theorems)."
  },
  {
   "property": "C48",
   "status": "proved",
   "theorems": [
    "HB.c48_tightest",
    "HB.c48_ids",
    "HB.c48_present"
   ],
   "note": ""
  },
  {
   "property": "C49",
   "status": "partial",
   "theorems": [
    "HB.c49_labels",
    "HB.c49_unit_columns",
    "HB.c49_basin_columns_partial",
    "HB.c49_extra_basin_label",
    "HB.c49_repeated_basin_label"
   ],
   "note": "Sub-basin columns: labels distinct and shared by all the variants; otherwise the pointers are shifted or missing (last two theorems)."
  },
  {
   "property": "C50",
   "status": "partial",
   "theorems": [
    "HB.c50_discharge_partial",
    "HB.c50_et",
    "HB.c50_storage",
    "HB.c50_weights_exist",
    "HB.c50_outlet_by_substring",
    "HB.c50_fractions_not_recorded",
    "HB.c50_item_total_ignores_fraction"
   ],
   "note": "Recorded fractions and labels in which only outlet components contain the word outlet; the last three theorems show the totals computed otherwise."
  },
  {
   "property": "C51",
   "status": "partial",
   "theorems": [
    "HB.c51_lateral",
    "HB.c51_all_valid",
    "HB.c51_units_partial",
    "HB.c51_supported",
    "HB.c51_one_way",
    "HB.c51_degree_unconverted",
    "HB.c51_degree_wrong"
   ],
   "note": "All documented conversions except degrees, where the code tests the stored instead of the requested unit (last two theorems)."
  },
  {
   "property": "C52",
   "status": "partial",
   "theorems": [
    "HB.c52_solvers",
    "HB.c52_processes",
    "HB.c52_bricks_splitters_partial",
    "HB.c52_unknown_brick_dereferenced",
    "HB.c52_overflow_names_differ",
    "HB.c52_variables",
    "HB.c52_forcings",
    "HB.c52_contents",
    "HB.c52_unknown_content_to_outlet"
   ],
   "note": "Unknown brick and splitter types are not refused: the builder dereferences the null pointer of the factory; a misspelt content type is accepted towards the outlet."
  },
  {
   "property": "C53",
   "status": "proved",
   "theorems": [
    "HB.c53_trichotomy",
    "HB.c53_coherent",
    "HB.c53_zero_tolerance"
   ],
   "note": ""
  },
  {
   "property": "C54",
   "status": "partial",
   "theorems": [
    "HB.c54_overrides_last_one_step",
    "HB.c54_override_survives_abort"
   ],
   "note": "Every step of every completed run; an override set in an aborted run survives Reset (last theorem)."
  },
  {
   "property": "C55",
   "status": "proved",
   "theorems": [
    "HB.c55_exp_linear",
    "HB.c55_exp_balance"
   ],
   "note": "Over the reals."
  },
  {
   "property": "C56",
   "status": "proved",
   "theorems": [
    "HB.c56_sublimation_transform"
   ],
   "note": ""
  },
  {
   "property": "C57",
   "status": "proved",
   "theorems": [
    "HB.c57_builds_iff",
    "HB.c57_unit_outputs",
    "HB.c57_atmosphere",
    "HB.c57_splitter_outputs",
    "HB.c57_lateral_outputs",
    "HB.c57_basin_outputs",
    "HB.c57_basin_splitter_outputs",
    "HB.c57_only_declared",
    "HB.c57_attached",
    "HB.c57_links",
    "HB.c57_capillary_links",
    "HB.c57_basin_capillary_refused",
    "HB.WireDemo.c57_declared_output_dropped",
    "HB.WireDemo.c57_same_name_twice",
    "HB.WireDemo.c57_own_brick_hides",
    "HB.WireDemo.c57_cover_counted_twice"
   ],
   "note": "Structure and wiring; parameters and forcings of the components are not part of it. The last theorems show repeated names, hidden names, outputs declared on evapotranspiration processes and doubly counted covers."
  },
  {
   "property": "C58",
   "status": "proved",
   "theorems": [
    "HB.Wire.c58_generated",
    "HB.Wire.c58_accepts_iff",
    "HB.Wire.c58_builds",
    "HB.Wire.c58_rain",
    "HB.Wire.c58_snow",
    "HB.Wire.c58_release",
    "HB.Wire.BaseDemo.c58_cover_before_splitters",
    "HB.Wire.BaseDemo.c58_cover_after_snowpacks",
    "HB.Wire.BaseDemo.c58_cover_called_outlet",
    "HB.Wire.BaseDemo.c58_colon_in_name"
   ],
   "note": "Cover names without colon and different from the keywords; called in the order of generate_base_structure. The last four theorems show what happens otherwise (cover silently without rain, without snowpack, bypassed)."
  },
  {
   "property": "C59",
   "status": "proved",
   "theorems": [
    "HB.Par.c59_update_is_rebuild",
    "HB.Par.c59_values_after_any_history",
    "HB.Par.c59_infinite_ice",
    "HB.Par.c59_set_by_name",
    "HB.Par.Demo.c59_infinite_latched",
    "HB.Par.Demo.c59_infinite_needs_update",
    "HB.Par.Demo.c59_repeated_name_stale",
    "HB.Par.Demo.c59_unknown_structure"
   ],
   "note": "Pointers into the settings object are modelled as addresses; adding components or parameters to the settings after the build (which may move them in memory) is outside. The Demo theorems show the exceptions: infinite ice cannot be switched off, repeated brick names keep stale values, an unknown structure id silently uses the previous unit's variant."
  },
  {
   "property": "C60",
   "status": "proved",
   "theorems": [
    "HB.DateText.c60_written_date_is_read",
    "HB.DateText.c60_accepted_text",
    "HB.DateText.c60_result_in_range",
    "HB.DateText.c60_run_period",
    "HB.DateText.c60_run_period_readable",
    "HB.DateText.c60_wrong_order_refused",
    "HB.DateText.c60_refused_ways",
    "HB.DateText.c60_compact_time_misread",
    "HB.DateText.c60_impossible_day_accepted",
    "HB.DateText.c60_example"
   ],
   "note": "strptime of glibc (C locale) is modelled; the Windows branch is not. The last theorems show ways that are refused, a compact date with time that is silently misread when guessed or announced in the wrong order, and 31 February read as 3 March."
  },
  {
   "property": "C61",
   "status": "proved",
   "theorems": [
    "HB.Basin.c61_declaration",
    "HB.Basin.c61_declarations",
    "HB.Basin.c61_built",
    "HB.Basin.c61_units",
    "HB.Basin.c61_number",
    "HB.Basin.c61_text",
    "HB.Basin.c61_accepted",
    "HB.Basin.c61_extents",
    "HB.Basin.c61_forcing_total",
    "HB.Basin.c61_clear_keeps_connections",
    "HB.Basin.Demo.c61_example",
    "HB.Basin.Demo.c61_absent_cover_gets_area",
    "HB.Basin.Demo.c61_reset_loses_correction",
    "HB.Basin.Demo.c61_repeated_id",
    "HB.Basin.Demo.c61_cover_named_like_a_brick",
    "HB.Basin.Demo.c61_forcing_example"
   ],
   "note": "The validity of the parts (bricks, processes, splitters) is a parameter here. The last theorems show: the missing share goes to the first cover even if it was declared absent, a reset drops the correction, clearing keeps the connections, a repeated id means the last unit, and a cover named like another brick is undefined behaviour."
  },
  {
   "property": "C62",
   "status": "proved",
   "theorems": [
    "HB.c62_accepts_iff",
    "HB.c62_forcings",
    "HB.c62_safe_iff",
    "HB.c62_generated",
    "HB.c62_basin_undriven",
    "HB.ValidDemo.complete",
    "HB.ValidDemo.safe",
    "HB.ValidDemo.c62_unfed_splitter_accepted",
    "HB.ValidDemo.c62_missing_series",
    "HB.ValidDemo.c62_divider_without_input",
    "HB.ValidDemo.c62_basin_forcing_refused"
   ],
   "note": "The exact condition for a safe run is stricter than what initialisation checks: the last theorems show accepted models that follow a null pointer (splitter without forcing, series not loaded, dividing splitter without input)."
  },
  {
   "property": "C63",
   "status": "partial",
   "theorems": [
    "HB.c63_built_model_balance",
    "HB.c63_overflow",
    "HB.c63_overflow_only",
    "HB.OverflowDemo.overflows",
    "HB.AsmDemo.runs",
    "HB.AsmDemo.forward",
    "HB.AsmDemo.areas",
    "HB.AsmDemo.c63_surface_weight_lost"
   ],
   "note": "Composes C57 (wiring), C12 (weights) and C09 (balance). Missing: structures with backward or lateral fluxes, declared surface fractions. Without the condition on surface components the claim is false of the code: c63_surface_weight_lost."
  },
  {
   "property": "C64",
   "status": "partial",
   "theorems": [
    "HB.c64_socont_builds",
    "HB.c64_socont_conserves",
    "HB.c64_hbv_builds",
    "HB.c64_hbv_conserves",
    "HB.c64_gr_builds",
    "HB.c64_gr_conserves",
    "HB.c64_hbv_snow_rain_ignored",
    "HB.c64_cemaneige_glacier",
    "HB.PreDemo.socont_conserves",
    "HB.PreDemo.socont_runs",
    "HB.PreDemo.hbv_conserves",
    "HB.PreDemo.hbv_runs",
    "HB.PreDemo.gr_conserves",
    "HB.PreDemo.gr_runs"
   ],
   "note": "Building: all four models, all documented options. Conservation: all four models, missing snow redistribution between units. Findings: HBV's snow_rain_process has no effect; melt:cemaneige with a glacier cannot be built."
  },
  {
   "property": "C65",
   "status": "proved",
   "theorems": [
    "HB.c65_socont_ready",
    "HB.c65_hbv_ready",
    "HB.c65_gr_ready",
    "HB.c65_socont_second_cover",
    "HB.c65_gr_second_cover",
    "HB.c65_socont_refreeze_refused",
    "HB.ReadyDemo.socont_ready",
    "HB.ReadyDemo.hbv_ready",
    "HB.ReadyDemo.gr_ready",
    "HB.ReadyDemo.twoLands_refused",
    "HB.ReadyDemo.twoLands_gr_refused",
    "HB.ReadyDemo.refreezing_refused"
   ],
   "note": "Composition of C64 (descriptions) and C62 (validity). Findings: a second land cover in Socont or GR is never accepted (only at initialisation, not by the Python class); refreezing is only accepted with melt:degree_day."
  },
  {
   "property": "C66",
   "status": "partial",
   "theorems": [
    "HB.c66_et",
    "HB.c66_gr4j",
    "HB.c66_gr4j_step",
    "HB.c66_infiltration",
    "HB.c66_capillary",
    "HB.c66_outflow",
    "HB.c66_snow",
    "HB.c66_swat_season",
    "HB.c66_cemaneige",
    "HB.c66_cemaneige_no_snow",
    "HB.c66_splitters",
    "HB.c66_cemaneige_low",
    "HB.c66_slide",
    "HB.c66_frey",
    "HB.c66_routing_gr4j",
    "HB.c66_routing_gr6j",
    "HB.c66_routing_hbv"
   ],
   "note": "Specification: Spec/Equations.lean, transcribed from the class comments. GR4J formulas are exact up to 13 X1 of forcing and within 2e-11 X1 above (the code caps the argument of tanh); the exponential store of GR6J is within 1e-6 X6. False for CemaNeige below 1500 m (c66_cemaneige_low) and for its thermal state without snow (c66_cemaneige_no_snow), hence partial."
  },
  {
   "property": "C67",
   "status": "partial",
   "theorems": [
    "HB.c67_socont_closes",
    "HB.c67_hbv_closes",
    "HB.c67_gr_closes",
    "HB.c67_no_supply",
    "HB.c67_socont_weather",
    "HB.c67_hbv_weather",
    "HB.c67_gr_weather",
    "HB.c67_sliver_loses_rain"
   ],
   "note": "All four models without redistribution. Needs fractions of 0 or above 1e-8: rain falling on a cover of positive fraction up to 1e-8 is lost (c67_sliver_loses_rain), hence partial. Witness: PrecipDemo.socont_closes, PrecipDemo.socont_runs."
  },
  {
   "property": "C68",
   "status": "proved",
   "theorems": [
    "HB.c68_socont_flows",
    "HB.c68_socont_basin",
    "HB.c68_hbv_flows",
    "HB.c68_hbv_basin",
    "HB.c68_gr_flows",
    "HB.c68_gr_basin"
   ],
   "note": "Both directions: every documented arrow exists and no others. The lateral fluxes of snow redistribution are left out (C57 c57_lateral_outputs). Witnesses in Props/SchemeExamples."
  },
  {
   "property": "C69",
   "status": "partial",
   "theorems": [
    "HB.c69_direct_once",
    "HB.c69_exchange_per_step_partial",
    "HB.c69_gr_once",
    "HB.c69_exchange_repeated",
    "HB.ExchDemo.applies",
    "HB.ExchDemo.routing"
   ],
   "note": "Proved exactly once for bricks computed directly (the discrete GR version) and for explicit Euler. False of the code otherwise: a solved routing process adds its exchange at each evaluation, twice with Heun and four times with RK4 (c69_exchange_repeated); the sequential solvers evaluate it even more often (their number of evaluations is not modelled)."
  },
  {
   "property": "C70",
   "status": "proved",
   "theorems": [
    "HB.c70_gr4j",
    "HB.c70_gr6j",
    "HB.c70_gr4j_published",
    "HB.c70_gr4j_close",
    "HB.c70_gr6j_close",
    "HB.Gr6jDemo.start6_fresh",
    "HB.Gr6jDemo.showers_fair6",
    "HB.Gr6jDemo.showers_decade",
    "HB.c70_exchange_held_back",
    "HB.Gr4jDemo.basin_from",
    "HB.Gr4jDemo.steady_clear",
    "HB.Gr4jDemo.steady_run",
    "HB.Gr4jDemo.start_fresh",
    "HB.Gr4jDemo.showers_fair",
    "HB.Gr4jDemo.showers_century"
   ],
   "note": "Real-number arithmetic; capacity X1 of at least 1 mm, rain and demand up to 13 X1 a day (beyond, the code caps the argument of tanh), nothing near the 10 m per day the code refuses. c70_exchange_held_back: with a large X2 the discharge is held back by the constraint, which does not count the injected exchange (finding)."
  },
  {
   "property": "C71",
   "status": "partial",
   "theorems": [
    "HB.c71_process",
    "HB.c71_direct_partial",
    "HB.OverdraftOk.sound",
    "HB.OverdraftOk.clean",
    "HB.OverdraftOk.runs",
    "HB.c71_refrozen_water_counted_again",
    "HB.c71_rain_counted_twice",
    "HB.OverdraftDemo.from_hbv",
    "HB.OverdraftDemo.builds"
   ],
   "note": "The code does not satisfy the full claim: HBV-96 with its default snow routine overdraws its snowpack (two findings, each creating water). c71_direct_partial covers the bricks computed directly whose inflows are counted once or whose laws never ask for more than there is; storages handed to the solver are the subject of C10."
  },
  {
   "property": "C72",
   "status": "partial",
   "theorems": [
    "HB.c72_direct",
    "HB.c72_sequential",
    "HB.c72_run_partial",
    "HB.c72_run_sequential",
    "HB.c72_unit",
    "HB.c72_unit_partial",
    "HB.c72_socont",
    "HB.c72_hbv",
    "HB.c72_gr",
    "HB.ApartDemo.c72_coupled",
    "HB.ApartDemo.demo_apart",
    "HB.ApartDemo.demo_part",
    "HB.ApartDemo.demo_local",
    "HB.ApartDemo.demo_seq",
    "HB.ApartDemo.other_alike",
    "HB.ApartDemo.demo_runs",
    "HB.ApartDemo.two_sweeps",
    "HB.ApartDemo.same_sweeps",
    "HB.ApartDemo.two_apart",
    "HB.ApartDemo.rain_local",
    "HB.ApartDemo.start_alike"
   ],
   "note": "Exact for the direct phase and the sequential solvers, for every unit of a built model without lateral transport (Socont, HBV-96, GR4J, GR6J included); with Euler, Heun and RK4 proved when the two runs make the same number of constraint sweeps. The full claim is false for these: c72_coupled (the sweeps go over all units until all are stable, and an extra sweep asked for by another unit overwrites an overflow)."
  },
  {
   "property": "C73",
   "status": "proved",
   "theorems": [
    "HB.c73_socont",
    "HB.c73_hbv",
    "HB.c73_gr",
    "HB.c73_period",
    "HB.c73_period_double_partial",
    "HB.c73_guarantees",
    "HB.c73_refused",
    "HB.SetupDemo.hbv_set_up",
    "HB.SetupDemo.c73_pond_lost",
    "HB.SetupDemo.c73_lake_refused"
   ],
   "note": "Rows, spin-up and visited steps are exact-arithmetic statements (doubles: c73_period_double_partial for whole days, C39 counterexamples otherwise). HBV-96 needs units not mixing lakes with other covers: without it a small lake is silently lost (c73_pond_lost)."
  },
  {
   "property": "C74",
   "status": "proved",
   "theorems": [
    "HB.c74_socont",
    "HB.c74_hbv",
    "HB.c74_gr",
    "HB.SetupDemo.valley_closes"
   ],
   "note": "End to end: composes C73 (set-up), C64 (built network) and C67 (balance with the precipitation)."
  },
  {
   "property": "C75",
   "status": "partial",
   "theorems": [
    "HB.c75_file",
    "HB.c75_values",
    "HB.c75_short_name",
    "HB.c75_refused",
    "HB.c75_dates",
    "HB.c75_other_date",
    "HB.c75_cover_areas",
    "HB.c75_total_swe",
    "HB.c75_mean_swe",
    "HB.c75_unit_depth",
    "HB.c75_volume",
    "HB.c75_agrees_with_balance",
    "HB.ResultsDemo.reads",
    "HB.ResultsDemo.balance_applies",
    "HB.c75_mean_over_wrong_axis",
    "HB.c75_snow_of_another_cover",
    "HB.c75_single_cover"
   ],
   "note": "Proved for at least two land covers and names of which none ends like the snow label of a cover without snowpack; otherwise false (c75_single_cover, c75_snow_of_another_cover). get_mean_hydro_units_values averages over the dates instead of the units (c75_mean_over_wrong_axis). Daily dates; the netCDF and xarray libraries are trusted."
  },
  {
   "property": "C76",
   "status": "partial",
   "theorems": [
    "HB.c76_alias",
    "HB.c76_full_name",
    "HB.c76_set_values",
    "HB.c76_always_in_range",
    "HB.c76_constraints",
    "HB.c76_random",
    "HB.c76_calibration",
    "HB.c76_transform",
    "HB.c76_change_range",
    "HB.c76_remove_constraint",
    "HB.c76_changes_apply",
    "HB.ParamDemo.defined",
    "HB.ParamDemo.ordered",
    "HB.ParamDemo.works",
    "HB.ParamDemo.calibrates",
    "HB.c76_alias_as_text",
    "HB.c76_added_alias_shadows",
    "HB.c76_unknown_operator",
    "HB.c76_partial_update",
    "HB.c76_unchecked_ranges",
    "HB.c76_list_length"
   ],
   "note": "Proved for aliases declared as lists without colons, default values in range and ranges not changed afterwards; otherwise false (c76_alias_as_text, c76_added_alias_shadows, c76_unchecked_ranges); operators other than the eight known ones are never checked (c76_unknown_operator), a refused call keeps the keys before the refused one (c76_partial_update), the length of lists is not checked (c76_list_length). Exact numbers; ASCII case."
  },
  {
   "property": "C77",
   "status": "partial",
   "theorems": [
    "HB.Terrain.c77_shares",
    "HB.Terrain.c77_single",
    "HB.Terrain.c77_forced",
    "HB.Terrain.c77_forced_single",
    "HB.Terrain.c77_built",
    "HB.Terrain.c77_accepted",
    "HB.Terrain.c77_lateral",
    "HB.Terrain.TerrainDemo.slope_proper",
    "HB.Terrain.TerrainDemo.three_decimals",
    "HB.Terrain.TerrainDemo.forced",
    "HB.Terrain.TerrainDemo.c77_share_rounded_to_zero",
    "HB.Terrain.TerrainDemo.c77_too_many_receivers",
    "HB.Terrain.TerrainDemo.c77_shares_above_one",
    "HB.Terrain.TerrainDemo.c77_repeated_row"
   ],
   "note": "Directions and amounts (the pysheds library) are inputs. Needs two decimals at least (c77_share_rounded_to_zero) and at most a hundred receivers per unit (c77_too_many_receivers). set_connectivity accepts hand-made tables whose shares sum to more than one (c77_shares_above_one, c77_repeated_row). Exact numbers."
  },
  {
   "property": "C78",
   "status": "partial",
   "theorems": [
    "HB.ForcingOps.c78_values",
    "HB.ForcingOps.c78_corrected_unique",
    "HB.ForcingOps.c78_at_station",
    "HB.ForcingOps.c78_nonneg",
    "HB.ForcingOps.c78_understood",
    "HB.ForcingOps.c78_gradient_length",
    "HB.ForcingOps.c78_pet",
    "HB.ForcingOps.c78_total",
    "HB.ForcingOps.c78_reapplied",
    "HB.ForcingOps.c78_stale_run",
    "HB.ForcingOps.c78_handed_over",
    "HB.ForcingOps.ForcingDemo.c78_demo",
    "HB.ForcingOps.ForcingDemo.meets",
    "HB.ForcingOps.ForcingDemo.c78_reapplied_demo",
    "HB.ForcingOps.ForcingDemo.c78_total_demo",
    "HB.ForcingOps.ForcingDemo.c78_correction_ignored",
    "HB.ForcingOps.ForcingDemo.c78_correction_compounds",
    "HB.ForcingOps.ForcingDemo.c78_applied_twice",
    "HB.ForcingOps.ForcingDemo.c78_pet_stale",
    "HB.ForcingOps.ForcingDemo.c78_integer_gradient",
    "HB.ForcingOps.ForcingDemo.c78_threshold_jump",
    "HB.ForcingOps.ForcingDemo.c78_grid_twice",
    "HB.ForcingOps.ForcingDemo.c78_not_handed_over"
   ],
   "note": "The PET formulas and the regridding are external libraries (results are inputs). Re-application (c78_reapplied) needs: no correction depending on a changing parameter (c78_correction_compounds, c78_correction_ignored), no PET computed from a changing variable (c78_pet_stale), one spatialisation per variable. A second run keeps the forcing of the first one (c78_stale_run)."
  },
  {
   "property": "C79",
   "status": "partial",
   "theorems": [
    "HB.GlTable.sqrt_rootLike",
    "HB.GlTable.c79_volume",
    "HB.GlTable.c79_exact",
    "HB.GlTable.c79_retreat",
    "HB.GlTable.c79_areas",
    "HB.GlTable.c79_area_iff_ice",
    "HB.GlTable.c79_rows",
    "HB.GlTable.c79_tables_for_action",
    "HB.GlTable.c79_changes",
    "HB.GlTable.c79_default",
    "HB.GlTable.c79_top_never_melts",
    "HB.GlTable.c79_stuck",
    "HB.GlTable.c79_large_top",
    "HB.GlTable.GlTableDemo.proper",
    "HB.GlTable.GlTableDemo.melts",
    "HB.GlTable.GlTableDemo.c79_top_grows"
   ],
   "note": "The pixel-based approach is not modelled. Above 20 km2 the default parametrisation has a negative change at the top (c79_large_top, c79_top_grows), outside the theorems. Below 5 km2 the highest band never melts (c79_top_never_melts) and the rows that would need it to are divisions by zero (c79_stuck, melts). Exact numbers."
  },
  {
   "property": "C80",
   "status": "proved",
   "theorems": [
    "HB.GlScaling.c80_table",
    "HB.GlScaling.c80_unique",
    "HB.GlScaling.c80_ends",
    "HB.GlScaling.c80_retreat",
    "HB.GlScaling.c80_units",
    "HB.GlScaling.c80_action",
    "HB.GlScaling.Demo.cells_ice",
    "HB.GlScaling.Demo.table",
    "HB.GlScaling.Demo.acts",
    "HB.GlScaling.Demo.loaded"
   ],
   "note": "Exact numbers; the resampling of the raster is an input (any thicknesses, missing values included)."
  },
  {
   "property": "C81",
   "status": "partial",
   "theorems": [
    "HB.CoverTable.c81_convert",
    "HB.CoverTable.c81_back",
    "HB.CoverTable.c81_brackets",
    "HB.CoverTable.c81_names",
    "HB.CoverTable.c81_documented",
    "HB.CoverTable.c81_in_force",
    "HB.CoverTable.c81_refused",
    "HB.CoverTable.c81_by_id",
    "HB.CoverTable.c81_by_elevation",
    "HB.CoverTable.c81_elevations_apart",
    "HB.CoverTable.c81_interp_bounds",
    "HB.CoverTable.c81_interp_nodes",
    "HB.CoverTable.c81_interp_between",
    "HB.CoverTable.c81_interp_add",
    "HB.CoverTable.c81_demo",
    "HB.CoverTable.c81_demo_hyp",
    "HB.CoverTable.c81_interp_demo",
    "HB.CoverTable.c81_space_names",
    "HB.CoverTable.c81_members_refused",
    "HB.CoverTable.c81_no_chain",
    "HB.CoverTable.c81_same_elevation",
    "HB.CoverTable.c81_unknown_id",
    "HB.CoverTable.c81_reversed_covers"
   ],
   "note": "False of the code: names with a space are never recognised, units with the same integer elevation share the first one's row, an id no unit has is accepted, covers changing at the same date are applied in the reverse order of loading (witnesses). Proved for one file per cover with one row per unit and increasing dates. The extraction of areas from shapefiles is not modelled."
  },
  {
   "property": "C82",
   "status": "partial",
   "theorems": [
    "HB.Discretize.c82_units",
    "HB.Discretize.c82_areas",
    "HB.Discretize.c82_band",
    "HB.Discretize.c82_equal",
    "HB.Discretize.c82_given",
    "HB.Discretize.c82_elevation",
    "HB.Discretize.c82_aspects",
    "HB.Discretize.c82_subs",
    "HB.Discretize.c82_quantiles",
    "HB.Discretize.c82_summit_lost",
    "HB.Discretize.c82_too_many",
    "HB.Discretize.c82_demo",
    "HB.Discretize.c82_demo_aspect",
    "HB.Discretize.c82_demo_quantiles",
    "HB.Discretize.c82_demo_bounds"
   ],
   "note": "False of the code with quantiles: the cells with the greatest value are in no unit, whatever the map (proved), and n asked for gives n - 1 bands; cells beyond given bounds and flat cells (aspect -1) are lost; numbers wrap around from 65536 units on. Exact numbers; slope, aspect, radiation and rasterised sub-catchments are inputs; rounding of the attributes left out."
  },
  {
   "property": "C83",
   "status": "partial",
   "theorems": [
    "HB.UnitTable.c83_start",
    "HB.UnitTable.c83_map",
    "HB.UnitTable.c83_one_cover",
    "HB.UnitTable.c83_loaded",
    "HB.UnitTable.c83_single",
    "HB.UnitTable.c83_declared",
    "HB.UnitTable.c83_accepted",
    "HB.UnitTable.Demo.on_map",
    "HB.UnitTable.Demo.c83_demo",
    "HB.UnitTable.Demo.c83_unknown_cover",
    "HB.UnitTable.Demo.c83_twice",
    "HB.UnitTable.Demo.c83_rest_itself",
    "HB.UnitTable.Demo.c83_empty_unit",
    "HB.UnitTable.Demo.c83_loaded_demo",
    "HB.UnitTable.Demo.c83_calls_demo"
   ],
   "note": "False of the code for a cover of the mapping whose name is not glacier, forest or lake: it is registered and gets nothing (c83_unknown_cover). Needs a generic cover in the table, and a cover initialised once (c83_twice), not the generic one (c83_rest_itself). Exact numbers; resampling of the map and reading of the file are inputs; equal elevations keep their order in the model (pandas does not promise it)."
  },
  {
   "property": "C84",
   "status": "partial",
   "theorems": [
    "HB.Periods.c84_scores",
    "HB.Periods.c84_array",
    "HB.Periods.c84_accepted",
    "HB.Periods.c84_periods",
    "HB.Periods.c84_spinup",
    "HB.Periods.c84_days",
    "HB.Periods.c84_days_example",
    "HB.Periods.c84_years",
    "HB.Periods.Demo.c84_made",
    "HB.Periods.Demo.c84_demo",
    "HB.Periods.Demo.accepted_demo",
    "HB.Periods.Demo.c84_misaligned",
    "HB.Periods.Demo.c84_shifted",
    "HB.Periods.Demo.c84_noon",
    "HB.Periods.Demo.c84_not_covered"
   ],
   "note": "Needs observation dates in strictly increasing order at the time of day of the run: the code only compares the numbers of values, so a duplicated date and a missing one pass (c84_misaligned). Model.eval without a period compares by position whatever the dates (c84_shifted). Instants in whole seconds; spin-up text and metrics are inputs."
  },
  {
   "property": "C85",
   "status": "partial",
   "theorems": [
    "HB.Calib.c85_aligned",
    "HB.Calib.c85_score",
    "HB.Calib.c85_signals",
    "HB.Calib.c85_direction",
    "HB.Calib.c85_best",
    "HB.Calib.c85_scale",
    "HB.Calib.c85_monotone",
    "HB.Calib.c85_rejected",
    "HB.Calib.c85_reasons",
    "HB.Calib.c85_draw",
    "HB.Calib.c85_no_draw",
    "HB.Calib.Demo.c85_aligned_demo",
    "HB.Calib.Demo.c85_missing",
    "HB.Calib.Demo.c85_score_demo",
    "HB.Calib.Demo.c85_signals_demo",
    "HB.Calib.Demo.c85_best_demo",
    "HB.Calib.Demo.c85_all_rejected",
    "HB.Calib.Demo.c85_below_penalty",
    "HB.Calib.Demo.c85_signed_error",
    "HB.Calib.Demo.c85_unlisted"
   ],
   "note": "False of the code for the signed mean error and for errors not in its list (c85_signed_error, c85_unlisted), for runs with a skill below -1e12 (c85_below_penalty), and when all sets are rejected (c85_all_rejected, c85_no_draw). Metrics are arbitrary functions to finite numbers; runs, auxiliary values and SPOTPY are inputs."
  },
  {
   "property": "C86",
   "status": "partial",
   "theorems": [
    "HB.MassBalance.c86_pairs",
    "HB.MassBalance.c86_rows",
    "HB.MassBalance.c86_value",
    "HB.MassBalance.c86_outside",
    "HB.MassBalance.c86_surface",
    "HB.MassBalance.c86_seasons",
    "HB.MassBalance.c86_bands",
    "HB.MassBalance.c86_targets",
    "HB.MassBalance.c86_year",
    "HB.MassBalance.c86_recorded_melt",
    "HB.MassBalance.c86_core",
    "HB.MassBalance.Demo.c86_demo",
    "HB.MassBalance.Demo.c86_melt_demo",
    "HB.MassBalance.Demo.c86_two_covers",
    "HB.MassBalance.Demo.c86_absent_cover",
    "HB.MassBalance.Demo.c86_gap",
    "HB.MassBalance.Demo.c86_changing"
   ],
   "note": "False of the code: the recorded melt is the amount of the flux, already multiplied by the share of the glacier in the basin (c86_core, c86_recorded_melt, c86_melt_demo), so that melt is underestimated; with two glacier covers millimetres are added instead of averaged (c86_two_covers). c86_value holds for one glacier cover and the recorded series. Reading of the files is an input."
  },
  {
   "property": "C87",
   "status": "partial",
   "theorems": [
    "HB.SnowObs.c87_pairs",
    "HB.SnowObs.c87_chosen_covers",
    "HB.SnowObs.c87_value",
    "HB.SnowObs.c87_outside",
    "HB.SnowObs.c87_range",
    "HB.SnowObs.c87_monotone",
    "HB.SnowObs.c87_ends",
    "HB.SnowObs.c87_aggregate",
    "HB.SnowObs.c87_loaders",
    "HB.SnowObs.c87_bounds",
    "HB.SnowObs.c87_rows",
    "HB.SnowObs.c87_csv",
    "HB.SnowObs.c87_units",
    "HB.SnowObs.c87_stack",
    "HB.SnowObs.c87_tiles",
    "HB.SnowObs.c87_sorted",
    "HB.SnowObs.c87_cache",
    "HB.SnowObs.c87_cache_units",
    "HB.SnowObs.Demo.c87_fresh_demo",
    "HB.SnowObs.Demo.c87_ratio_demo",
    "HB.SnowObs.Demo.c87_cache_demo",
    "HB.SnowObs.Demo.c87_demo",
    "HB.SnowObs.Demo.c87_records",
    "HB.SnowObs.Demo.c87_hours",
    "HB.SnowObs.Demo.c87_empty_covers"
   ],
   "note": "Proved except for the cache: hydro_units and the reading of dates are not part of its key, so that a request for some units answers a later one for all (c87_cache_units, c87_cache_demo); c87_cache holds when these agree. Images with a time of day have no value on the last day (c87_hours). Opening, mosaic and reprojection of rasters are inputs; the hash is taken as free of collisions."
  },
  {
   "property": "C88",
   "status": "partial",
   "theorems": [
    "HB.RefMetric.c88_lengths",
    "HB.RefMetric.c88_mean_of_days",
    "HB.RefMetric.c88_aligned",
    "HB.RefMetric.c88_whole",
    "HB.RefMetric.c88_samples",
    "HB.RefMetric.c88_nonempty",
    "HB.RefMetric.c88_all",
    "HB.RefMetric.c88_one_year",
    "HB.RefMetric.c88_random",
    "HB.RefMetric.c88_ends",
    "HB.RefMetric.c88_mean_discharge",
    "HB.RefMetric.Demo.c88_demo",
    "HB.RefMetric.Demo.c88_start_only",
    "HB.RefMetric.Demo.c88_part_of_year",
    "HB.RefMetric.Demo.c88_gaps",
    "HB.RefMetric.Demo.c88_stuck"
   ],
   "note": "Proved for whole years. Otherwise the code fails the property: periods that are not whole years give an error (c88_part_of_year), a period with one date only is ignored (c88_start_only), gaps shift the days compared (c88_gaps). Random draws are an input; that enough of them are admitted is a hypothesis (c88_ends, c88_stuck). The metrics of HydroErr are an input."
  },
  {
   "property": "C89",
   "status": "partial",
   "theorems": [
    "HB.Regrid.c89_plain",
    "HB.Regrid.c89_additive",
    "HB.Regrid.c89_multiplicative",
    "HB.Regrid.c89_weights",
    "HB.Regrid.c89_between",
    "HB.Regrid.c89_schedule",
    "HB.Regrid.c89_doy",
    "HB.Regrid.c89_doy_accepts",
    "HB.Regrid.c89_accepts",
    "HB.Regrid.c89_example",
    "HB.Regrid.c89_doy_example",
    "HB.Regrid.c89_unknown_gradient",
    "HB.Regrid.c89_missing",
    "HB.Regrid.c89_times_middle",
    "HB.Regrid.c89_short_period"
   ],
   "note": "Proved for data without missing values under the unit. Otherwise the code fails the property: missing values count as zero (c89_missing), an error in the tasks leaves zeros (c89_unknown_gradient), only the first and last time and the number of times are compared (c89_times_middle), data by day of the year cannot be spread over short periods (c89_short_period). Reprojection and the gradient of the data by neighbouring cells are inputs."
  },
  {
   "property": "C90",
   "status": "proved",
   "theorems": [
    "HB.StructGraph.c90_edges",
    "HB.StructGraph.c90_nodes",
    "HB.StructGraph.c90_closed",
    "HB.StructGraph.c90_unknown",
    "HB.StructGraph.c90_roles",
    "HB.StructGraph.c90_components",
    "HB.StructGraph.c90_example",
    "HB.StructGraph.c90_same_name",
    "HB.StructGraph.c90_unknown_target"
   ],
   "note": "Distinct names are needed for the attributes: a brick of the sub-basin with the name of one of the units replaces it (c90_same_name). A target that does not exist is shown as a brick (c90_unknown_target). Serialisation and drawing are not modelled."
  },
  {
   "property": "C91",
   "status": "partial",
   "theorems": [
    "HB.Shadow.c91_rays",
    "HB.Shadow.c91_sound",
    "HB.Shadow.c91_cardinal",
    "HB.Shadow.c91_top",
    "HB.Shadow.c91_lower_sun",
    "HB.Shadow.c91_mask",
    "HB.Shadow.c91_example",
    "HB.Shadow.c91_diagonal"
   ],
   "note": "No false shadows in any direction; exact in the four main directions. In between the code misses shadows: the distance is not divided by the length of the direction, up to 1.41 times too long (c91_diagonal; c91_rays gives the factor). Exact arithmetic; the tangent of a right angle, a very large number in doubles, is zero in Lean and gives the same quotients."
  },
  {
   "property": "C92",
   "status": "partial",
   "theorems": [
    "HB.Solar.c92_declination",
    "HB.Solar.c92_sun",
    "HB.Solar.c92_limit",
    "HB.Solar.c92_incidence",
    "HB.Solar.c92_instant",
    "HB.Solar.c92_radiation_range",
    "HB.Solar.c92_daily",
    "HB.Solar.c92_daily_all",
    "HB.Solar.c92_daily_range",
    "HB.Solar.c92_noon_north",
    "HB.Solar.c92_polar",
    "HB.Solar.c92_incidence_empty",
    "HB.Solar.c92_example",
    "HB.Solar.c92_example_noon"
   ],
   "note": "Holds on all days between the tropic of Cancer and the polar circle (c92_daily_all). Elsewhere not: an instant exactly at noon with the sun in the north is computed with the sun in the south (c92_noon_north), and beyond the polar circles the computation stops with an error on the first day of polar day or night (c92_polar). Real arithmetic."
  },
  {
   "property": "C93",
   "status": "partial",
   "theorems": [
    "HB.Custom.c93_accepts",
    "HB.Custom.c93_refuses",
    "HB.Custom.c93_bricks_named",
    "HB.Custom.c93_processes_named",
    "HB.Custom.c93_generated",
    "HB.Custom.c93_options",
    "HB.Custom.c93_sublimation",
    "HB.Custom.c93_no_targets",
    "HB.Custom.c93_cover_place",
    "HB.Custom.c93_unknown_target",
    "HB.Custom.c93_example",
    "HB.Custom.c93_example_wrong"
   ],
   "note": "Acceptance, messages and options in full. Not all accepted structures are generated: a sublimation without a target passes the validation and is refused by the generator (c93_sublimation); an empty list of targets, an unknown target and any place of a land cover are accepted (c93_no_targets, c93_unknown_target, c93_cover_place)."
  },
  {
   "property": "C94",
   "status": "partial",
   "theorems": [
    "HB.UnitStats.c94_elevations",
    "HB.UnitStats.c94_slope",
    "HB.UnitStats.c94_table",
    "HB.UnitStats.c94_aspect",
    "HB.UnitStats.c94_aspect_order",
    "HB.UnitStats.c94_aspect_same",
    "HB.UnitStats.c94_north",
    "HB.UnitStats.c94_aspect_none",
    "HB.UnitStats.c94_flat",
    "HB.UnitStats.c94_opposite",
    "HB.UnitStats.c94_example"
   ],
   "note": "For a table that has no elevation yet. Latitudes and longitudes (an external projection library) are left out. Flat cells, marked by the aspect -1, are counted as facing the north (c94_flat); opposite slopes that cancel out give the north (c94_opposite)."
  },
  {
   "property": "C95",
   "status": "partial",
   "theorems": [
    "HB.Project.c95_accepts",
    "HB.Project.c95_one_field",
    "HB.Project.c95_nothing_missing",
    "HB.Project.c95_corrected_first",
    "HB.Project.c95_accepts_all",
    "HB.Project.c95_observations",
    "HB.Project.c95_null_column",
    "HB.Project.c95_example_all",
    "HB.Project.c95_periods",
    "HB.Project.c95_periods_nested",
    "HB.Project.c95_no_spinup",
    "HB.Project.c95_periods_example",
    "HB.Project.c95_declared",
    "HB.Project.c95_parameters",
    "HB.Project.c95_null_file",
    "HB.Project.c95_null_value",
    "HB.Project.c95_example"
   ],
   "note": "Sections forcing (station data, evapotranspiration), data_parameters, parameters, observations and the required sections; gridded sources by their variables only, the contents of the sections model and hydro_units left out; the periods are covered by c95_periods, c95_periods_nested and c95_no_spinup (dates and the text of a spin-up read by any function). An observation column given as null is accepted (c95_null_column). A file given as null is accepted although there is then nothing to load (c95_null_file), and so is a data parameter without value (c95_null_value)."
  },
  {
   "property": "C96",
   "status": "partial",
   "theorems": [
    "HB.Hillshade.c96_range",
    "HB.Hillshade.c96_plane",
    "HB.Hillshade.c96_flat",
    "HB.Hillshade.c96_not_square",
    "HB.Hillshade.c96_example"
   ],
   "note": "The shade of planes holds for square pixels; for others it is wrong, because np.gradient gives the gradient between rows first and the code divides it by the width of the pixels (c96_not_square). Cells without elevation are left out."
  }
 ]
}