#!/usr/bin/env python3
"""Regenerates /verif/MANIFEST.json from the table below."""
import json
C={}
def c(pid,status,theorems,note): C[pid]=dict(property=pid,status=status,theorems=["HB."+t for t in theorems.split()],note=note)
c("C01","proved","c01_never_drained c01_never_drained_exact c01_only_reduced c01_honoured","Bound is exact when every positive request exceeds machine epsilon; otherwise the deficit is at most the sum of the requests below machine epsilon (the code leaves those untouched).")
c("C02","partial","c02_overflow_partial c02_limited_partial c02_config_error c02_preloaded_overflow_exceeds c02_empty_store_exceeds","Full claim is false of the code: pre-loaded overflow slot and empty over-asked storage are counterexamples; proved outside those two situations.")
c("C03","partial","c03_proportional c03_order_independent c03_idempotent_partial c03_empty_store_not_idempotent c03_preloaded_overflow_oscillates","Proportionality and order independence in full; idempotence fails in the two C02 situations.")
c("C04","proved","c04_commit c04_nonneg c04_error c04_infinite c04_idempotent c04_set","")
c("C05","proved","c05_container c05_save_reset","Contents and extents; hidden process state is C44.")
c("C06","proved","c06_solver_balance","Every solver and every process law (injected groundwater exchange is counted), feed-forward networks. Staged solvers additionally need the structural conditions of C07. Area consistency of the fluxes is C12.")
c("C07","partial","c07_stages_leave_no_trace c07_stages_leave_only_exchange c07_explicit_balance_partial Demo.c07_instantaneous_output_creates_water","Proved for feed-forward networks whose solved bricks have no instantaneous output; a groundwater exchange leaves exactly what it injected (in every stage, see C69). The last theorem shows Heun and RK4 create water otherwise.")
c("C08","proved","c08_direct_balance","Error term is exactly the water added by snapping (at most 1e-8 per storage unless a negative content is reported).")
c("C09","partial","c09_step_balance_partial c09_run_balance_partial c09_discharge_balance_partial Demo.c09_null_brick_creates_water","Proved for feed-forward networks where null bricks hold no pending flux and no negative content is reported; the last theorem shows a vanished land cover keeps feeding its targets.")
c("C10","partial","c10_at_most_ten c10_feasible_partial Demo.c10_stable_but_overfull Demo.c10_never_stabilises Demo.c10_direct_inflow_ignored","Termination in full. Feasibility for upstream-to-downstream networks whose limited storages have an overflow and are not empty; false otherwise (counterexamples).")
c("C11","proved","c11_topology c11_splitter_not_checked","Direct fluxes only: water passing through a splitter is not checked.")
c("C12","partial","c12_cover_partial c12_applied c12_storage c12_outlet c12_surface_single c12_surface_second_output_loses c12_cover_to_cover_not_conserved","Land covers (any history of extents), storages, outlet sum. Fails for surface components with several weighted outputs and for cover-to-cover fluxes (counterexamples).")
c("C13","proved","c13_exact c13_released c13_two_steps","Exact solution of dS/dt = I - kS (Mathlib derivatives), over the reals.")
c("C14","partial","c14_bracket c14_rates_balance c14_cn_rates_balance c14_accuracy c14_cn_stiff_no_solution","Within 1e-12 of the unique solution whenever the step equation has a non-negative one; Crank-Nicolson on a stiff reservoir has none (last theorem).")
c("C15","proved","c15_sequential_balance","Any rate computation; feed-forward networks.")
c("C16","proved","c16_threshold c16_threshold_mono c16_linear c16_linear_mono c16_cemaneige c16_cemaneige_mono c16_rain_multi","")
c("C17","proved","c17_bounds c17_supply c17_empty c17_saturated c17_mono","All seven laws; the demand of the HBV law includes its correction factor. Supply: open water and GR4J by the law itself, the others through C01.")
c("C18","proved","c18_infiltration c18_antitone","Direct bricks: daily step (the code's own convention).")
c("C19","proved","c19_formulas c19_production_step c19_processes c19_overfull_start","Store level within [0, X1] at the start of the step, which the step preserves; an initial content above X1 is not refused and gives negative infiltration (last theorem).")
c("C20","proved","c20_interception c20_twice_counts_twice","Exact above 1e-8 mm of rain; below, the code skips the process. Evaluated once per step because land covers are computed directly.")
c("C21","proved","c21_melt c21_ice_under_snow","")
c("C22","proved","c22_cemaneige c22_state_bounded","Any series of days.")
c("C23","proved","c23_holding c23_refreeze c23_transfer","")
c("C24","proved","c24_nonneg c24_release c24_rest_complement c24_mono c24_two_day_step","The direct and rest laws follow a one-day convention: steps of at most one day (longer steps are limited by the constraints, C01).")
c("C25","proved","c25_percolation c25_capillary","")
c("C26","proved","c26_partition c26_cumulative","All real base times, also non-positive ones (which the code clamps).")
c("C27","proved","c27_convolution c27_balance c27_complete","Constant parameters: resizing the buffers during a run is not modelled.")
c("C28","proved","c28_prediction c28_exchange c28_balance c28_bounds c28_run c28_run_x4 c28_logged_counts_delivered","Daily step, no short-circuit of the process. The last theorem shows the logged internal storage counts water already delivered.")
c("C29","partial","c29_bounds c29_balance c29_accuracy c29_not_continuous c29_not_monotone c29_container_drift","Bounds, accounting and balance in full; within X6*1e-6 of the continuous store function; exact continuity is false of the code (c29_not_continuous).")
c("C30","proved","c30_conservation c30_run c30_on_schedule c30_on_schedule_exists","Any inflows and any deliveries for conservation; complete delivery when the requested rate is granted.")
c("C31","proved","c31_slide_holding c31_holding_depth c31_steeper_holds_less c31_slide_complete c31_volume c31_volume_total c31_frey c31_density c31_shares_not_checked c31_plain_output_loses","Shares summing to at most one (the code checks them one by one only), steps of at most one day, outputs instantaneous as AddSnowRedistribution makes them.")
c("C32","proved","c32_change c32_extents c32_generic_cover c32_valid_start c32_generic_request_ignored","Start: non-negative extents summing to one after validation, fewer than 9999 covers. A request on the generic cover itself is accepted and ignored (last theorem).")
c("C33","partial","c33_conserved_partial c33_unmatched_snow_lost c33_glacier_ice_lost","Exact when the extents sum to one and the change is not below machine epsilon; snow and ice only when the gaining cover has the same storage (counterexamples otherwise).")
c("C34","partial","c34_rejected_partial c34_no_generic_cover_mutates c34_tolerance_zone_mutates","Full with a generic cover and extents summing to one; without generic cover, or within the tolerance zone, a refused change may mutate (counterexamples).")
c("C37","proved","c37_snow_to_ice c37_unit_mass","Infinite ice storage: the code throws (the theorem covers applied transformations).")
c("C35","partial","c35_exactly_once c35_in_order c35_changes_sorted c35_step_partial c35_dates_handed_over c35_reset c35_start_date_late c35_equal_dates_reversed","Exactly once, at the first clock date reaching it, in date order, in full. The clock does not visit the first step: an item dated at or before the start is applied before the second step only (c35_start_date_late). Runs where no application fails.")
c("C36","partial","c36_recurring_partial c36_two_dates_cross c36_invalid_replaced c36_every_step_of_day","One declared date per action (29 February excluded). Several dates fire on the cross product of their months and days; invalid dates are replaced silently.")
c("C38","proved","c38_row_bounds c38_row_mono c38_area_scaling c38_deltah c38_area_scaling_zero_row c38_deltah_zero_row_loses","Consistent tables: extents not altered by the 1e-8 snapping, ice in every row but the last (the last two theorems show what happens otherwise).")
c("C42","proved","c42_counts_days c42_date_round_trip c42_every_day c42_date_order c42_round_trip c42_order c42_day_of_year c42_second_sixty","Also with a numerical error of the day number below half a second. Second 60, accepted by the code, comes back as the next minute.")
c("C39","partial","c39_visits_all c39_visits_all_double_partial fl64_rounds c39_hourly_overruns c39_two_hourly_misses","In full in exact arithmetic; in doubles for steps and dates that are multiples of a common dyadic fraction of a day (whole days, 12 h, 6 h, 3 h, 90 min...). Hourly and two-hourly runs allocate a number of rows different from the steps processed (last two theorems).")
c("C40","partial","c40_reads_current_date_partial c40_hour_offset_misread c40_three_hourly_misread c40_other_step_misread","Series of the model's step starting on the run's time of day, one-unit steps or starting with the run; other series are accepted and misread (last three theorems).")
c("C41","partial","c41_accepted_iff c41_never_out_of_range_partial c41_long_step_out_of_range c41_three_hourly_out_of_range","Acceptance is characterised in full; accepted series with steps longer than the model's, or of several units starting earlier, can still run out (last two theorems).")
c("C43","proved","c43_spinup c43_extents c43_length c43_within_period c43_initial_values","")
c("C44","partial","c44_rerun_partial c44_rerun_without_snowpack_partial c44_cemaneige_differs","False for snowpack processes with memory: Snowpack::Reset leaves them as they are (last theorem). Proved for all other models.")
c("C54","partial","c54_overrides_last_one_step c54_override_survives_abort","Every step of every completed run; an override set in an aborted run survives Reset (last theorem).")
c("C45","partial","c45_by_name_partial c45_by_type_partial c45_list_partial c45_type_basin_throws c45_type_nothing_matches c45_empty_list c45_list_not_atomic c45_second_process_ignored c45_throw_leaves_changes","Components named on unit level, the parameter held by the component or its first process having it; the other theorems show where the request is silently ignored, half applied or refused.")
c("C48","proved","c48_tightest c48_ids c48_present","")
c("C49","partial","c49_labels c49_unit_columns c49_basin_columns_partial c49_extra_basin_label c49_repeated_basin_label","Sub-basin columns: labels distinct and shared by all the variants; otherwise the pointers are shifted or missing (last two theorems).")
c("C46","partial","c46_find_partial c46_single c46_exact c46_single_never_out_of_range","Tables of at least two entries; a one-entry table answers not-found even when the value lies outside (last theorem).")
c("C47","partial","c47_values_partial c47_steps_partial c47_first_step_ignored c47_unsorted_dates_ignored c47_refused_table_used c47_empty_years_accepted","Parameters registered with the updater, dates sorted and distinct; the first time step is never updated, and refused or unsorted tables are kept (last four theorems).")
c("C50","partial","c50_discharge_partial c50_et c50_storage c50_weights_exist c50_outlet_by_substring c50_fractions_not_recorded c50_item_total_ignores_fraction","Recorded fractions and labels in which only outlet components contain the word outlet; the last three theorems show the totals computed otherwise.")
c("C51","partial","c51_lateral c51_all_valid c51_units_partial c51_supported c51_one_way c51_degree_unconverted c51_degree_wrong","All documented conversions except degrees, where the code tests the stored instead of the requested unit (last two theorems).")
c("C52","partial","c52_solvers c52_processes c52_bricks_splitters_partial c52_unknown_brick_dereferenced c52_overflow_names_differ c52_variables c52_forcings c52_contents c52_unknown_content_to_outlet","Unknown brick and splitter types are not refused: the builder dereferences the null pointer of the factory; a misspelt content type is accepted towards the outlet.")
c("C53","proved","c53_trichotomy c53_coherent c53_zero_tolerance","")
c("C55","proved","c55_exp_linear c55_exp_balance","Over the reals.")
c("C56","proved","c56_sublimation_transform","")
c("C57","proved","c57_builds_iff c57_unit_outputs c57_atmosphere c57_splitter_outputs c57_lateral_outputs c57_basin_outputs c57_basin_splitter_outputs c57_only_declared c57_attached c57_links c57_capillary_links c57_basin_capillary_refused WireDemo.c57_declared_output_dropped WireDemo.c57_same_name_twice WireDemo.c57_own_brick_hides WireDemo.c57_cover_counted_twice","Structure and wiring; parameters and forcings of the components are not part of it. The last theorems show repeated names, hidden names, outputs declared on evapotranspiration processes and doubly counted covers.")
c("C58","proved","Wire.c58_generated Wire.c58_accepts_iff Wire.c58_builds Wire.c58_rain Wire.c58_snow Wire.c58_release Wire.BaseDemo.c58_cover_before_splitters Wire.BaseDemo.c58_cover_after_snowpacks Wire.BaseDemo.c58_cover_called_outlet Wire.BaseDemo.c58_colon_in_name","Cover names without colon and different from the keywords; called in the order of generate_base_structure. The last four theorems show what happens otherwise (cover silently without rain, without snowpack, bypassed).")
c("C59","proved","Par.c59_update_is_rebuild Par.c59_values_after_any_history Par.c59_infinite_ice Par.c59_set_by_name Par.Demo.c59_infinite_latched Par.Demo.c59_infinite_needs_update Par.Demo.c59_repeated_name_stale Par.Demo.c59_unknown_structure","Pointers into the settings object are modelled as addresses; adding components or parameters to the settings after the build (which may move them in memory) is outside. The Demo theorems show the exceptions: infinite ice cannot be switched off, repeated brick names keep stale values, an unknown structure id silently uses the previous unit's variant.")
c("C60","proved","DateText.c60_written_date_is_read DateText.c60_accepted_text DateText.c60_result_in_range DateText.c60_run_period DateText.c60_run_period_readable DateText.c60_wrong_order_refused DateText.c60_refused_ways DateText.c60_compact_time_misread DateText.c60_impossible_day_accepted DateText.c60_example","strptime of glibc (C locale) is modelled; the Windows branch is not. The last theorems show ways that are refused, a compact date with time that is silently misread when guessed or announced in the wrong order, and 31 February read as 3 March.")
c("C61","proved","Basin.c61_declaration Basin.c61_declarations Basin.c61_built Basin.c61_units Basin.c61_number Basin.c61_text Basin.c61_accepted Basin.c61_extents Basin.c61_forcing_total Basin.c61_clear_keeps_connections Basin.Demo.c61_example Basin.Demo.c61_absent_cover_gets_area Basin.Demo.c61_reset_loses_correction Basin.Demo.c61_repeated_id Basin.Demo.c61_cover_named_like_a_brick Basin.Demo.c61_forcing_example","The validity of the parts (bricks, processes, splitters) is a parameter here. The last theorems show: the missing share goes to the first cover even if it was declared absent, a reset drops the correction, clearing keeps the connections, a repeated id means the last unit, and a cover named like another brick is undefined behaviour.")
c("C62","proved","c62_accepts_iff c62_forcings c62_safe_iff c62_generated c62_basin_undriven ValidDemo.complete ValidDemo.safe ValidDemo.c62_unfed_splitter_accepted ValidDemo.c62_missing_series ValidDemo.c62_divider_without_input ValidDemo.c62_basin_forcing_refused","The exact condition for a safe run is stricter than what initialisation checks: the last theorems show accepted models that follow a null pointer (splitter without forcing, series not loaded, dividing splitter without input).")
c("C63","partial","c63_built_model_balance c63_overflow c63_overflow_only OverflowDemo.overflows AsmDemo.runs AsmDemo.forward AsmDemo.areas AsmDemo.c63_surface_weight_lost","Composes C57 (wiring), C12 (weights) and C09 (balance). Missing: structures with backward or lateral fluxes, declared surface fractions. Without the condition on surface components the claim is false of the code: c63_surface_weight_lost.")
c("C64","partial","c64_socont_builds c64_socont_conserves c64_hbv_builds c64_hbv_conserves c64_gr_builds c64_gr_conserves c64_hbv_snow_rain_ignored c64_cemaneige_glacier PreDemo.socont_conserves PreDemo.socont_runs PreDemo.hbv_conserves PreDemo.hbv_runs PreDemo.gr_conserves PreDemo.gr_runs","Building: all four models, all documented options. Conservation: all four models, missing snow redistribution between units. Findings: HBV's snow_rain_process has no effect; melt:cemaneige with a glacier cannot be built.")
c("C65","proved","c65_socont_ready c65_hbv_ready c65_gr_ready c65_socont_second_cover c65_gr_second_cover c65_socont_refreeze_refused ReadyDemo.socont_ready ReadyDemo.hbv_ready ReadyDemo.gr_ready ReadyDemo.twoLands_refused ReadyDemo.twoLands_gr_refused ReadyDemo.refreezing_refused","Composition of C64 (descriptions) and C62 (validity). Findings: a second land cover in Socont or GR is never accepted (only at initialisation, not by the Python class); refreezing is only accepted with melt:degree_day.")
c("C66","partial","c66_et c66_gr4j c66_gr4j_step c66_infiltration c66_capillary c66_outflow c66_snow c66_swat_season c66_cemaneige c66_cemaneige_no_snow c66_splitters c66_cemaneige_low c66_slide c66_frey c66_routing_gr4j c66_routing_gr6j c66_routing_hbv","Specification: Spec/Equations.lean, transcribed from the class comments. GR4J formulas are exact up to 13 X1 of forcing and within 2e-11 X1 above (the code caps the argument of tanh); the exponential store of GR6J is within 1e-6 X6. False for CemaNeige below 1500 m (c66_cemaneige_low) and for its thermal state without snow (c66_cemaneige_no_snow), hence partial.")
c("C67","partial","c67_socont_closes c67_hbv_closes c67_gr_closes c67_no_supply c67_socont_weather c67_hbv_weather c67_gr_weather c67_sliver_loses_rain","All four models without redistribution. Needs fractions of 0 or above 1e-8: rain falling on a cover of positive fraction up to 1e-8 is lost (c67_sliver_loses_rain), hence partial. Witness: PrecipDemo.socont_closes, PrecipDemo.socont_runs.")
c("C68","proved","c68_socont_flows c68_socont_basin c68_hbv_flows c68_hbv_basin c68_gr_flows c68_gr_basin","Both directions: every documented arrow exists and no others. The lateral fluxes of snow redistribution are left out (C57 c57_lateral_outputs). Witnesses in Props/SchemeExamples.")
c("C69","partial","c69_direct_once c69_exchange_per_step_partial c69_gr_once c69_exchange_repeated ExchDemo.applies ExchDemo.routing","Proved exactly once for bricks computed directly (the discrete GR version) and for explicit Euler. False of the code otherwise: a solved routing process adds its exchange at each evaluation, twice with Heun and four times with RK4 (c69_exchange_repeated); the sequential solvers evaluate it even more often (their number of evaluations is not modelled).")
c("C70","proved","c70_gr4j c70_gr6j c70_gr4j_published c70_gr4j_close c70_gr6j_close Gr6jDemo.start6_fresh Gr6jDemo.showers_fair6 Gr6jDemo.showers_decade c70_exchange_held_back Gr4jDemo.basin_from Gr4jDemo.steady_clear Gr4jDemo.steady_run Gr4jDemo.start_fresh Gr4jDemo.showers_fair Gr4jDemo.showers_century","Real-number arithmetic; capacity X1 of at least 1 mm, rain and demand up to 13 X1 a day (beyond, the code caps the argument of tanh), nothing near the 10 m per day the code refuses. c70_exchange_held_back: with a large X2 the discharge is held back by the constraint, which does not count the injected exchange (finding).")
c("C71","partial","c71_process c71_direct_partial OverdraftOk.sound OverdraftOk.clean OverdraftOk.runs c71_refrozen_water_counted_again c71_rain_counted_twice OverdraftDemo.from_hbv OverdraftDemo.builds","The code does not satisfy the full claim: HBV-96 with its default snow routine overdraws its snowpack (two findings, each creating water). c71_direct_partial covers the bricks computed directly whose inflows are counted once or whose laws never ask for more than there is; storages handed to the solver are the subject of C10.")
c("C72","partial","c72_direct c72_sequential c72_run_partial c72_run_sequential c72_unit c72_unit_partial c72_socont c72_hbv c72_gr ApartDemo.c72_coupled ApartDemo.demo_apart ApartDemo.demo_part ApartDemo.demo_local ApartDemo.demo_seq ApartDemo.other_alike ApartDemo.demo_runs ApartDemo.two_sweeps ApartDemo.same_sweeps ApartDemo.two_apart ApartDemo.rain_local ApartDemo.start_alike","Exact for the direct phase and the sequential solvers, for every unit of a built model without lateral transport (Socont, HBV-96, GR4J, GR6J included); with Euler, Heun and RK4 proved when the two runs make the same number of constraint sweeps. The full claim is false for these: c72_coupled (the sweeps go over all units until all are stable, and an extra sweep asked for by another unit overwrites an overflow).")
c("C73","proved","c73_socont c73_hbv c73_gr c73_period c73_period_double_partial c73_guarantees c73_refused SetupDemo.hbv_set_up SetupDemo.c73_pond_lost SetupDemo.c73_lake_refused","Rows, spin-up and visited steps are exact-arithmetic statements (doubles: c73_period_double_partial for whole days, C39 counterexamples otherwise). HBV-96 needs units not mixing lakes with other covers: without it a small lake is silently lost (c73_pond_lost).")
c("C74","proved","c74_socont c74_hbv c74_gr SetupDemo.valley_closes","End to end: composes C73 (set-up), C64 (built network) and C67 (balance with the precipitation).")
c("C75","partial","c75_file c75_values c75_short_name c75_refused c75_dates c75_other_date c75_cover_areas c75_total_swe c75_mean_swe c75_unit_depth c75_volume c75_agrees_with_balance ResultsDemo.reads ResultsDemo.balance_applies c75_mean_over_wrong_axis c75_snow_of_another_cover c75_single_cover","Proved for at least two land covers and names of which none ends like the snow label of a cover without snowpack; otherwise false (c75_single_cover, c75_snow_of_another_cover). get_mean_hydro_units_values averages over the dates instead of the units (c75_mean_over_wrong_axis). Daily dates; the netCDF and xarray libraries are trusted.")
c("C76","partial","c76_alias c76_full_name c76_set_values c76_always_in_range c76_constraints c76_random c76_calibration c76_transform c76_change_range c76_remove_constraint c76_changes_apply ParamDemo.defined ParamDemo.ordered ParamDemo.works ParamDemo.calibrates c76_alias_as_text c76_added_alias_shadows c76_unknown_operator c76_partial_update c76_unchecked_ranges c76_list_length","Proved for aliases declared as lists without colons, default values in range and ranges not changed afterwards; otherwise false (c76_alias_as_text, c76_added_alias_shadows, c76_unchecked_ranges); operators other than the eight known ones are never checked (c76_unknown_operator), a refused call keeps the keys before the refused one (c76_partial_update), the length of lists is not checked (c76_list_length). Exact numbers; ASCII case.")
c("C77","partial","Terrain.c77_shares Terrain.c77_single Terrain.c77_forced Terrain.c77_forced_single Terrain.c77_built Terrain.c77_accepted Terrain.c77_lateral Terrain.TerrainDemo.slope_proper Terrain.TerrainDemo.three_decimals Terrain.TerrainDemo.forced Terrain.TerrainDemo.c77_share_rounded_to_zero Terrain.TerrainDemo.c77_too_many_receivers Terrain.TerrainDemo.c77_shares_above_one Terrain.TerrainDemo.c77_repeated_row","Directions and amounts (the pysheds library) are inputs. Needs two decimals at least (c77_share_rounded_to_zero) and at most a hundred receivers per unit (c77_too_many_receivers). set_connectivity accepts hand-made tables whose shares sum to more than one (c77_shares_above_one, c77_repeated_row). Exact numbers.")
c("C78","partial","ForcingOps.c78_values ForcingOps.c78_corrected_unique ForcingOps.c78_at_station ForcingOps.c78_nonneg ForcingOps.c78_understood ForcingOps.c78_gradient_length ForcingOps.c78_pet ForcingOps.c78_total ForcingOps.c78_reapplied ForcingOps.c78_stale_run ForcingOps.c78_handed_over ForcingOps.ForcingDemo.c78_demo ForcingOps.ForcingDemo.meets ForcingOps.ForcingDemo.c78_reapplied_demo ForcingOps.ForcingDemo.c78_total_demo ForcingOps.ForcingDemo.c78_correction_ignored ForcingOps.ForcingDemo.c78_correction_compounds ForcingOps.ForcingDemo.c78_applied_twice ForcingOps.ForcingDemo.c78_pet_stale ForcingOps.ForcingDemo.c78_integer_gradient ForcingOps.ForcingDemo.c78_threshold_jump ForcingOps.ForcingDemo.c78_grid_twice ForcingOps.ForcingDemo.c78_not_handed_over","The PET formulas and the regridding are external libraries (results are inputs). Re-application (c78_reapplied) needs: no correction depending on a changing parameter (c78_correction_compounds, c78_correction_ignored), no PET computed from a changing variable (c78_pet_stale), one spatialisation per variable. A second run keeps the forcing of the first one (c78_stale_run).")
c("C79","partial","GlTable.sqrt_rootLike GlTable.c79_volume GlTable.c79_exact GlTable.c79_retreat GlTable.c79_areas GlTable.c79_area_iff_ice GlTable.c79_rows GlTable.c79_tables_for_action GlTable.c79_changes GlTable.c79_default GlTable.c79_top_never_melts GlTable.c79_stuck GlTable.c79_large_top GlTable.GlTableDemo.proper GlTable.GlTableDemo.melts GlTable.GlTableDemo.c79_top_grows","The pixel-based approach is not modelled. Above 20 km2 the default parametrisation has a negative change at the top (c79_large_top, c79_top_grows), outside the theorems. Below 5 km2 the highest band never melts (c79_top_never_melts) and the rows that would need it to are divisions by zero (c79_stuck, melts). Exact numbers.")
c("C80","proved","GlScaling.c80_table GlScaling.c80_unique GlScaling.c80_ends GlScaling.c80_retreat GlScaling.c80_units GlScaling.c80_action GlScaling.Demo.cells_ice GlScaling.Demo.table GlScaling.Demo.acts GlScaling.Demo.loaded","Exact numbers; the resampling of the raster is an input (any thicknesses, missing values included).")
c("C81","partial","CoverTable.c81_convert CoverTable.c81_back CoverTable.c81_brackets CoverTable.c81_names CoverTable.c81_documented CoverTable.c81_in_force CoverTable.c81_refused CoverTable.c81_by_id CoverTable.c81_by_elevation CoverTable.c81_elevations_apart CoverTable.c81_interp_bounds CoverTable.c81_interp_nodes CoverTable.c81_interp_between CoverTable.c81_interp_add CoverTable.c81_demo CoverTable.c81_demo_hyp CoverTable.c81_interp_demo CoverTable.c81_space_names CoverTable.c81_members_refused CoverTable.c81_no_chain CoverTable.c81_same_elevation CoverTable.c81_unknown_id CoverTable.c81_reversed_covers","False of the code: names with a space are never recognised, units with the same integer elevation share the first one's row, an id no unit has is accepted, covers changing at the same date are applied in the reverse order of loading (witnesses). Proved for one file per cover with one row per unit and increasing dates. The extraction of areas from shapefiles is not modelled.")
c("C82","partial","Discretize.c82_units Discretize.c82_areas Discretize.c82_band Discretize.c82_equal Discretize.c82_given Discretize.c82_elevation Discretize.c82_aspects Discretize.c82_subs Discretize.c82_quantiles Discretize.c82_summit_lost Discretize.c82_too_many Discretize.c82_demo Discretize.c82_demo_aspect Discretize.c82_demo_quantiles Discretize.c82_demo_bounds","False of the code with quantiles: the cells with the greatest value are in no unit, whatever the map (proved), and n asked for gives n - 1 bands; cells beyond given bounds and flat cells (aspect -1) are lost; numbers wrap around from 65536 units on. Exact numbers; slope, aspect, radiation and rasterised sub-catchments are inputs; rounding of the attributes left out.")
c("C83","partial","UnitTable.c83_start UnitTable.c83_map UnitTable.c83_one_cover UnitTable.c83_loaded UnitTable.c83_single UnitTable.c83_declared UnitTable.c83_accepted UnitTable.Demo.on_map UnitTable.Demo.c83_demo UnitTable.Demo.c83_unknown_cover UnitTable.Demo.c83_twice UnitTable.Demo.c83_rest_itself UnitTable.Demo.c83_empty_unit UnitTable.Demo.c83_loaded_demo UnitTable.Demo.c83_calls_demo","False of the code for a cover of the mapping whose name is not glacier, forest or lake: it is registered and gets nothing (c83_unknown_cover). Needs a generic cover in the table, and a cover initialised once (c83_twice), not the generic one (c83_rest_itself). Exact numbers; resampling of the map and reading of the file are inputs; equal elevations keep their order in the model (pandas does not promise it).")
c("C84","partial","Periods.c84_scores Periods.c84_array Periods.c84_accepted Periods.c84_periods Periods.c84_spinup Periods.c84_days Periods.c84_days_example Periods.c84_years Periods.Demo.c84_made Periods.Demo.c84_demo Periods.Demo.accepted_demo Periods.Demo.c84_misaligned Periods.Demo.c84_shifted Periods.Demo.c84_noon Periods.Demo.c84_not_covered","Needs observation dates in strictly increasing order at the time of day of the run: the code only compares the numbers of values, so a duplicated date and a missing one pass (c84_misaligned). Model.eval without a period compares by position whatever the dates (c84_shifted). Instants in whole seconds; spin-up text and metrics are inputs.")
c("C85","partial","Calib.c85_aligned Calib.c85_score Calib.c85_signals Calib.c85_direction Calib.c85_best Calib.c85_scale Calib.c85_monotone Calib.c85_rejected Calib.c85_reasons Calib.c85_draw Calib.c85_no_draw Calib.Demo.c85_aligned_demo Calib.Demo.c85_missing Calib.Demo.c85_score_demo Calib.Demo.c85_signals_demo Calib.Demo.c85_best_demo Calib.Demo.c85_all_rejected Calib.Demo.c85_below_penalty Calib.Demo.c85_signed_error Calib.Demo.c85_unlisted","False of the code for the signed mean error and for errors not in its list (c85_signed_error, c85_unlisted), for runs with a skill below -1e12 (c85_below_penalty), and when all sets are rejected (c85_all_rejected, c85_no_draw). Metrics are arbitrary functions to finite numbers; runs, auxiliary values and SPOTPY are inputs.")
c("C86","partial","MassBalance.c86_pairs MassBalance.c86_rows MassBalance.c86_value MassBalance.c86_outside MassBalance.c86_surface MassBalance.c86_seasons MassBalance.c86_bands MassBalance.c86_targets MassBalance.c86_year MassBalance.c86_recorded_melt MassBalance.c86_core MassBalance.Demo.c86_demo MassBalance.Demo.c86_melt_demo MassBalance.Demo.c86_two_covers MassBalance.Demo.c86_absent_cover MassBalance.Demo.c86_gap MassBalance.Demo.c86_changing","False of the code: the recorded melt is the amount of the flux, already multiplied by the share of the glacier in the basin (c86_core, c86_recorded_melt, c86_melt_demo), so that melt is underestimated; with two glacier covers millimetres are added instead of averaged (c86_two_covers). c86_value holds for one glacier cover and the recorded series. Reading of the files is an input.")
c("C87","partial","SnowObs.c87_pairs SnowObs.c87_chosen_covers SnowObs.c87_value SnowObs.c87_outside SnowObs.c87_range SnowObs.c87_monotone SnowObs.c87_ends SnowObs.c87_aggregate SnowObs.c87_loaders SnowObs.c87_bounds SnowObs.c87_rows SnowObs.c87_csv SnowObs.c87_units SnowObs.c87_stack SnowObs.c87_tiles SnowObs.c87_sorted SnowObs.c87_cache SnowObs.c87_cache_units SnowObs.Demo.c87_fresh_demo SnowObs.Demo.c87_ratio_demo SnowObs.Demo.c87_cache_demo SnowObs.Demo.c87_demo SnowObs.Demo.c87_records SnowObs.Demo.c87_hours SnowObs.Demo.c87_empty_covers","Proved except for the cache: hydro_units and the reading of dates are not part of its key, so that a request for some units answers a later one for all (c87_cache_units, c87_cache_demo); c87_cache holds when these agree. Images with a time of day have no value on the last day (c87_hours). Opening, mosaic and reprojection of rasters are inputs; the hash is taken as free of collisions.")
c("C88","partial","RefMetric.c88_lengths RefMetric.c88_mean_of_days RefMetric.c88_aligned RefMetric.c88_whole RefMetric.c88_samples RefMetric.c88_nonempty RefMetric.c88_all RefMetric.c88_one_year RefMetric.c88_random RefMetric.c88_ends RefMetric.c88_mean_discharge RefMetric.Demo.c88_demo RefMetric.Demo.c88_start_only RefMetric.Demo.c88_part_of_year RefMetric.Demo.c88_gaps RefMetric.Demo.c88_stuck","Proved for whole years. Otherwise the code fails the property: periods that are not whole years give an error (c88_part_of_year), a period with one date only is ignored (c88_start_only), gaps shift the days compared (c88_gaps). Random draws are an input; that enough of them are admitted is a hypothesis (c88_ends, c88_stuck). The metrics of HydroErr are an input.")
c("C89","partial","Regrid.c89_plain Regrid.c89_additive Regrid.c89_multiplicative Regrid.c89_weights Regrid.c89_between Regrid.c89_schedule Regrid.c89_doy Regrid.c89_doy_accepts Regrid.c89_accepts Regrid.c89_example Regrid.c89_doy_example Regrid.c89_unknown_gradient Regrid.c89_missing Regrid.c89_times_middle Regrid.c89_short_period","Proved for data without missing values under the unit. Otherwise the code fails the property: missing values count as zero (c89_missing), an error in the tasks leaves zeros (c89_unknown_gradient), only the first and last time and the number of times are compared (c89_times_middle), data by day of the year cannot be spread over short periods (c89_short_period). Reprojection and the gradient of the data by neighbouring cells are inputs.")
c("C90","proved","StructGraph.c90_edges StructGraph.c90_nodes StructGraph.c90_closed StructGraph.c90_unknown StructGraph.c90_roles StructGraph.c90_components StructGraph.c90_example StructGraph.c90_same_name StructGraph.c90_unknown_target","Distinct names are needed for the attributes: a brick of the sub-basin with the name of one of the units replaces it (c90_same_name). A target that does not exist is shown as a brick (c90_unknown_target). Serialisation and drawing are not modelled.")
c("C91","partial","Shadow.c91_rays Shadow.c91_sound Shadow.c91_cardinal Shadow.c91_top Shadow.c91_lower_sun Shadow.c91_mask Shadow.c91_example Shadow.c91_diagonal","No false shadows in any direction; exact in the four main directions. In between the code misses shadows: the distance is not divided by the length of the direction, up to 1.41 times too long (c91_diagonal; c91_rays gives the factor). Exact arithmetic; the tangent of a right angle, a very large number in doubles, is zero in Lean and gives the same quotients.")
c("C92","partial","Solar.c92_declination Solar.c92_sun Solar.c92_limit Solar.c92_incidence Solar.c92_instant Solar.c92_radiation_range Solar.c92_daily Solar.c92_daily_all Solar.c92_daily_range Solar.c92_noon_north Solar.c92_polar Solar.c92_incidence_empty Solar.c92_example Solar.c92_example_noon","Holds on all days between the tropic of Cancer and the polar circle (c92_daily_all). Elsewhere not: an instant exactly at noon with the sun in the north is computed with the sun in the south (c92_noon_north), and beyond the polar circles the computation stops with an error on the first day of polar day or night (c92_polar). Real arithmetic.")
c("C93","partial","Custom.c93_accepts Custom.c93_refuses Custom.c93_bricks_named Custom.c93_processes_named Custom.c93_generated Custom.c93_options Custom.c93_sublimation Custom.c93_no_targets Custom.c93_cover_place Custom.c93_unknown_target Custom.c93_example Custom.c93_example_wrong","Acceptance, messages and options in full. Not all accepted structures are generated: a sublimation without a target passes the validation and is refused by the generator (c93_sublimation); an empty list of targets, an unknown target and any place of a land cover are accepted (c93_no_targets, c93_unknown_target, c93_cover_place).")
c("C94","partial","UnitStats.c94_elevations UnitStats.c94_slope UnitStats.c94_table UnitStats.c94_aspect UnitStats.c94_aspect_order UnitStats.c94_aspect_same UnitStats.c94_north UnitStats.c94_aspect_none UnitStats.c94_flat UnitStats.c94_opposite UnitStats.c94_example","For a table that has no elevation yet. Latitudes and longitudes (an external projection library) are left out. Flat cells, marked by the aspect -1, are counted as facing the north (c94_flat); opposite slopes that cancel out give the north (c94_opposite).")
c("C95","partial","Project.c95_accepts Project.c95_one_field Project.c95_nothing_missing Project.c95_corrected_first Project.c95_accepts_all Project.c95_observations Project.c95_null_column Project.c95_example_all Project.c95_periods Project.c95_periods_nested Project.c95_no_spinup Project.c95_periods_example Project.c95_declared Project.c95_parameters Project.c95_null_file Project.c95_null_value Project.c95_example","Sections forcing (station data, evapotranspiration), data_parameters, parameters, observations and the required sections; gridded sources by their variables only, the contents of the sections model and hydro_units left out; the periods are covered by c95_periods, c95_periods_nested and c95_no_spinup (dates and the text of a spin-up read by any function). An observation column given as null is accepted (c95_null_column). A file given as null is accepted although there is then nothing to load (c95_null_file), and so is a data parameter without value (c95_null_value).")
c("C96","partial","Hillshade.c96_range Hillshade.c96_plane Hillshade.c96_flat Hillshade.c96_not_square Hillshade.c96_example","The shade of planes holds for square pixels; for others it is wrong, because np.gradient gives the gradient between rows first and the code divides it by the width of the pixels (c96_not_square). Cells without elevation are left out.")
if __name__=="__main__":
    order=[json.loads(l)["id"] for l in open("/verif/properties.jsonl")]
    json.dump({"claims":[C[k] for k in order if k in C]},open("/verif/MANIFEST.json","w"),indent=1)
    print(len(C),"claims; missing:",[k for k in order if k not in C])
