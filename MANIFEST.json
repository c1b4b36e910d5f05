{
 "claims": [
  {
   "property": "C01",
   "status": "proved",
   "theorems": [
    "Pysnobal.C01_precip_partition"
   ],
   "note": ""
  },
  {
   "property": "C02",
   "status": "proved",
   "theorems": [
    "Pysnobal.C02_rejects_exactly"
   ],
   "note": ""
  },
  {
   "property": "C03",
   "status": "proved",
   "theorems": [
    "Pysnobal.C03_phase_temperature"
   ],
   "note": ""
  },
  {
   "property": "C04",
   "status": "proved",
   "theorems": [
    "Pysnobal.C04_forcing_reaches_next_record",
    "Pysnobal.C04_linear_in_time"
   ],
   "note": ""
  },
  {
   "property": "C05",
   "status": "proved",
   "theorems": [
    "Pysnobal.C05_precip_conserved"
   ],
   "note": ""
  },
  {
   "property": "C06",
   "status": "proved",
   "theorems": [
    "Pysnobal.C06_clock",
    "Pysnobal.C06_clock_data_step",
    "Pysnobal.C06_clock_never_ahead",
    "Pysnobal.C06_clock_can_stall"
   ],
   "note": ""
  },
  {
   "property": "C07",
   "status": "proved",
   "theorems": [
    "Pysnobal.C07_normal_records",
    "Pysnobal.C07_normal_count"
   ],
   "note": ""
  },
  {
   "property": "C08",
   "status": "proved",
   "theorems": [
    "Pysnobal.C08_all_records_data_step",
    "Pysnobal.C08_all_records_increasing"
   ],
   "note": ""
  },
  {
   "property": "C09",
   "status": "proved",
   "theorems": [
    "Pysnobal.C09_same_history",
    "Pysnobal.C09_modes_agree_data_step",
    "Pysnobal.C09_run_records",
    "Pysnobal.C09_modes_agree"
   ],
   "note": ""
  },
  {
   "property": "C10",
   "status": "proved",
   "theorems": [
    "Pysnobal.C10_normal_record_summarises",
    "Pysnobal.C10_all_records_summarise",
    "Pysnobal.C10_nothing_pending",
    "Pysnobal.C10_mean_bounds"
   ],
   "note": ""
  },
  {
   "property": "C11",
   "status": "proved",
   "theorems": [
    "Pysnobal.C11_thin_layers_fine_steps",
    "Pysnobal.C11_three_levels_suffice",
    "Pysnobal.C11_exact_subdivision",
    "Pysnobal.C11_no_level_out_of_range"
   ],
   "note": ""
  },
  {
   "property": "C12",
   "status": "proved",
   "theorems": [
    "Pysnobal.C12_append_only",
    "Pysnobal.C12_runs_compose",
    "Pysnobal.C12_prefix_of_longer_run"
   ],
   "note": ""
  },
  {
   "property": "C13",
   "status": "proved",
   "theorems": [
    "Pysnobal.C13_layer_split",
    "Pysnobal.C13_depths_add_up"
   ],
   "note": ""
  },
  {
   "property": "C14",
   "status": "proved",
   "theorems": [
    "Pysnobal.C14_records_consistent"
   ],
   "note": ""
  },
  {
   "property": "C15",
   "status": "proved",
   "theorems": [
    "Pysnobal.C15_snow_free_records"
   ],
   "note": ""
  },
  {
   "property": "C16",
   "status": "proved",
   "theorems": [
    "Pysnobal.C16_cold_content_step",
    "Pysnobal.C16_cold_content_records"
   ],
   "note": ""
  },
  {
   "property": "C17",
   "status": "proved",
   "theorems": [
    "Pysnobal.C17_temperature_step",
    "Pysnobal.C17_temperature_records"
   ],
   "note": ""
  },
  {
   "property": "C18",
   "status": "proved",
   "theorems": [
    "Pysnobal.C18_temperature_round_trip",
    "Pysnobal.C18_cold_content_round_trip",
    "Pysnobal.C18_isothermal"
   ],
   "note": ""
  },
  {
   "property": "C19",
   "status": "proved",
   "theorems": [
    "Pysnobal.C19_mass_balance_step",
    "Pysnobal.C19_mass_balance_data_step",
    "Pysnobal.C19_mass_balance_run"
   ],
   "note": ""
  },
  {
   "property": "C20",
   "status": "proved",
   "theorems": [
    "Pysnobal.C20_rain_runs_off",
    "Pysnobal.C20_bare_step"
   ],
   "note": ""
  },
  {
   "property": "C21",
   "status": "proved",
   "theorems": [
    "Pysnobal.C21_snowfall_on_bare_ground",
    "Pysnobal.C21_conservation_fails",
    "Pysnobal.C21_never_a_deficit_step",
    "Pysnobal.C21_never_a_deficit_run"
   ],
   "note": ""
  },
  {
   "property": "C22",
   "status": "proved",
   "theorems": [
    "Pysnobal.C22_stored_water_repeats",
    "Pysnobal.C22_runoff_from_nothing"
   ],
   "note": ""
  },
  {
   "property": "C23",
   "status": "proved",
   "theorems": [
    "Pysnobal.C23_ice_budget_step",
    "Pysnobal.C23_mass_step",
    "Pysnobal.C23_depth_of_layers_step",
    "Pysnobal.C23_depth_step",
    "Pysnobal.C23_mass_depth_records",
    "Pysnobal.C23_depth_can_be_negative",
    "Pysnobal.C23_mass_can_be_negative"
   ],
   "note": ""
  },
  {
   "property": "C24",
   "status": "proved",
   "theorems": [
    "Pysnobal.C24_melt_conserves_energy",
    "Pysnobal.C24_merging",
    "Pysnobal.C24_vanishing",
    "Pysnobal.C24_surface_energy_step",
    "Pysnobal.C24_melt_bound_step",
    "Pysnobal.C24_energy_step",
    "Pysnobal.C24_one_layer_step",
    "Pysnobal.C24_two_layer_step"
   ],
   "note": ""
  },
  {
   "property": "C25",
   "status": "proved",
   "theorems": [
    "Pysnobal.C25_energy_budget_step",
    "Pysnobal.C25_energy_budget_records"
   ],
   "note": ""
  },
  {
   "property": "C26",
   "status": "proved",
   "theorems": [
    "Pysnobal.C26_retention_step",
    "Pysnobal.C26_retention_records"
   ],
   "note": ""
  },
  {
   "property": "C27",
   "status": "proved",
   "theorems": [
    "Pysnobal.C27_gravity_compaction",
    "Pysnobal.C27_gravity_compaction_bare",
    "Pysnobal.C27_deep_pack_ignores_step_length"
   ],
   "note": ""
  },
  {
   "property": "C28",
   "status": "proved",
   "theorems": [
    "Pysnobal.C28_water_compaction",
    "Pysnobal.C28_water_compaction_bare"
   ],
   "note": ""
  },
  {
   "property": "C29",
   "status": "proved",
   "theorems": [
    "Pysnobal.C29_density_clipped_step",
    "Pysnobal.C29_density_clipped_records"
   ],
   "note": ""
  },
  {
   "property": "C30",
   "status": "proved",
   "theorems": [
    "Pysnobal.C30_water_nonneg_steps",
    "Pysnobal.C30_water_nonneg_records"
   ],
   "note": ""
  },
  {
   "property": "C31",
   "status": "proved",
   "theorems": [
    "Pysnobal.C31_status_always_zero",
    "Pysnobal.C31_noConverge_unreachable",
    "Pysnobal.C31_nonconvergence_reported_as_success"
   ],
   "note": ""
  },
  {
   "property": "C32",
   "status": "proved",
   "theorems": [
    "Pysnobal.C32_neutral_raises",
    "Pysnobal.C32_neutral_never_returns"
   ],
   "note": ""
  },
  {
   "property": "C33",
   "status": "proved",
   "theorems": [
    "Pysnobal.C33_returns_only_for_valid",
    "Pysnobal.C33_rejections",
    "Pysnobal.C33_low_height_domain_error"
   ],
   "note": ""
  },
  {
   "property": "C34",
   "status": "proved",
   "theorems": [
    "Pysnobal.C34_stably_stratified",
    "Pysnobal.C34_down_gradient",
    "Pysnobal.C34_latent_heat",
    "Pysnobal.C34_calm_air",
    "Pysnobal.C34_stable_fluxes",
    "Pysnobal.C34_arguments_finite",
    "Pysnobal.C34_guesses_consistent"
   ],
   "note": ""
  },
  {
   "property": "C35",
   "status": "proved",
   "theorems": [
    "Pysnobal.C35_goff_gratch",
    "Pysnobal.C35_domain",
    "Pysnobal.C35_positive",
    "Pysnobal.C35_satw_increasing",
    "Pysnobal.C35_sati_increasing",
    "Pysnobal.C35_freezing_point",
    "Pysnobal.C35_relative_to_freezing",
    "Pysnobal.C35_ice_below_water",
    "Pysnobal.C35_ice_within_tolerance"
   ],
   "note": ""
  },
  {
   "property": "C36",
   "status": "proved",
   "theorems": [
    "Pysnobal.C36_sign_and_range",
    "Pysnobal.C36_antitone",
    "Pysnobal.C36_codes"
   ],
   "note": ""
  },
  {
   "property": "C37",
   "status": "proved",
   "theorems": [
    "Pysnobal.C37_conduction",
    "Pysnobal.C37_effective_conductivity",
    "Pysnobal.C37_heat_flow_step"
   ],
   "note": ""
  },
  {
   "property": "C38",
   "status": "proved",
   "theorems": [
    "Pysnobal.C38_vapour_pressure_current",
    "Pysnobal.C38_layer_count_current",
    "Pysnobal.C38_direct_assignment_stale"
   ],
   "note": ""
  },
  {
   "property": "C39",
   "status": "proved",
   "theorems": [
    "Pysnobal.C39_sea_level",
    "Pysnobal.C39_domain",
    "Pysnobal.C39_decreasing",
    "Pysnobal.C39_run_pressure"
   ],
   "note": ""
  },
  {
   "property": "C40",
   "status": "proved",
   "theorems": [
    "Pysnobal.C40_surface_temperature",
    "Pysnobal.C40_lower_temperature"
   ],
   "note": ""
  },
  {
   "property": "C41",
   "status": "proved",
   "theorems": [
    "Pysnobal.C41_relative_heights_ignored",
    "Pysnobal.C41_heights_above_ground"
   ],
   "note": ""
  },
  {
   "property": "C42",
   "status": "proved",
   "theorems": [
    "Pysnobal.C42_levels_tile",
    "Pysnobal.C42_bad_levels_rejected"
   ],
   "note": ""
  },
  {
   "property": "C43",
   "status": "proved",
   "theorems": [
    "Pysnobal.C43_window",
    "Pysnobal.C43_read_fails_iff",
    "Pysnobal.C43_rain_rule_idempotent"
   ],
   "note": ""
  },
  {
   "property": "C44",
   "status": "proved",
   "theorems": [
    "Pysnobal.C44_failure_writes_nothing",
    "Pysnobal.C44_failing_step",
    "Pysnobal.C44_output_table",
    "Pysnobal.C44_table_in_emission_order",
    "Pysnobal.C44_stamps_are_input_times"
   ],
   "note": ""
  },
  {
   "property": "C45",
   "status": "proved",
   "theorems": [
    "Pysnobal.C45_dry_bare_ground",
    "Pysnobal.C45_fixed_point"
   ],
   "note": ""
  },
  {
   "property": "C46",
   "status": "proved",
   "theorems": [
    "Pysnobal.C46_split_creates_cold",
    "Pysnobal.C46_merge_drops_cold",
    "Pysnobal.C46_no_transition"
   ],
   "note": ""
  },
  {
   "property": "C47",
   "status": "proved",
   "theorems": [
    "Pysnobal.C47_excess_irrelevant",
    "Pysnobal.C47_never_oversaturated",
    "Pysnobal.C47_vapour_pressure_capped",
    "Pysnobal.C47_run_step"
   ],
   "note": ""
  },
  {
   "property": "C48",
   "status": "proved",
   "theorems": [
    "Pysnobal.C48_spatial_split",
    "Pysnobal.C48_snow_free_cells_disagree"
   ],
   "note": ""
  },
  {
   "property": "C49",
   "status": "proved",
   "theorems": [
    "Pysnobal.C49_arrays_agree",
    "Pysnobal.C49_whole_array"
   ],
   "note": ""
  },
  {
   "property": "C50",
   "status": "proved",
   "theorems": [
    "Pysnobal.C50_net_radiation_decreasing",
    "Pysnobal.C50_net_radiation_forcing",
    "Pysnobal.C50_advection",
    "Pysnobal.C50_rain_warms"
   ],
   "note": ""
  },
  {
   "property": "C51",
   "status": "proved",
   "theorems": [
    "Pysnobal.C51_mass_balance_completes",
    "Pysnobal.C51_zero_capacity_needs_water"
   ],
   "note": ""
  },
  {
   "property": "C52",
   "status": "proved",
   "theorems": [
    "Pysnobal.C52_turbulence_stratified",
    "Pysnobal.C52_energy_balance_completes",
    "Pysnobal.C52_step_completes",
    "Pysnobal.C52_turbulence_stable"
   ],
   "note": ""
  },
  {
   "property": "C53",
   "status": "proved",
   "theorems": [
    "Pysnobal.C53_capacity_step",
    "Pysnobal.C53_capacity_records"
   ],
   "note": ""
  },
  {
   "property": "C54",
   "status": "proved",
   "theorems": [
    "Pysnobal.C54_liquid_water_step"
   ],
   "note": ""
  },
  {
   "property": "C55",
   "status": "proved",
   "theorems": [
    "Pysnobal.C55_depth_step"
   ],
   "note": ""
  },
  {
   "property": "C56",
   "status": "proved",
   "theorems": [
    "Pysnobal.C56_vapour_budget_step"
   ],
   "note": ""
  },
  {
   "property": "C57",
   "status": "proved",
   "theorems": [
    "Pysnobal.C57_history",
    "Pysnobal.C57_one_history"
   ],
   "note": ""
  },
  {
   "property": "C58",
   "status": "proved",
   "theorems": [
    "Pysnobal.C58_profile_equations"
   ],
   "note": ""
  },
  {
   "property": "C59",
   "status": "proved",
   "theorems": [
    "Pysnobal.C59_humidity",
    "Pysnobal.C59_humidity_increasing",
    "Pysnobal.C59_moist_air_density",
    "Pysnobal.C59_latent_heats"
   ],
   "note": ""
  },
  {
   "property": "C60",
   "status": "proved",
   "theorems": [
    "Pysnobal.C60_temperature_step"
   ],
   "note": ""
  },
  {
   "property": "C61",
   "status": "proved",
   "theorems": [
    "Pysnobal.C61_exchange_step"
   ],
   "note": ""
  },
  {
   "property": "C62",
   "status": "proved",
   "theorems": [
    "Pysnobal.C62_cover_lasts_step"
   ],
   "note": ""
  },
  {
   "property": "C63",
   "status": "proved",
   "theorems": [
    "Pysnobal.C63_time_shift",
    "Pysnobal.C63_row_order"
   ],
   "note": ""
  },
  {
   "property": "C64",
   "status": "proved",
   "theorems": [
    "Pysnobal.C64_last_precipitation_unused",
    "Pysnobal.C64_undivided_step_uses_first_record"
   ],
   "note": ""
  },
  {
   "property": "C65",
   "status": "proved",
   "theorems": [
    "Pysnobal.C65_formatted_table",
    "Pysnobal.C65_printing_keeps_order"
   ],
   "note": ""
  },
  {
   "property": "C66",
   "status": "proved",
   "theorems": [
    "Pysnobal.C66_grid_agrees",
    "Pysnobal.C66_grid_differs",
    "Pysnobal.C66_grid_agrees_step"
   ],
   "note": ""
  },
  {
   "property": "C67",
   "status": "proved",
   "theorems": [
    "Pysnobal.C67_moderately_unstable",
    "Pysnobal.C67_turbulence_unstable",
    "Pysnobal.C67_exchange_step"
   ],
   "note": ""
  },
  {
   "property": "C68",
   "status": "proved",
   "theorems": [
    "Pysnobal.C68_failure_located",
    "Pysnobal.C68_failure_explained"
   ],
   "note": ""
  },
  {
   "property": "C69",
   "status": "proved",
   "theorems": [
    "Pysnobal.C69_removed",
    "Pysnobal.C69_not_made_up",
    "Pysnobal.C69_unsaturated",
    "Pysnobal.C69_constant_completes",
    "Pysnobal.C69_falling_fails"
   ],
   "note": ""
  },
  {
   "property": "C70",
   "status": "proved",
   "theorems": [
    "Pysnobal.C70_exceptions",
    "Pysnobal.C70_each_occurs"
   ],
   "note": ""
  },
  {
   "property": "C71",
   "status": "proved",
   "theorems": [
    "Pysnobal.C71_runoff_of_last_step",
    "Pysnobal.C71_counted_twice",
    "Pysnobal.C71_unbounded"
   ],
   "note": ""
  },
  {
   "property": "C72",
   "status": "proved",
   "theorems": [
    "Pysnobal.C72_flux_laws_step",
    "Pysnobal.C72_heat_capacities",
    "Pysnobal.C72_snow_conductivity"
   ],
   "note": ""
  },
  {
   "property": "C73",
   "status": "proved",
   "theorems": [
    "Pysnobal.C73_only_what_falls_matters",
    "Pysnobal.C73_bare_ground_feels_no_weather"
   ],
   "note": ""
  },
  {
   "property": "C74",
   "status": "proved",
   "theorems": [
    "Pysnobal.C74_refreezing_step",
    "Pysnobal.C74_cold_snow_is_dry",
    "Pysnobal.C74_cold_layers_are_dry"
   ],
   "note": ""
  },
  {
   "property": "C75",
   "status": "proved",
   "theorems": [
    "Pysnobal.C75_more_radiation_step",
    "Pysnobal.C75_more_radiation_record"
   ],
   "note": ""
  },
  {
   "property": "C76",
   "status": "proved",
   "theorems": [
    "Pysnobal.C76_heat_budget",
    "Pysnobal.C76_enough_heat_ends_cover",
    "Pysnobal.C76_heat_budget_records"
   ],
   "note": ""
  },
  {
   "property": "C77",
   "status": "proved",
   "theorems": [
    "Pysnobal.C77_without_blanks",
    "Pysnobal.C77_rows_with_blanks",
    "Pysnobal.C77_when_rejected",
    "Pysnobal.C77_blank_mass_is_dry",
    "Pysnobal.C77_blank_temperature",
    "Pysnobal.C77_blank_phase",
    "Pysnobal.C77_blank_weather",
    "Pysnobal.C77_harmless_blanks",
    "Pysnobal.C77_values_read_are_present",
    "Pysnobal.C77_blank_density_spoils_water",
    "Pysnobal.C77_complete_forcing_run",
    "Pysnobal.C77_harmless_blanks_run"
   ],
   "note": ""
  },
  {
   "property": "C78",
   "status": "proved",
   "theorems": [
    "Pysnobal.C78_blank_row_completes",
    "Pysnobal.C78_missing_air_ends_snow",
    "Pysnobal.C78_missing_radiation",
    "Pysnobal.C78_missing_temperature_drains",
    "Pysnobal.C78_run_missing_air",
    "Pysnobal.C78_run_missing_radiation",
    "Pysnobal.C78_before_the_blank"
   ],
   "note": ""
  },
  {
   "property": "C79",
   "status": "proved",
   "theorems": [
    "Pysnobal.C79_snowfall_restores_numbers",
    "Pysnobal.C79_snowfall_completes",
    "Pysnobal.C79_missing_guess"
   ],
   "note": ""
  },
  {
   "property": "C80",
   "status": "proved",
   "theorems": [
    "Pysnobal.C80_weather_unread_on_bare_ground",
    "Pysnobal.C80_blanks_on_bare_ground",
    "Pysnobal.C80_rain_with_blanks"
   ],
   "note": ""
  },
  {
   "property": "C81",
   "status": "proved",
   "theorems": [
    "Pysnobal.C81_mass_balance_raises",
    "Pysnobal.C81_step_raises",
    "Pysnobal.C81_run_raises"
   ],
   "note": ""
  },
  {
   "property": "C82",
   "status": "proved",
   "theorems": [
    "Pysnobal.C82_critical_run",
    "Pysnobal.C82_turbulence_raises",
    "Pysnobal.C82_critical_wind",
    "Pysnobal.C82_exchange_raises",
    "Pysnobal.C82_run_raises"
   ],
   "note": ""
  },
  {
   "property": "C83",
   "status": "proved",
   "theorems": [
    "Pysnobal.C83_thaw_warms",
    "Pysnobal.C83_thaw_monotone",
    "Pysnobal.C83_thaw_raises"
   ],
   "note": ""
  },
  {
   "property": "C84",
   "status": "proved",
   "theorems": [
    "Pysnobal.C84_memory",
    "Pysnobal.C84_resumed_pack",
    "Pysnobal.C84_cold_content",
    "Pysnobal.C84_resumed_future",
    "Pysnobal.C84_resumed_run",
    "Pysnobal.C84_fresh_resumable"
   ],
   "note": ""
  },
  {
   "property": "C85",
   "status": "proved",
   "theorems": [
    "Pysnobal.C85_step",
    "Pysnobal.C85_run",
    "Pysnobal.C85_no_condensation"
   ],
   "note": ""
  },
  {
   "property": "C86",
   "status": "proved",
   "theorems": [
    "Pysnobal.C86_warmer_ground_step",
    "Pysnobal.C86_warmer_ground_record",
    "Pysnobal.C86_freezing_point_drop"
   ],
   "note": ""
  },
  {
   "property": "C87",
   "status": "proved",
   "theorems": [
    "Pysnobal.C87_grid_records",
    "Pysnobal.C87_rain_rule_redundant",
    "Pysnobal.C87_grid_cell"
   ],
   "note": ""
  },
  {
   "property": "C88",
   "status": "proved",
   "theorems": [
    "Pysnobal.C88_warmer_rain_step",
    "Pysnobal.C88_warmer_rain_record"
   ],
   "note": ""
  },
  {
   "property": "C89",
   "status": "proved",
   "theorems": [
    "Pysnobal.C89_holds_more_step",
    "Pysnobal.C89_capacity_unused_run",
    "Pysnobal.C89_capacity_unused_records"
   ],
   "note": ""
  },
  {
   "property": "C90",
   "status": "proved",
   "theorems": [
    "Pysnobal.C90_site_unread_on_bare_ground"
   ],
   "note": ""
  },
  {
   "property": "C91",
   "status": "proved",
   "theorems": [
    "Pysnobal.C91_finer_levels_unused",
    "Pysnobal.C91_undivided_run"
   ],
   "note": ""
  },
  {
   "property": "C92",
   "status": "proved",
   "theorems": [
    "Pysnobal.C92_active_depth_unused"
   ],
   "note": ""
  },
  {
   "property": "C93",
   "status": "proved",
   "theorems": [
    "Pysnobal.C93_small_threshold_unused"
   ],
   "note": ""
  },
  {
   "property": "C94",
   "status": "proved",
   "theorems": [
    "Pysnobal.C94_thresholds_only_choose",
    "Pysnobal.C94_same_thin_layers"
   ],
   "note": ""
  },
  {
   "property": "C95",
   "status": "proved",
   "theorems": [
    "Pysnobal.C95_subdivision_interpolates",
    "Pysnobal.C95_both_modes"
   ],
   "note": ""
  },
  {
   "property": "C96",
   "status": "proved",
   "theorems": [
    "Pysnobal.C96_calm_air_unread"
   ],
   "note": ""
  },
  {
   "property": "C97",
   "status": "proved",
   "theorems": [
    "Pysnobal.C97_only_absorbed_radiation_matters"
   ],
   "note": ""
  },
  {
   "property": "C98",
   "status": "proved",
   "theorems": [
    "Pysnobal.C98_light_start_lost"
   ],
   "note": ""
  },
  {
   "property": "C99",
   "status": "proved",
   "theorems": [
    "Pysnobal.C99_light_snowfall_runs_off"
   ],
   "note": ""
  },
  {
   "property": "C100",
   "status": "proved",
   "theorems": [
    "Pysnobal.C100_reversed_wind",
    "Pysnobal.C100_energy_balance",
    "Pysnobal.C100_negative_wind",
    "Pysnobal.C100_negative_wind_run"
   ],
   "note": ""
  },
  {
   "property": "C101",
   "status": "proved",
   "theorems": [
    "Pysnobal.C101_supersaturation_irrelevant"
   ],
   "note": ""
  },
  {
   "property": "C102",
   "status": "proved",
   "theorems": [
    "Pysnobal.C102_settling_separates_step",
    "Pysnobal.C102_equilibrium_step",
    "Pysnobal.C102_equilibrium_run"
   ],
   "note": ""
  }
 ]
}