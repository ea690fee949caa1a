{
 "claims": [
  {
   "property": "C01",
   "status": "proved",
   "theorems": [
    "Verif.C01_step_within_capacity",
    "Verif.C01_soc_within_capacity",
    "Verif.C01_step_is_clamped_balance"
   ],
   "note": ""
  },
  {
   "property": "C02",
   "status": "proved",
   "theorems": [
    "Verif.C02_max_charging_eq",
    "Verif.C02_max_charging_greatest",
    "Verif.C02_no_surplus_no_charge"
   ],
   "note": ""
  },
  {
   "property": "C03",
   "status": "partial",
   "theorems": [
    "Verif.C03_discharge_rating_partial",
    "Verif.C03_not_bounded_by_stored_energy",
    "Verif.C03_energy_removed_partial",
    "Verif.C03_bounded_by_stored_energy_partial"
   ],
   "note": "The rating bound holds. The stored-energy bound is false of the code (C03_not_bounded_by_stored_energy); the partial theorems bound the energy actually removed."
  },
  {
   "property": "C04",
   "status": "partial",
   "theorems": [
    "Verif.C04_reports_return_iff",
    "Verif.C04_not_total",
    "Verif.C04_reports_partial"
   ],
   "note": "False of the code: both raise TypeError exactly when match < 0. Proved for match >= 0."
  },
  {
   "property": "C05",
   "status": "partial",
   "theorems": [
    "Verif.C05_charging_report_partial",
    "Verif.C05_not_rise_in_soc",
    "Verif.C05_full_battery_reports_match"
   ],
   "note": "False of the code when the state of charge does not rise (C05_not_rise_in_soc); proved otherwise."
  },
  {
   "property": "C06",
   "status": "partial",
   "theorems": [
    "Verif.C06_charge_to_capacity_rating_partial",
    "Verif.C06_overfill_iff",
    "Verif.C06_not_within_capacity",
    "Verif.C06_charge_to_capacity_partial"
   ],
   "note": "Rating bound proved; overfill characterised exactly and shown to happen (C06_not_within_capacity)."
  },
  {
   "property": "C07",
   "status": "proved",
   "theorems": [
    "Verif.C07_idle_self_discharge",
    "Verif.C07_idle_never_gains",
    "Verif.C07_newSoc_monotone_in_match"
   ],
   "note": ""
  },
  {
   "property": "C08",
   "status": "proved",
   "theorems": [
    "Verif.C08_accepts_full_year",
    "Verif.C08_split_exact",
    "Verif.C08_rejects_other_lengths",
    "Verif.C08_versions_agree"
   ],
   "note": "Both copies modelled."
  },
  {
   "property": "C09",
   "status": "proved",
   "theorems": [
    "Verif.C09_months_partition",
    "Verif.C09_month_lengths",
    "Verif.C09_month_names",
    "Verif.C09_sum_monthly_is_sum_of_months",
    "Verif.C09_monthly_totals_add_up",
    "Verif.C09_monthly_means_add_up",
    "Verif.C09_sum_year",
    "Verif.C09_mean_year",
    "Verif.C09_longer_year_truncated"
   ],
   "note": "Series of at most 8760 hours; longer ones are cut at 8760 (C09_longer_year_truncated)."
  },
  {
   "property": "C10",
   "status": "proved",
   "theorems": [
    "Verif.C10_thermal_output_greatest",
    "Verif.C10_thermal_output_electricity",
    "Verif.C10_thermal_output_within_supply"
   ],
   "note": ""
  },
  {
   "property": "C11",
   "status": "proved",
   "theorems": [
    "Verif.C11_elec_usage_times_cop",
    "Verif.C11_elec_usage_mono",
    "Verif.C11_elec_usage_of_thermal_output"
   ],
   "note": ""
  },
  {
   "property": "C12",
   "status": "proved",
   "theorems": [
    "Verif.C12_methods_zero",
    "Verif.C12_step_reports_nothing",
    "Verif.C12_year_zero"
   ],
   "note": "For every order, repeats included."
  },
  {
   "property": "C13",
   "status": "proved",
   "theorems": [
    "Verif.C13_performance_array_accepts_iff",
    "Verif.C13_performance_array_rejects",
    "Verif.C13_performance_covers_year",
    "Verif.C13_simple_hours",
    "Verif.C13_generic_hours",
    "Verif.C13_lorentz_hours",
    "Verif.C13_standard_hours"
   ],
   "note": ""
  },
  {
   "property": "C14",
   "status": "proved",
   "theorems": [
    "Verif.C14_accepts_iff_valid",
    "Verif.C14_common_failures_raise_value_error",
    "Verif.C14_missing_model_inputs_raise_value_error",
    "Verif.C14_unknown_model_raises_key_error",
    "Verif.C14_bad_shapes_rejected",
    "Verif.C14_generic_needs_member"
   ],
   "note": ""
  },
  {
   "property": "C15",
   "status": "partial",
   "theorems": [
    "Verif.C15_cop_falls_with_flow_partial",
    "Verif.C15_cop_rises_beyond_limit",
    "Verif.C15_cop_pos",
    "Verif.C15_defrosting",
    "Verif.C15_cop_falls_with_ambient_partial",
    "Verif.C15_ground_better_partial",
    "Verif.C15_not_ground_better",
    "Verif.C15_ground_water_same",
    "Verif.C15_duty_rises"
   ],
   "note": "Proved up to the lift where the fitted parabola turns (about 96 and 102 K), with the reverse proved beyond it (C15_cop_rises_beyond_limit). Ground better than air proved up to 115 K, false at 140 K (C15_not_ground_better)."
  },
  {
   "property": "C16",
   "status": "proved",
   "theorems": [
    "Verif.C16_cop_at_specification",
    "Verif.C16_cop_falls_with_flow",
    "Verif.C16_cop_falls_with_return",
    "Verif.C16_cop_rises_with_source",
    "Verif.C16_cop_pos",
    "Verif.C16_duty"
   ],
   "note": ""
  },
  {
   "property": "C17",
   "status": "proved",
   "theorems": [
    "Verif.C17_cop_reproduced",
    "Verif.C17_duty_reproduced",
    "Verif.C17_inconsistent_shapes_rejected"
   ],
   "note": ""
  },
  {
   "property": "C18",
   "status": "partial",
   "theorems": [
    "Verif.C18_never_over_supplied",
    "Verif.C18_deficit_met_partial",
    "Verif.C18_rounding_leaves_unmet",
    "Verif.C18_repeats_lose_supply",
    "Verif.C18_run_demand_supplied"
   ],
   "note": "Balance never exceeded for every order without repeats. Nothing unmet for every such order unless the battery drives the heat pump after 'HP import to TS'; then a tiny amount can stay unmet (C18_rounding_leaves_unmet). Repeats fail (C18_repeats_lose_supply)."
  },
  {
   "property": "C19",
   "status": "partial",
   "theorems": [
    "Verif.C19_dispatch_at_most_surplus",
    "Verif.C19_surplus_spent_exactly_partial",
    "Verif.C19_at_most_surplus",
    "Verif.C19_repeats_lose_energy",
    "Verif.C19_unsafe_order_not_spent",
    "Verif.C19_run_within_generation"
   ],
   "note": "Never overspent, for every order without repeats (before the minimum output rule) and for safe orders after it. Exact spending for safe orders; C19_unsafe_order_not_spent shows the condition is needed."
  },
  {
   "property": "C20",
   "status": "partial",
   "theorems": [
    "Verif.C20_never_over_supplied",
    "Verif.C20_demand_met_partial",
    "Verif.C20_below_report_omits_electric_heater",
    "Verif.C20_unsafe_order_not_met",
    "Verif.C20_repeats_lose_heat",
    "Verif.C20_run_heat_delivered_partial"
   ],
   "note": "Never over-supplied for every order without repeats; met exactly for safe orders, before the minimum output rule (C26 covers the rule). C20_unsafe_order_not_met shows the condition is needed. The report below the setpoint omits the renewable electric heater (C20_below_report_omits_electric_heater)."
  },
  {
   "property": "C21",
   "status": "partial",
   "theorems": [
    "Verif.C21_dispatch_nonneg",
    "Verif.C21_flows_nonneg",
    "Verif.C21_unsafe_order_negative_heater",
    "Verif.C21_unsafe_order_negative_pump",
    "Verif.C21_unsafe_order_negative_charging",
    "Verif.C21_run_flows_nonneg"
   ],
   "note": "Proved for safe orders; three counterexamples show the order condition is needed."
  },
  {
   "property": "C22",
   "status": "partial",
   "theorems": [
    "Verif.C22_above_le_duty_partial",
    "Verif.C22_below_le_duty_partial",
    "Verif.C22_direct_output_le_duty",
    "Verif.C22_es_then_import_exceeds_duty",
    "Verif.C22_default_order_exceeds_duty",
    "Verif.C22_rounding_exceeds_duty"
   ],
   "note": "False of the code in general (C22_es_then_import_exceeds_duty, C22_default_order_exceeds_duty, C22_rounding_exceeds_duty); proved when no heat pump process follows ES to HP, up to rounding below the setpoint."
  },
  {
   "property": "C23",
   "status": "partial",
   "theorems": [
    "Verif.C23_final_soc_within_capacity",
    "Verif.C23_totals_are_sums",
    "Verif.C23_soc_follows_net_charging",
    "Verif.C23_soc_follows_net_discharging_partial",
    "Verif.C23_reported_discharge_exceeds_rating",
    "Verif.C23_losses_create_energy",
    "Verif.C23_run_soc_within_capacity"
   ],
   "note": "False for net discharge with losses or above the rating (counterexamples); proved for net charging above the setpoint and for lossless net discharge within the rating."
  },
  {
   "property": "C24",
   "status": "partial",
   "theorems": [
    "Verif.C24_cashflow",
    "Verif.C24_total_import_is_sum",
    "Verif.C24_total_import_final_fuelled",
    "Verif.C24_import_parts_match_devices",
    "Verif.C24_reported_export_price_wrong",
    "Verif.C24_run_costs"
   ],
   "note": "Sums proved before the minimum output rule and, for a fuelled boiler, after it; the reported export price above the setpoint is wrong (C24_reported_export_price_wrong)."
  },
  {
   "property": "C25",
   "status": "partial",
   "theorems": [
    "Verif.C25_min_output_partial",
    "Verif.C25_min_output_below",
    "Verif.C25_small_output_above_kept"
   ],
   "note": "Proved below the setpoint; above it outputs up to 0.1 kWh are kept (C25_small_output_above_kept)."
  },
  {
   "property": "C26",
   "status": "partial",
   "theorems": [
    "Verif.C26_rule_idle",
    "Verif.C26_heat_pump_totals",
    "Verif.C26_heat_delivered_unless_off",
    "Verif.C26_off_above_boiler_covers",
    "Verif.C26_off_below_drops_heat",
    "Verif.C26_off_above_report_not_updated",
    "Verif.C26_off_still_bills_import",
    "Verif.C26_raise_import_not_billed",
    "Verif.C26_run_heat_delivered_while_on"
   ],
   "note": "Device totals and heat balance unless switched off are proved; dropped heat, stale reports and unbilled import are counterexamples."
  },
  {
   "property": "C27",
   "status": "proved",
   "theorems": [
    "Verif.C27_one_result_per_hour",
    "Verif.C27_chained",
    "Verif.C27_state_always_reported",
    "Verif.C27_reports_its_hour",
    "Verif.C27_rejects_past_year_end",
    "Verif.C27_accepts_span_inside_year",
    "Verif.C27_accepts_unused_store",
    "Verif.C27_accepts_while",
    "Verif.C27_accepts_no_store"
   ],
   "note": ""
  },
  {
   "property": "C28",
   "status": "proved",
   "theorems": [
    "Verif.C28_workbook",
    "Verif.C28_prefix",
    "Verif.C28_only_hours_run_matter"
   ],
   "note": "Independent of hours before and after the span, apart from the yearly peak heat demand (in SamePlant). C28_workbook says it of two workbooks that differ in the number of hours."
  },
  {
   "property": "C29",
   "status": "proved",
   "theorems": [
    "Verif.C29_same_side",
    "Verif.C29_workbook",
    "Verif.C29_setpoint_selects_order",
    "Verif.C29_only_known_processes",
    "Verif.C29_unknown_process_rejected",
    "Verif.C29_known_processes_accepted"
   ],
   "note": "KeyError is certain if the tank itself never raises; otherwise the tank's exception may come first. C29_same_side and C29_workbook: setpoints on the same side of every price give the same results."
  },
  {
   "property": "C30",
   "status": "partial",
   "theorems": [
    "Verif.C30_profiles_sorted",
    "Verif.C30_returns_profiles",
    "Verif.C30_full_tank_flat",
    "Verif.C30_single_node_fails",
    "Verif.C30_standby_returns",
    "Verif.C30_run_profiles"
   ],
   "note": "Holds for every call and every hour of a fixed order run that returns profiles. A tank on standby without openings always returns (C30_standby_returns); a tank whose mean is exactly the source temperature returns a flat list when charged (C30_full_tank_flat), and one node never works."
  },
  {
   "property": "C31",
   "status": "partial",
   "theorems": [
    "Verif.C31_discharging_step",
    "Verif.C31_discharging_call",
    "Verif.C31_charging_step_partial",
    "Verif.C31_tie_overheats",
    "Verif.C31_source_colder_cools",
    "Verif.C31_charging_call_overheats"
   ],
   "note": "Discharging is proved in full. Charging is proved without ties and with the bottom colder than the source; both exceptions are shown to break the claim."
  },
  {
   "property": "C32",
   "status": "proved",
   "theorems": [
    "Verif.C32_no_energy",
    "Verif.C32_unchanged",
    "Verif.C32_run_unchanged",
    "Verif.C32_run_stays"
   ],
   "note": "For one call and for whole fixed order runs."
  },
  {
   "property": "C33",
   "status": "partial",
   "theorems": [
    "Verif.C33_nonneg",
    "Verif.C33_negative_offer",
    "Verif.C33_full_takes_nothing",
    "Verif.C33_cold_gives_nothing",
    "Verif.C33_standby_nothing",
    "Verif.C33_cool_top_gives_nothing_partial",
    "Verif.C33_cool_top_wall_partial",
    "Verif.C33_opening_offers_heat",
    "Verif.C33_offer_raises",
    "Verif.C33_real_tank_offers"
   ],
   "note": "Non-negativity and the two mean-temperature cases are proved in full. The cool-top case is proved without losses, and with a wall but no openings; openings break it (C33_opening_offers_heat). The function can also raise for an ordinary stratified tank of four layers (C33_offer_raises)."
  },
  {
   "property": "C34",
   "status": "partial",
   "theorems": [
    "Verif.C34_idle_cools_partial",
    "Verif.C34_cooling_law",
    "Verif.C34_unknown_insulation",
    "Verif.C34_openings_heat"
   ],
   "note": "Proved without openings. Openings heat the tank because their losses are added (C34_openings_heat)."
  },
  {
   "property": "C35",
   "status": "proved",
   "theorems": [
    "Verif.C35_in_range",
    "Verif.C35_out_of_range",
    "Verif.C35_nearest_entry"
   ],
   "note": ""
  },
  {
   "property": "C36",
   "status": "proved",
   "theorems": [
    "Verif.C36_length",
    "Verif.C36_every_tariff",
    "Verif.C36_unknown_tariff",
    "Verif.C36_fractional_percent_fails"
   ],
   "note": "Price list of 8760 hours for every tariff, on every well formed sheet; percentages that are not whole hundredths fail (C36_fractional_percent_fails)."
  },
  {
   "property": "C37",
   "status": "proved",
   "theorems": [
    "Verif.C37_wholesale_price",
    "Verif.C37_capped",
    "Verif.C37_monotone"
   ],
   "note": ""
  },
  {
   "property": "C38",
   "status": "proved",
   "theorems": [
    "Verif.C38_agreement_price",
    "Verif.C38_windier_not_dearer",
    "Verif.C38_windier_hour",
    "Verif.C38_bands_ordered"
   ],
   "note": ""
  },
  {
   "property": "C39",
   "status": "partial",
   "theorems": [
    "Verif.C39_calendar_partial",
    "Verif.C39_leap_year_last_day",
    "Verif.C39_leap_year_mispriced"
   ],
   "note": "Proved for years of 365 days; in leap years the 365th day is priced with the wrong weekday (C39_leap_year_mispriced)."
  },
  {
   "property": "C40",
   "status": "proved",
   "theorems": [
    "Verif.C40_each_pair_once",
    "Verif.C40_folders_distinct",
    "Verif.C40_folders_made"
   ],
   "note": ""
  },
  {
   "property": "C41",
   "status": "partial",
   "theorems": [
    "Verif.C41_hp_partial",
    "Verif.C41_ts_partial",
    "Verif.C41_single_size",
    "Verif.C41_sizes_on_grid",
    "Verif.C41_hp_overshoots",
    "Verif.C41_ts_overshoots",
    "Verif.C41_ts_maximum_dropped",
    "Verif.C41_zero_step"
   ],
   "note": "Proved when the step divides the interval; otherwise the largest size lies above the maximum (C41_hp_overshoots, C41_ts_overshoots), and the store range ends at the heat pump step (C41_ts_maximum_dropped)."
  },
  {
   "property": "C42",
   "status": "partial",
   "theorems": [
    "Verif.C42_pickles",
    "Verif.C42_independent",
    "Verif.C42_no_base",
    "Verif.C42_factor_partial",
    "Verif.C42_factor_close",
    "Verif.C42_small_pump_no_duty",
    "Verif.C42_zero_base_no_duty"
   ],
   "note": "Isolation proved in full. The duty scales with a ratio rounded to two decimals (C42_factor_close, C42_small_pump_no_duty)."
  },
  {
   "property": "C43",
   "status": "proved",
   "theorems": [
    "Verif.C43_sizes_from_name",
    "Verif.C43_negative_misread",
    "Verif.C43_same_combinations",
    "Verif.C43_reads_the_runs",
    "Verif.C43_missing_output"
   ],
   "note": "Sizes 0 and above; negative sizes are misread (C43_negative_misread)."
  },
  {
   "property": "C44",
   "status": "partial",
   "theorems": [
    "Verif.C44_formula",
    "Verif.C44_missing_hours",
    "Verif.C44_percentage_partial",
    "Verif.C44_energy_kept",
    "Verif.C44_unsafe_order_negative"
   ],
   "note": "Formula for all results; range for runs whose orders are safe. Otherwise more can be sold than generated (C44_unsafe_order_negative). Includes the IndexError when fewer results than timesteps exist."
  },
  {
   "property": "C45",
   "status": "proved",
   "theorems": [
    "Verif.C45_rates",
    "Verif.C45_monotone",
    "Verif.C45_no_jump",
    "Verif.C45_income",
    "Verif.C45_unknown_words"
   ],
   "note": "Unknown subsidy words leave the income undefined (C45_unknown_words)."
  },
  {
   "property": "C46",
   "status": "partial",
   "theorems": [
    "Verif.C46_operating_cost",
    "Verif.C46_lifetime_cost_partial",
    "Verif.C46_fuel_charged_thousandfold",
    "Verif.C46_no_demand",
    "Verif.C46_levelised_cost_partial"
   ],
   "note": "False of the code: lifetime and levelised cost charge fuel a thousandfold (C46_fuel_charged_thousandfold). Equality proved for electric auxiliaries. Without a demand there is no levelised cost (C46_no_demand)."
  },
  {
   "property": "C47",
   "status": "partial",
   "theorems": [
    "Verif.C47_count_partial",
    "Verif.C47_single_hour",
    "Verif.C47_in_order_partial",
    "Verif.C47_year_end",
    "Verif.C47_last_hour_wrong",
    "Verif.C47_first_result_empty",
    "Verif.C47_last_two_hours_fail",
    "Verif.C47_short_horizon_fails",
    "Verif.C47_beyond_year",
    "Verif.C47_succeeds_partial",
    "Verif.C47_fuel_and_tank_fail"
   ],
   "note": "One result an hour in order for runs of two or more hours that end before the last hour of the year, for every optimiser behaviour. False otherwise: a one-hour run has no results, the last result of a run to the year's end repeats the first hour, the first result lacks electricity data; some runs always fail."
  },
  {
   "property": "C48",
   "status": "partial",
   "theorems": [
    "Verif.C48_in_range_partial",
    "Verif.C48_band_fails",
    "Verif.C48_example_fails"
   ],
   "note": "Proved outside the band 8759 - 2*horizon <= first + timesteps < 8759 - horizon, and proved to fail in it."
  },
  {
   "property": "C49",
   "status": "partial",
   "theorems": [
    "Verif.C49_electricity",
    "Verif.C49_renewables",
    "Verif.C49_all_electricity_partial",
    "Verif.C49_no_negative_import_partial",
    "Verif.C49_within_duty",
    "Verif.C49_battery",
    "Verif.C49_heat_partial",
    "Verif.C49_bill",
    "Verif.C49_electric_heater_free",
    "Verif.C49_fuel_bill",
    "Verif.C49_battery_heat_billed",
    "Verif.C49_heat_too_much",
    "Verif.C49_heat_too_little",
    "Verif.C49_negative_import",
    "Verif.C49_below_minimum_output",
    "Verif.C49_tank_both_ways"
   ],
   "note": "Electricity and renewables balance exactly for every feasible answer. Heat balances without a tank; with one it does not (two witnesses). The import bill is exact unless the battery feeds the heater. The differential equations of the two stores are GEKKO's and not modelled."
  },
  {
   "property": "C50",
   "status": "partial",
   "theorems": [
    "Verif.C50_in_order",
    "Verif.C50_begun_prefix",
    "Verif.C50_all_done",
    "Verif.C50_work_is_finite",
    "Verif.C50_no_deadlock",
    "Verif.C50_timeout_gives_up",
    "Verif.C50_timeout_value_error",
    "Verif.C50_block_inverted"
   ],
   "note": "Order and once-only proved for every history. Completion proved for every stop that returns normally after one start, with no job calling sys.exit(0); finiteness and absence of deadlock proved. stop gives up after 30 s with ValueError although nothing failed (C50_timeout_gives_up)."
  },
  {
   "property": "C51",
   "status": "partial",
   "theorems": [
    "Verif.C51_failure_reported",
    "Verif.C51_silent_exit"
   ],
   "note": "Proved for one start and jobs that do not exit with code 0; a job calling sys.exit(0) goes unnoticed (C51_silent_exit)."
  },
  {
   "property": "C52",
   "status": "partial",
   "theorems": [
    "Verif.C52_cancel_runs_pending",
    "Verif.C52_cancel_drops_nothing",
    "Verif.C52_restart_runs_old_job",
    "Verif.C52_restart_loses_job",
    "Verif.C52_clean_restart_partial"
   ],
   "note": "False of the code: cancel runs every pending job (C52_cancel_runs_pending) and leftovers survive a restart (C52_restart_runs_old_job, C52_restart_loses_job). A restart after a session that returned normally is clean."
  },
  {
   "property": "C53",
   "status": "partial",
   "theorems": [
    "Verif.C53_places",
    "Verif.C53_refuses",
    "Verif.C53_no_flag_nothing_lost",
    "Verif.C53_only_that_directory_partial",
    "Verif.C53_starts_empty",
    "Verif.C53_run_stays_inside",
    "Verif.C53_whole_run_partial",
    "Verif.C53_dot_workbook",
    "Verif.C53_dots_workbook"
   ],
   "note": "Proved for every file system, argument and crash point when the workbook has an ordinary base name. With overwrite, workbooks called ..xlsx or ...xlsx make it delete the whole output directory or its parent (C53_dot_workbook, C53_dots_workbook)."
  },
  {
   "property": "C54",
   "status": "partial",
   "theorems": [
    "Verif.C54_same_results_partial",
    "Verif.C54_no_false_success",
    "Verif.C54_every_schedule_partial",
    "Verif.C54_two_cores_end",
    "Verif.C54_timeout_fails",
    "Verif.C54_plot_error_differs",
    "Verif.C54_solve_error_masked"
   ],
   "note": "Same answer and same output directory whenever stop and cancel return normally, hence for every schedule without timeout, kill or failing plot, and there always is such a schedule (C54_two_cores_end); never a false success. A backlog of plots over 30 s makes the two-core run fail (C54_timeout_fails); errors differ for failing plots (C54_plot_error_differs) and may be masked (C54_solve_error_masked)."
  },
  {
   "property": "C55",
   "status": "proved",
   "theorems": [
    "Verif.C55_round_trip",
    "Verif.C55_texts",
    "Verif.C55_unknown_raises",
    "Verif.C55_in_iff",
    "Verif.C55_sheet_text",
    "Verif.C55_sheet_unknown"
   ],
   "note": ""
  },
  {
   "property": "C56",
   "status": "proved",
   "theorems": [
    "Verif.C56_accepts_iff",
    "Verif.C56_unknown_fuel_raises",
    "Verif.C56_missing_data_raises",
    "Verif.C56_electric_needs_no_data",
    "Verif.C56_data_of_fuel",
    "Verif.C56_fuel_usage"
   ],
   "note": ""
  },
  {
   "property": "C57",
   "status": "proved",
   "theorems": [
    "Verif.C57_order_round_trip",
    "Verif.C57_order_count",
    "Verif.C57_order_failure",
    "Verif.C57_order_exact"
   ],
   "note": ""
  },
  {
   "property": "C58",
   "status": "partial",
   "theorems": [
    "Verif.C58_seasons",
    "Verif.C58_lengths",
    "Verif.C58_autumn_dates",
    "Verif.C58_week",
    "Verif.C58_year_series"
   ],
   "note": "Every hour has one season, from the first days given as a table, and one kind of day; the year's series is total and takes the value of season, day and hour. The documented dates of autumn are not those of the code (C58_autumn_dates)."
  },
  {
   "property": "C59",
   "status": "partial",
   "theorems": [
    "Verif.C59_no_panels",
    "Verif.C59_never_negative",
    "Verif.C59_value",
    "Verif.C59_wrong_month",
    "Verif.C59_month_close_partial"
   ],
   "note": "No output without panels, never negative, and its value; the factor of an hour is by twelfths of the year, not by month: C59_wrong_month; off by at most one month (C59_month_close_partial). pvlib's output is a parameter."
  },
  {
   "property": "C60",
   "status": "partial",
   "theorems": [
    "Verif.C60_electricity_length",
    "Verif.C60_heat_length",
    "Verif.C60_short_electricity",
    "Verif.C60_electricity_mean",
    "Verif.C60_heat_mean"
   ],
   "note": "True for heat and for electricity from 12 values on, with the alignment of the mean; false for shorter electricity profiles (C60_short_electricity)."
  },
  {
   "property": "C61",
   "status": "proved",
   "theorems": [
    "Verif.C61_reports_agree"
   ],
   "note": ""
  },
  {
   "property": "C62",
   "status": "partial",
   "theorems": [
    "Verif.C62_store_within_offer_partial",
    "Verif.C62_rounding_overcharges",
    "Verif.C62_unsafe_order_overdraws"
   ],
   "note": "Exact above the setpoint; below it up to the rounding of 'HP import to TS' and for orders without overshoot. False otherwise (C62_rounding_overcharges, C62_unsafe_order_overdraws)."
  },
  {
   "property": "C63",
   "status": "partial",
   "theorems": [
    "Verif.C63_heat_is_cop_times_electricity",
    "Verif.C63_below_partial",
    "Verif.C63_rounding_free_heat",
    "Verif.C63_total_usage_omits_battery"
   ],
   "note": "Above the setpoint exact, also after the rule; below it up to the rounding of HP import to TS (C63_rounding_free_heat)."
  },
  {
   "property": "C64",
   "status": "proved",
   "theorems": [
    "Verif.C64_heat_check_sound",
    "Verif.C64_versions",
    "Verif.C64_leftover_check_sound",
    "Verif.C64_small_shortfall_accepted"
   ],
   "note": ""
  },
  {
   "property": "C65",
   "status": "partial",
   "theorems": [
    "Verif.C65_generic_never_runs",
    "Verif.C65_lorentz_never_runs",
    "Verif.C65_simple_runs_partial",
    "Verif.C65_standard_runs_partial"
   ],
   "note": "False of the code: the generic model always raises KeyError in init, the Lorentz model always raises AttributeError. Proved for the simple and standard models."
  },
  {
   "property": "C66",
   "status": "partial",
   "theorems": [
    "Verif.C66_discharging",
    "Verif.C66_charging_partial",
    "Verif.C66_tie_creates_heat"
   ],
   "note": "Discharging in full, charging without ties; a tie creates heat (C66_tie_creates_heat)."
  },
  {
   "property": "C67",
   "status": "partial",
   "theorems": [
    "Verif.C67_volume_is_capacity",
    "Verif.C67_wall_nonneg",
    "Verif.C67_losses_use_diameter",
    "Verif.C67_openings_nonneg",
    "Verif.C67_each_connection"
   ],
   "note": "Volume and sign proved; the losses use the diameter as radius (C67_losses_use_diameter)."
  },
  {
   "property": "C68",
   "status": "partial",
   "theorems": [
    "Verif.C68_auxiliary_booked",
    "Verif.C68_fuel_bill_ignores_efficiency",
    "Verif.C68_off_bill_not_updated"
   ],
   "note": "The bill is per kWh of heat, ignoring the efficiency (C68_fuel_bill_ignores_efficiency), and is stale after switch-off (C68_off_bill_not_updated). Otherwise proved."
  },
  {
   "property": "C69",
   "status": "partial",
   "theorems": [
    "Verif.C69_pump_share",
    "Verif.C69_heat_share_partial",
    "Verif.C69_demand_share_partial",
    "Verif.C69_demand_share_exceeds_100",
    "Verif.C69_boiler_counts_as_renewable",
    "Verif.C69_heat_share_exceeds_100"
   ],
   "note": "Proved for the heat pump's share; the heat share without minimum output; the demand share if no hour takes in more than it uses. False otherwise (C69_demand_share_exceeds_100, C69_heat_share_exceeds_100)."
  },
  {
   "property": "C70",
   "status": "partial",
   "theorems": [
    "Verif.C70_windy_hours_partial",
    "Verif.C70_other_tariffs",
    "Verif.C70_wrong_hours"
   ],
   "note": "Proved for runs from hour 0; false otherwise (C70_wrong_hours)."
  },
  {
   "property": "C71",
   "status": "proved",
   "theorems": [
    "Verif.C71_nonneg",
    "Verif.C71_larger_costs_more",
    "Verif.C71_bulk_discount",
    "Verif.C71_of_combination"
   ],
   "note": ""
  },
  {
   "property": "C72",
   "status": "partial",
   "theorems": [
    "Verif.C72_lifetime_cost",
    "Verif.C72_days_of_storage",
    "Verif.C72_levelised_cost_depends_on_span"
   ],
   "note": "Lifetime cost and days of storage; false for the levelised cost with a subsidy (C72_levelised_cost_depends_on_span)."
  },
  {
   "property": "C73",
   "status": "partial",
   "theorems": [
    "Verif.C73_tank_follows_books_partial",
    "Verif.C73_all_met",
    "Verif.C73_small_draw_ignored",
    "Verif.C73_raise_forgets_heater",
    "Verif.C73_off_draws_unbooked_heat",
    "Verif.C73_off_below"
   ],
   "note": "Proved without a minimum output, and when switched off below the setpoint. False otherwise: raising forgets the electric heater, switching off above draws unbooked heat, draws up to 0.05 kWh below are ignored (C73_raise_forgets_heater, C73_off_draws_unbooked_heat, C73_small_draw_ignored)."
  },
  {
   "property": "C74",
   "status": "partial",
   "theorems": [
    "Verif.C74_no_flag_safe",
    "Verif.C74_outside_safe_partial",
    "Verif.C74_workbook_deleted"
   ],
   "note": "Safe without overwrite, and with it when the workbook is outside the replaced directory. With overwrite a workbook kept in its own results directory is deleted before being read (C74_workbook_deleted)."
  },
  {
   "property": "C75",
   "status": "partial",
   "theorems": [
    "Verif.C75_single",
    "Verif.C75_two_cores_partial",
    "Verif.C75_always_refused",
    "Verif.C75_slow_worker_masks",
    "Verif.C75_known_controller"
   ],
   "note": "An error and nothing written, in every history. The error is ValueError on one core and, without kill or timeout, on two; a slow worker turns it into SystemError (C75_slow_worker_masks)."
  },
  {
   "property": "C76",
   "status": "partial",
   "theorems": [
    "Verif.C76_other_temperatures_ignored",
    "Verif.C76_network_ignored"
   ],
   "note": "False: the code indexes the temperatures with the position in the horizon, so hour 1 of the year always counts; proved that the temperatures of all other hours are ignored."
  },
  {
   "property": "C77",
   "status": "partial",
   "theorems": [
    "Verif.C77_electricity_range",
    "Verif.C77_heat_peak_exceeded"
   ],
   "note": "Proved for electricity. False for heat: C77_heat_peak_exceeded."
  },
  {
   "property": "C78",
   "status": "proved",
   "theorems": [
    "Verif.C78_sheet_exists",
    "Verif.C78_heat_demand",
    "Verif.C78_bedrooms"
   ],
   "note": "The standard profiles are a parameter; other numbers of bedrooms raise KeyError (C78_bedrooms)."
  },
  {
   "property": "C79",
   "status": "proved",
   "theorems": [
    "Verif.C79_additive",
    "Verif.C79_never_negative",
    "Verif.C79_electricity"
   ],
   "note": ""
  },
  {
   "property": "C80",
   "status": "partial",
   "theorems": [
    "Verif.C80_wind",
    "Verif.C80_wind_value",
    "Verif.C80_farm_value",
    "Verif.C80_helpers_fail"
   ],
   "note": "Proved for the farm; the helper functions always fail (C80_helpers_fail). windpowerlib's output is a parameter."
  },
  {
   "property": "C81",
   "status": "partial",
   "theorems": [
    "Verif.C81_size_ratio",
    "Verif.C81_utilisation",
    "Verif.C81_seasonal_efficiency",
    "Verif.C81_at_least_worst_hour",
    "Verif.C81_battery_not_counted"
   ],
   "note": "At least the lowest COP in every run. Not at most the highest: electricity from the battery is not counted (C81_battery_not_counted)."
  },
  {
   "property": "C82",
   "status": "partial",
   "theorems": [
    "Verif.C82_renewable_heat_electricity",
    "Verif.C82_never_negative",
    "Verif.C82_pump_heat"
   ],
   "note": "Never negative for tariffs without wind farm; with one the formula is proved and the import for heat is that of the wrong hours when the run does not start at hour 0 (see C70)."
  },
  {
   "property": "C83",
   "status": "partial",
   "theorems": [
    "Verif.C83_cost_of_heat",
    "Verif.C83_bill_nonneg",
    "Verif.C83_bill_split",
    "Verif.C83_bills_of_run",
    "Verif.C83_cost_of_electricity",
    "Verif.C83_battery_charged_to_heat"
   ],
   "note": "The split of the bill is proved for runs with any prices (C83_bills_of_run) and for any results at one price (C83_bill_split). Partial because the first part fails with a battery: import that charges it is charged to heat (C83_battery_charged_to_heat)."
  },
  {
   "property": "C84",
   "status": "partial",
   "theorems": [
    "Verif.C84_tank_moved_partial",
    "Verif.C84_no_tank_unchanged",
    "Verif.C84_failure_forgets_heat"
   ],
   "note": "Proved for an electric heater (with a boiler and a tank every run fails, C47_fuel_and_tank_fail), except that after a failed first attempt the hour starts from the tank of the start of the run (C84_failure_forgets_heat); plans that differ by at most 0.005 kWh move the tank at rest."
  },
  {
   "property": "C85",
   "status": "partial",
   "theorems": [
    "Verif.C85_year_figures",
    "Verif.C85_periods",
    "Verif.C85_all_curves",
    "Verif.C85_part_year_from_start",
    "Verif.C85_part_year_shifted",
    "Verif.C85_operation_shifted",
    "Verif.C85_figures_drawn",
    "Verif.C85_no_hours",
    "Verif.C85_part_year_false",
    "Verif.C85_operation_false"
   ],
   "note": "Full years: every figure but 'operation'. Part-years: only from the start of the year; otherwise hour h shows hour first + h (C85_part_year_shifted). 'operation' of the two weeks is shifted too."
  },
  {
   "property": "C86",
   "status": "partial",
   "theorems": [
    "Verif.C86_month_energy_partial",
    "Verif.C86_total",
    "Verif.C86_bars_add_up",
    "Verif.C86_drawn_once",
    "Verif.C86_axis_unit_wrong",
    "Verif.C86_part_year_in_january"
   ],
   "note": "For runs from the start of the year, in MWh. The axis says kWh (C86_axis_unit_wrong), and other runs show their energy in the wrong months (C86_part_year_in_january)."
  },
  {
   "property": "C87",
   "status": "partial",
   "theorems": [
    "Verif.C87_heat_stack",
    "Verif.C87_electric_stack",
    "Verif.C87_generation_stack",
    "Verif.C87_usage_stack_partial",
    "Verif.C87_pump_stacks",
    "Verif.C87_shortfall_drawn_as_boiler",
    "Verif.C87_usage_stack_omits_battery"
   ],
   "note": "Heat, electric demand and generation stacks add up; usage omits battery charging (C87_usage_stack_omits_battery) and a shortfall of heat is drawn as 'Aux' (C87_shortfall_drawn_as_boiler). Proved of fixed order runs."
  },
  {
   "property": "C88",
   "status": "proved",
   "theorems": [
    "Verif.C88_tables",
    "Verif.C88_made",
    "Verif.C88_no_scheme_no_tables"
   ],
   "note": "C88_made gives a sufficient condition for the tables to be made; an RHI scheme not on the sheet makes the whole stage fail (C88_no_scheme_no_tables)."
  },
  {
   "property": "C89",
   "status": "partial",
   "theorems": [
    "Verif.C89_tables_first",
    "Verif.C89_complete_partial",
    "Verif.C89_one_dimension_fails",
    "Verif.C89_missing_results"
   ],
   "note": "Proved for at least two sizes of heat pump and two of store. With one size of either the tables are written and the first chart raises (C89_one_dimension_fails)."
  },
  {
   "property": "C90",
   "status": "proved",
   "theorems": [
    "Verif.C90_charts"
   ],
   "note": ""
  },
  {
   "property": "C91",
   "status": "partial",
   "theorems": [
    "Verif.C91_grid_services",
    "Verif.C91_prices",
    "Verif.C91_tank_words",
    "Verif.C91_module_name",
    "Verif.C91_battery",
    "Verif.C91_tank",
    "Verif.C91_heat_pump",
    "Verif.C91_heater",
    "Verif.C91_grid",
    "Verif.C91_turbines",
    "Verif.C91_pv_partial",
    "Verif.C91_controller",
    "Verif.C91_tariff"
   ],
   "note": "Proved for the battery, the thermal store, the heat pump, the heater, the grid and tariff, the table of grid services (read but never used), the turbines and the controller. False of the photovoltaic inverter: the one named on the sheet is replaced by a fixed one. The sizes and hours of a study are in C99, the horizon in C100."
  },
  {
   "property": "C92",
   "status": "proved",
   "theorems": [
    "Verif.C92_readable"
   ],
   "note": "An equivalence, on the model of read_excel; the top row of each sheet is empty, as in the template."
  },
  {
   "property": "C93",
   "status": "proved",
   "theorems": [
    "Verif.C93_demand",
    "Verif.C93_temperatures"
   ],
   "note": ""
  },
  {
   "property": "C96",
   "status": "proved",
   "theorems": [
    "Verif.C96_flow_column",
    "Verif.C96_test_points"
   ],
   "note": "For sheets of any size from which the objects can be made; those are the sheets of 19 used columns and at least 36 rows (C94_stray_column)."
  },
  {
   "property": "C94",
   "status": "proved",
   "theorems": [
    "Verif.C94_filled",
    "Verif.C94_every_size",
    "Verif.C94_ready",
    "Verif.C94_stray_column",
    "Verif.C94_performance",
    "Verif.C94_start"
   ],
   "note": "Equivalences, C94_filled for the objects and C94_ready for the start of a run, entirely in cells and library results, for sheets of any size. The top row of each sheet is empty, as in the template, and nothing is written below the used range of the heat pump sheet."
  },
  {
   "property": "C99",
   "status": "partial",
   "theorems": [
    "Verif.C99_whole_year",
    "Verif.C99_simulates_partial",
    "Verif.C99_ends_partial",
    "Verif.C99_sizes_partial",
    "Verif.C99_meaningful",
    "Verif.C99_simple_pump",
    "Verif.C99_combination",
    "Verif.C99_any_cores",
    "Verif.C99_study",
    "Verif.C99_study_hours",
    "Verif.C99_sets_up",
    "Verif.C99_always_ends",
    "Verif.C99_unused_store_partial"
   ],
   "note": "Proved for the fixed order controller. The program ends for every workbook (C99_always_ends); a study that can end without an exception does so on one core and on two in every schedule without kill and timeout (C99_any_cores); that it can is proved for studies without a thermal store and for runs whose orders never use it (C99_unused_store_partial: no openings, no minimum output). A store in use can stop the controller with an exception, see C30, C33 and C125; for one that never does see C126."
  },
  {
   "property": "C97",
   "status": "proved",
   "theorems": [
    "Verif.C97_pv",
    "Verif.C97_wind",
    "Verif.C97_farm"
   ],
   "note": "pvlib and windpowerlib are parameters. The columns handed to pvlib for temperature and wind have names it does not read, so they have no effect."
  },
  {
   "property": "C98",
   "status": "proved",
   "theorems": [
    "Verif.C98_start",
    "Verif.C98_results",
    "Verif.C98_unchanged",
    "Verif.C98_figures",
    "Verif.C98_report",
    "Verif.C98_predictive",
    "Verif.C98_study",
    "Verif.C98_same_results"
   ],
   "note": "For both controllers and for whole studies, including figures, tables and charts (C98_report). C98_unchanged is the full statement for one combination. The top row of each sheet is empty, as in the template, and nothing is written below the used range of the heat pump sheet."
  },
  {
   "property": "C95",
   "status": "proved",
   "theorems": [
    "Verif.C95_complete_row",
    "Verif.C95_stray_entry_stops",
    "Verif.C95_gap_skips_row"
   ],
   "note": "What the program does, stated as it is; a user would expect a message. See DESIGN.md section 3."
  },
  {
   "property": "C100",
   "status": "partial",
   "theorems": [
    "Verif.C100_combination_partial",
    "Verif.C100_study",
    "Verif.C100_unknown_controller",
    "Verif.C100_needs",
    "Verif.C100_predicts_partial",
    "Verif.C100_ends_partial",
    "Verif.C100_one_hour"
   ],
   "note": "The first result carries no electricity, and the last hour of the year and runs of one hour are exceptions (C47); the heat balance with a store is false (C49). That the program ends is proved without a store, and with stores that serve in C131; it then ends so on any number of cores (C99_any_cores). GEKKO is a parameter."
  },
  {
   "property": "C101",
   "status": "partial",
   "theorems": [
    "Verif.C101_tables",
    "Verif.C101_charts",
    "Verif.C101_figures",
    "Verif.C101_no_incentive",
    "Verif.C101_written",
    "Verif.C101_needs_two_sizes",
    "Verif.C101_ends_partial",
    "Verif.C101_no_store_partial",
    "Verif.C101_any_cores",
    "Verif.C101_unused_store_partial"
   ],
   "note": "What a study that gets to its tables writes is proved in full. That it gets there is proved when the controller finishes for every combination and at least two hours are asked for (C101_ends_partial), in particular without stores (C101_no_store_partial) and with stores that the orders never use (C101_unused_store_partial); each of them gets there on any number of cores (C101_any_cores). A store in use can stop the fixed order controller with an exception (C30, C31, C33, C125); for stores that never do see C126, and C131 for the predictive controller."
  },
  {
   "property": "C102",
   "status": "proved",
   "theorems": [
    "Verif.C102_hour",
    "Verif.C102_hour_cash",
    "Verif.C102_each_hour",
    "Verif.C102_run",
    "Verif.C102_no_tank",
    "Verif.C102_bill",
    "Verif.C102_store_raises_import",
    "Verif.C102_workbook",
    "Verif.C102_tables"
   ],
   "note": "For systems without stores, as stated (C102_no_tank: capacity zero on the sheet is no store). C102_workbook compares two workbooks that differ in panels and turbines. With a thermal store more surplus can raise the import: C102_store_raises_import. C102_tables says it of the import and the export in the tables."
  },
  {
   "property": "C103",
   "status": "proved",
   "theorems": [
    "Verif.C103_hours_stand_alone",
    "Verif.C103_workbook"
   ],
   "note": "C103_workbook says it of two workbooks that differ in their hours."
  },
  {
   "property": "C104",
   "status": "proved",
   "theorems": [
    "Verif.C104_workbook",
    "Verif.C104_flat_rates",
    "Verif.C104_prices_move_money_only",
    "Verif.C104_change_of_currency",
    "Verif.C104_tables"
   ],
   "note": "For the fixed order controller. C104_workbook and C104_flat_rates compare two workbooks that differ in tariff and fuel costs. C104_tables: at flat rates the columns of the tables about energy do not change."
  },
  {
   "property": "C105",
   "status": "partial",
   "theorems": [
    "Verif.C105_size_scales_partial",
    "Verif.C105_minimum_output_breaks_scaling"
   ],
   "note": "Proved without thermal store, without minimum output and without 'HP import to TS' below the setpoint. With a minimum output false: C105_minimum_output_breaks_scaling. With a store the 0.1 and 0.05 kWh limits and the rounding to two decimals do not scale."
  },
  {
   "property": "C106",
   "status": "proved",
   "theorems": [
    "Verif.C106_exact",
    "Verif.C106_double",
    "Verif.C106_double_floats",
    "Verif.C106_double_nearest",
    "Verif.C106_double_inexact",
    "Verif.C106_double_digits",
    "Verif.C106_double_ties",
    "Verif.C106_run_floats",
    "Verif.C106_rounded_in_turn",
    "Verif.C106_tenth_is_a_float"
   ],
   "note": "Overflow, infinities and NaN are outside the model of floats."
  },
  {
   "property": "C107",
   "status": "proved",
   "theorems": [
    "Verif.C107_charge_within",
    "Verif.C107_start_within",
    "Verif.C107_split"
   ],
   "note": ""
  },
  {
   "property": "C108",
   "status": "partial",
   "theorems": [
    "Verif.C108_hour",
    "Verif.C108_double",
    "Verif.C108_negative_export",
    "Verif.C108_deficit_inexact"
   ],
   "note": "Within the error named. Exactly, it is false: C108_negative_export, C108_deficit_inexact. The tank is any function and is not rounded; COP between 1 and 1000 and `TidyOrder` are asked for."
  },
  {
   "property": "C109",
   "status": "partial",
   "theorems": [
    "Verif.C109_runs",
    "Verif.C109_run_demand",
    "Verif.C109_run_generation",
    "Verif.C109_run_flows"
   ],
   "note": "As C108; for heat the statement stops before the minimum output rule, which breaks the heat balance also without rounding (C26)."
  },
  {
   "property": "C110",
   "status": "proved",
   "theorems": [
    "Verif.C110_objective_is_money",
    "Verif.C110_cheapest",
    "Verif.C110_reported"
   ],
   "note": "For an electric heater; with a boiler there is no cheapest plan (C111). How GEKKO discretises the stores' equations is a parameter."
  },
  {
   "property": "C111",
   "status": "partial",
   "theorems": [
    "Verif.C111_cheapest_exists",
    "Verif.C111_solvable",
    "Verif.C111_bounded",
    "Verif.C111_fuel_unbounded",
    "Verif.C111_fuel_never_runs",
    "Verif.C111_fuel_negative_import",
    "Verif.C111_plan_exists",
    "Verif.C111_full_tank_no_plan"
   ],
   "note": "Feasible plans exist for both kinds of heater if an idle store has a course in the discretised equations. With an electric heater and a linear discretisation a cheapest plan exists, for all prices (C111_bounded, C111_cheapest_exists, C111_solvable). False with a boiler whose fuel costs money: the objective has no lower bound, so an optimiser that answers with cheapest plans only never answers (C111_fuel_unbounded, C111_fuel_negative_import, C111_fuel_never_runs). A tank too full for the next hour leaves no plan (C111_full_tank_no_plan)."
  },
  {
   "property": "C112",
   "status": "proved",
   "theorems": [
    "Verif.C112_hour",
    "Verif.C112_run",
    "Verif.C112_bill",
    "Verif.C112_same_data",
    "Verif.C112_workbook",
    "Verif.C112_plain_book",
    "Verif.C112_planning_pays"
   ],
   "note": "C112_hour for one hour, C112_run and C112_bill for runs on the same data, C112_same_data and C112_workbook from a workbook. That the optimiser answers with cheapest plans is a hypothesis there; C112_planning_pays shows that such an optimiser exists for every workbook without stores (C112_plain_book) and that the run then ends. Demand left unmet by the order would make the comparison void. With a boiler there is no cheapest plan (C111)."
  },
  {
   "property": "C113",
   "status": "proved",
   "theorems": [
    "Verif.C113_better",
    "Verif.C113_money"
   ],
   "note": "C113_better for the objective, C113_money for the money itself, which differs by at most 0.00001 for each kWh generated (the weight on charging from renewables). About the plan over its horizon: only the first hour of it is carried out before the next plan is made. Efficiencies and self discharge of the battery and the COP are the same in both systems."
  },
  {
   "property": "C114",
   "status": "proved",
   "theorems": [
    "Verif.C114_stores",
    "Verif.C114_money"
   ],
   "note": "C114_stores for the objective, C114_money for the money. About the plan over its horizon: only the first hour of it is carried out before the next plan is made, so nothing follows for the bill of a year."
  },
  {
   "property": "C115",
   "status": "partial",
   "theorems": [
    "Verif.C115_hour_partial",
    "Verif.C115_run",
    "Verif.C115_drawn",
    "Verif.C115_failure_refills",
    "Verif.C115_boiler_draws_nothing"
   ],
   "note": "Proved with an electric heater: the balance of each hour (C115_hour_partial), and over the run if no hour needed a second attempt (C115_run, C115_drawn). The implicit Euler rule is assumed for the differential equation. False after a failed attempt, which starts again from the charge of the start of the run (C115_failure_refills), and with a boiler, where nothing ties what the heat pump is reported to draw to the charge (C115_boiler_draws_nothing)."
  },
  {
   "property": "C116",
   "status": "proved",
   "theorems": [
    "Verif.C116_hour",
    "Verif.C116_run",
    "Verif.C116_total",
    "Verif.C116_before_heat_raises_import",
    "Verif.C116_import_charging_raises_import",
    "Verif.C116_workbook",
    "Verif.C116_tables"
   ],
   "note": "Both runs are assumed to complete. The two conditions on the order are needed: charging before the heat pump is served (C116_before_heat_raises_import) or from the grid (C116_import_charging_raises_import) can raise the import. C116_workbook says it of two workbooks that differ in the capacity of the battery. C116_tables says it of the import in the tables."
  },
  {
   "property": "C117",
   "status": "partial",
   "theorems": [
    "Verif.C117_log_is_honest",
    "Verif.C117_nothing_is_lost",
    "Verif.C117_parent_on_console",
    "Verif.C117_stop_returns",
    "Verif.C117_timeout_can_lose",
    "Verif.C117_kill_can_lose",
    "Verif.C117_spawned_drops_debug",
    "Verif.C117_default_level"
   ],
   "note": "Proved if stop returns, the output process was not killed and the level is at least INFO or processes are forked. Otherwise messages can be missing: after a timeout the listener is never stopped (C117_timeout_can_lose), a killed process loses what it had not yet sent (C117_kill_can_lose), and a spawned process drops DEBUG messages (C117_spawned_drops_debug). One start is modelled, as in main."
  },
  {
   "property": "C118",
   "status": "partial",
   "theorems": [
    "Verif.C118_never_found",
    "Verif.C118_run_data",
    "Verif.C118_half_hours",
    "Verif.C118_day_energy",
    "Verif.C118_electricity_partial",
    "Verif.C118_heat_partial",
    "Verif.C118_repaired_partial"
   ],
   "note": "False of the code: the functions look for the files in data/ under other names than they have in data/demand/, so with the package as shipped every call fails and nothing is written, for every sequence of calls (C118_never_found). Proved with the files where the functions look for them; what a run itself reads is found (C118_run_data). Digits of the csv files and plots are not modelled."
  },
  {
   "property": "C119",
   "status": "proved",
   "theorems": [
    "Verif.C119_hour",
    "Verif.C119_hour_cash",
    "Verif.C119_run",
    "Verif.C119_bill",
    "Verif.C119_order_needed",
    "Verif.C119_boiler_imports",
    "Verif.C119_cop_needed",
    "Verif.C119_price_needed",
    "Verif.C119_store_raises_import",
    "Verif.C119_workbook",
    "Verif.C119_flat_rates",
    "Verif.C119_tables"
   ],
   "note": "Proved for runs without stores and with an electric auxiliary heater, and from the workbook to the tables: with the simple heat pump model, no battery and no thermal store, sum_import and opex do not rise with the size of the heat pump (C119_workbook, C119_tables, C119_flat_rates). Each of the conditions is needed: counterexamples for the order (C119_order_needed), for a COP below one (C119_cop_needed), for exports paid better than imports cost (C119_price_needed), for a fuel boiler (C119_boiler_imports) and for a thermal store (C119_store_raises_import). Over the rationals."
  },
  {
   "property": "C120",
   "status": "proved",
   "theorems": [
    "Verif.C120_outside_untouched",
    "Verif.C120_fresh_start",
    "Verif.C120_rerun",
    "Verif.C120_refuses",
    "Verif.C120_answer",
    "Verif.C120_cut_off",
    "Verif.C120_only_these"
   ],
   "note": "Proved for runs on one core. C120_outside_untouched, C120_refuses, C120_fresh_start, C120_rerun, C120_answer, C120_cut_off and C120_only_these. Assumptions in the statements: the base name is not . or .. (see C53 for those), the workbook is not below the folder of the study, no file (only a folder or nothing) is at the folder. Simplified in the model: a file is written in two steps and writing does not fail half way; the text of the log; the figures of a period in which one fails."
  },
  {
   "property": "C121",
   "status": "proved",
   "theorems": [
    "Verif.C121_returned",
    "Verif.C121_goes_on",
    "Verif.C121_ends",
    "Verif.C121_every_schedule",
    "Verif.C121_quiet_end",
    "Verif.C121_any_moment",
    "Verif.C121_cut_off",
    "Verif.C121_nothing_after",
    "Verif.C121_late_fails"
   ],
   "note": "C121_returned, C121_goes_on, C121_ends, C121_every_schedule, C121_quiet_end, C121_any_moment, C121_cut_off and C121_nothing_after; the exception named in the last sentence is C121_late_fails: for every study that returns on one core, if the 30 s of stop run out before the output process has begun, main raises and that process goes on adding figures. Simplified: a file is written in two changes (torn, then whole); rmtree goes through any stages; the queue is reliable; plotting does not call sys.exit."
  },
  {
   "property": "C122",
   "status": "proved",
   "theorems": [
    "Verif.C122_alone",
    "Verif.C122_elsewhere",
    "Verif.C122_one_core",
    "Verif.C122_two_cores",
    "Verif.C122_returned",
    "Verif.C122_quiet_end",
    "Verif.C122_goes_on",
    "Verif.C122_ends",
    "Verif.C122_any_moment",
    "Verif.C122_cut_off",
    "Verif.C122_names",
    "Verif.C122_directories"
   ],
   "note": "C122_alone, C122_elsewhere, C122_one_core, C122_two_cores, C122_returned, C122_quiet_end, C122_goes_on, C122_ends, C122_any_moment, C122_cut_off, with C122_names and C122_directories for when studies are different. Simplified as in C120 and C121: a file is written in two changes (torn, then whole), mkdir is a single change, no links between folders."
  },
  {
   "property": "C123",
   "status": "partial",
   "theorems": [
    "Verif.C123_one",
    "Verif.C123_earlier_run",
    "Verif.C123_at_most_one",
    "Verif.C123_any_moment",
    "Verif.C123_returned",
    "Verif.C123_goes_on",
    "Verif.C123_overwrite_fails",
    "Verif.C123_overwrite_refused"
   ],
   "note": "Proved without the flag: C123_one, C123_earlier_run, C123_at_most_one, C123_any_moment, C123_returned, C123_goes_on. With the flag it fails: C123_overwrite_fails (one call removes the folder another has just made, which then raises FileNotFoundError although it returns alone) and C123_overwrite_refused (a call with the flag raises FileExistsError)."
  },
  {
   "property": "C124",
   "status": "partial",
   "theorems": [
    "Verif.C124_lifetime_order",
    "Verif.C124_levelised_order",
    "Verif.C124_levelised_heat_order",
    "Verif.C124_energy_cost_close",
    "Verif.C124_levelised_energy_close",
    "Verif.C124_lifetime_close",
    "Verif.C124_each_total",
    "Verif.C124_total",
    "Verif.C124_year",
    "Verif.C124_whole",
    "Verif.C124_order_kept",
    "Verif.C124_not_negative",
    "Verif.C124_percentage",
    "Verif.C124_self_consumption",
    "Verif.C124_over_hundred",
    "Verif.C124_run_at_most",
    "Verif.C124_utilisation",
    "Verif.C124_utilisation_not_whole",
    "Verif.C124_scop",
    "Verif.C124_operating_cost",
    "Verif.C124_electricity_cost",
    "Verif.C124_heat_cost",
    "Verif.C124_capital_cost_close",
    "Verif.C124_levelised_heat_close",
    "Verif.C124_wind_import",
    "Verif.C124_pump_share_close",
    "Verif.C124_pump_share",
    "Verif.C124_pump_share_over",
    "Verif.C124_demand_met",
    "Verif.C124_demand_met_close",
    "Verif.C124_utilisation_close",
    "Verif.C124_heat_cost_close",
    "Verif.C124_subsidy_order",
    "Verif.C124_subsidy_close",
    "Verif.C124_cost_of_heat_close"
   ],
   "note": "Proved: C124_total, C124_year, C124_each_total, C124_whole, C124_order_kept, C124_not_negative, C124_percentage, C124_self_consumption, C124_demand_met, C124_demand_met_close, C124_wind_import, C124_pump_share, C124_pump_share_close, C124_utilisation, C124_utilisation_close, C124_scop, C124_operating_cost, C124_electricity_cost, C124_heat_cost, C124_heat_cost_close, C124_subsidy_order, C124_subsidy_close, C124_cost_of_heat_close, C124_capital_cost_close, C124_levelised_heat_close, C124_energy_cost_close, C124_levelised_energy_close, C124_lifetime_close, C124_lifetime_order, C124_levelised_order, C124_levelised_heat_order, C124_run_at_most. Against it: after a run in floats self-consumption can be above 100 (C124_over_hundred), with a wind farm so can the heat pump's renewable share (C124_pump_share_over), and a whole percentage of use of the heat pump is not shown as one (C124_utilisation_not_whole). The power in the price of a store is taken as the library gives it, so its own error is not counted."
  },
  {
   "property": "C125",
   "status": "proved",
   "theorems": [
    "Verif.C125_cold_tank_refuses",
    "Verif.C125_large_pump_stops",
    "Verif.C125_large_pump_case",
    "Verif.C125_thin_layers_raise",
    "Verif.C125_connections_stop",
    "Verif.C125_study_stops",
    "Verif.C125_sample_study"
   ],
   "note": "Proved as a condition that is enough for the run to stop (C125_large_pump_stops), with a year that meets it (C125_large_pump_case), and for studies of a workbook (C125_study_stops, C125_sample_study). The two further ways are concrete cases. With numpy numbers for the temperatures the exception would be another one, raised by math.ceil."
  },
  {
   "property": "C126",
   "status": "proved",
   "theorems": [
    "Verif.C126_run_ends",
    "Verif.C126_simulates",
    "Verif.C126_study_ends",
    "Verif.C126_sample_study"
   ],
   "note": "Proved for the run (C126_run_ends), the simulation of a combination of a workbook (C126_simulates) and a study (C126_study_ends), each with a case. In exact arithmetic. Four layers are left out because the offer of such a store can raise (C33_offer_raises)."
  },
  {
   "property": "C127",
   "status": "partial",
   "theorems": [
    "Verif.C127_calendar",
    "Verif.C127_heat_pump",
    "Verif.C127_turbines",
    "Verif.C127_turbines_a_day_behind",
    "Verif.C127_summer_time",
    "Verif.C127_panels",
    "Verif.C127_panels_an_hour_ahead",
    "Verif.C127_panels_missing_and_double",
    "Verif.C127_tariff_ignores_summer_time"
   ],
   "note": "Proved of the heat pump's table (C127_heat_pump). The tables of turbines and panels are exact too but disagree with it: C127_turbines_a_day_behind, C127_panels_an_hour_ahead, C127_panels_missing_and_double, C127_tariff_ignores_summer_time. The two changes of clock of 2017 are taken from the tz database; C127_summer_time checks that they are the last Sundays of March and October."
  },
  {
   "property": "C128",
   "status": "partial",
   "theorems": [
    "Verif.C128_exact",
    "Verif.C128_exact_accurate",
    "Verif.C128_low_accurate",
    "Verif.C128_profiles_sorted",
    "Verif.C128_run_sorted",
    "Verif.C128_pass_close",
    "Verif.C128_discharging_range",
    "Verif.C128_discharging_heat",
    "Verif.C128_charging_heat_partial",
    "Verif.C128_tie"
   ],
   "note": "Order and number of layers for every integrator and every run; one pass, the range of discharging and the heat of a pass within the error. The heat of charging is proved without a layer at the source temperature; with one the smallest error decides between 60 and 120 degrees (C128_tie). Errors over several passes are bounded for the range only: the flags of the layers jump, so profiles with and without error can part."
  },
  {
   "property": "C129",
   "status": "proved",
   "theorems": [
    "Verif.C129_hour",
    "Verif.C129_store_balance",
    "Verif.C129_gives_back",
    "Verif.C129_small_draws_free",
    "Verif.C129_workbook"
   ],
   "note": "Upper bound for the stores of C126. Heat booked into a store can be lost in it, so there is no lower bound. A store with a layer exactly at the source temperature creates heat (C66_tie_creates_heat); these stores never get there."
  },
  {
   "property": "C130",
   "status": "partial",
   "theorems": [
    "Verif.C130_within_soc",
    "Verif.C130_battery_balance_partial",
    "Verif.C130_lossless_partial",
    "Verif.C130_fast_within_rating",
    "Verif.C130_fast_battery",
    "Verif.C130_gives_what_it_never_got"
   ],
   "note": "The code violates it. The controller books a discharge up to the state of charge, while the state of charge falls by at most the rating: a battery rated at 10 W supplies 10 kWh in every hour of a year without being charged (C130_gives_what_it_never_got). Within the rating the efficiency is applied the wrong way round (C23_losses_create_energy). Proved: the balance with the efficiency's share of the discharge for hours within the rating, the balance itself for a lossless discharge, and that a battery that can be emptied within an hour is always within its rating."
  },
  {
   "property": "C131",
   "status": "proved",
   "theorems": [
    "Verif.C131_hour",
    "Verif.C131_store_balance",
    "Verif.C131_gives_back",
    "Verif.C131_ends",
    "Verif.C131_predicts",
    "Verif.C131_workbook",
    "Verif.C131_study_ends",
    "Verif.C131_sample_study"
   ],
   "note": "For the stores of C126 and demands half a layer holds; also from the workbook (C131_predicts, C131_workbook, C131_study_ends). With other fuels every run with a tank fails (C47_fuel_and_tank_fail)."
  },
  {
   "property": "C132",
   "status": "partial",
   "theorems": [
    "Verif.C132_hour",
    "Verif.C132_run",
    "Verif.C132_without_stores",
    "Verif.C132_supplied_partial",
    "Verif.C132_from_nothing",
    "Verif.C132_workbook"
   ],
   "note": "The books of an hour and of a run hold for all heat pumps without minimum output. The bound over a run holds without stores, and with a store as in C126 and no battery or one without discharge losses that is never drawn beyond its rating (up to the roundings below the setpoint). C132_workbook says it of the entries of a workbook. It fails with other batteries: C132_from_nothing uses 10 kWh an hour for a year out of 100 kWh."
  },
  {
   "property": "C133",
   "status": "partial",
   "theorems": [
    "Verif.C133_hour",
    "Verif.C133_without_stores",
    "Verif.C133_with_battery",
    "Verif.C133_with_stores_partial",
    "Verif.C133_second_attempt",
    "Verif.C133_boiler",
    "Verif.C133_short_hour",
    "Verif.C133_workbook"
   ],
   "note": "Electric heaters only, and the first result of a run (C47) is left out. An hour holds for every optimiser that satisfies what is posted. The bound over a run holds without stores whatever attempts fail (C133_workbook says it of the entries of a workbook), with a battery that follows the implicit Euler rule if no hour needed a second attempt, and with a store as in C126 too if no hour falls short. It fails after a second attempt (C133_second_attempt), with a boiler (C133_boiler) and when the store cannot give what was planned (C133_short_hour)."
  },
  {
   "property": "C134",
   "status": "proved",
   "theorems": [
    "Verif.C134_hour",
    "Verif.C134_each_hour",
    "Verif.C134_run",
    "Verif.C134_bill",
    "Verif.C134_store_raises_import",
    "Verif.C134_workbook",
    "Verif.C134_tables"
   ],
   "note": "For systems without stores, as stated. C134_each_hour compares single hours, C134_bill the sums. C134_workbook compares two workbooks that differ in heat and electric demand, C134_tables the import and the export in the tables of two studies. With a thermal store a lower heat demand can raise the import of an hour: C134_store_raises_import."
  },
  {
   "property": "C135",
   "status": "proved",
   "theorems": [
    "Verif.C135_workbook",
    "Verif.C135_tables"
   ],
   "note": "For systems without stores, as stated. The run of the old workbook with the new heat pump, through which the two are compared, is proved to exist rather than assumed. The conditions on the order, the COP and the prices cannot be dropped: C119_order_needed, C119_cop_needed, C119_price_needed."
  },
  {
   "property": "C136",
   "status": "partial",
   "theorems": [
    "Verif.C136_prices",
    "Verif.C136_file_needed",
    "Verif.C136_not_shipped",
    "Verif.C136_never_dearer_partial",
    "Verif.C136_surplus_dearer"
   ],
   "note": "Proved: the price of every hour (C136_prices), that it works exactly with a file of at least 8760 rows (C136_file_needed), and that a surplus lowers the price if all periods cost at least 30 (C136_never_dearer_partial). Against it: the file is not part of the package, so every call fails (C136_not_shipped), and with periods below 30 a surplus is dearer (C136_surplus_dearer). Nothing calls the method."
  }
 ]
}
