{
"C03": {"status": "partial", "note": "The rating bound holds. The stored-energy bound is false of the code (C03_not_bounded_by_stored_energy); the partial theorems bound the energy actually removed."},
"C04": {"status": "partial", "note": "False of the code: both raise TypeError exactly when match < 0. Proved for match >= 0."},
"C05": {"status": "partial", "note": "False of the code when the state of charge does not rise (C05_not_rise_in_soc); proved otherwise."},
"C06": {"status": "partial", "note": "Rating bound proved; overfill characterised exactly and shown to happen (C06_not_within_capacity)."},
"C08": {"status": "proved", "note": "Both copies modelled."},
"C09": {"status": "proved", "note": "Series of at most 8760 hours; longer ones are cut at 8760 (C09_longer_year_truncated)."},
"C100": {"status": "partial", "note": "The first result carries no electricity, and the last hour of the year and runs of one hour are exceptions (C47); the heat balance with a store is false (C49). That the program ends is proved without a store, and with stores that serve in C131; it then ends so on any number of cores (C99_any_cores). GEKKO is a parameter."},
"C101": {"status": "partial", "note": "What a study that gets to its tables writes is proved in full. That it gets there is proved when the controller finishes for every combination and at least two hours are asked for (C101_ends_partial), in particular without stores (C101_no_store_partial) and with stores that the orders never use (C101_unused_store_partial); each of them gets there on any number of cores (C101_any_cores). A store in use can stop the fixed order controller with an exception (C30, C31, C33, C125); for stores that never do see C126, and C131 for the predictive controller."},
"C102": {"status": "proved", "note": "For systems without stores, as stated (C102_no_tank: capacity zero on the sheet is no store). C102_workbook compares two workbooks that differ in panels and turbines. With a thermal store more surplus can raise the import: C102_store_raises_import. C102_tables says it of the import and the export in the tables."},
"C103": {"status": "proved", "note": "C103_workbook says it of two workbooks that differ in their hours."},
"C104": {"status": "proved", "note": "For the fixed order controller. C104_workbook and C104_flat_rates compare two workbooks that differ in tariff and fuel costs. C104_tables: at flat rates the columns of the tables about energy do not change."},
"C105": {"status": "partial", "note": "Proved without thermal store, without minimum output and without 'HP import to TS' below the setpoint. With a minimum output false: C105_minimum_output_breaks_scaling. With a store the 0.1 and 0.05 kWh limits and the rounding to two decimals do not scale."},
"C106": {"status": "proved", "note": "Overflow, infinities and NaN are outside the model of floats."},
"C107": {"status": "proved", "note": ""},
"C108": {"status": "partial", "note": "Within the error named. Exactly, it is false: C108_negative_export, C108_deficit_inexact. The tank is any function and is not rounded; COP between 1 and 1000 and `TidyOrder` are asked for."},
"C109": {"status": "partial", "note": "As C108; for heat the statement stops before the minimum output rule, which breaks the heat balance also without rounding (C26)."},
"C110": {"status": "proved", "note": "For an electric heater; with a boiler there is no cheapest plan (C111). How GEKKO discretises the stores' equations is a parameter."},
"C111": {"status": "partial", "note": "Feasible plans exist for both kinds of heater if an idle store has a course in the discretised equations. With an electric heater and a linear discretisation a cheapest plan exists, for all prices (C111_bounded, C111_cheapest_exists, C111_solvable). False with a boiler whose fuel costs money: the objective has no lower bound, so an optimiser that answers with cheapest plans only never answers (C111_fuel_unbounded, C111_fuel_negative_import, C111_fuel_never_runs). A tank too full for the next hour leaves no plan (C111_full_tank_no_plan)."},
"C112": {"status": "proved", "note": "C112_hour for one hour, C112_run and C112_bill for runs on the same data, C112_same_data and C112_workbook from a workbook. That the optimiser answers with cheapest plans is a hypothesis there; C112_planning_pays shows that such an optimiser exists for every workbook without stores (C112_plain_book) and that the run then ends. Demand left unmet by the order would make the comparison void. With a boiler there is no cheapest plan (C111)."},
"C113": {"status": "proved", "note": "C113_better for the objective, C113_money for the money itself, which differs by at most 0.00001 for each kWh generated (the weight on charging from renewables). About the plan over its horizon: only the first hour of it is carried out before the next plan is made. Efficiencies and self discharge of the battery and the COP are the same in both systems."},
"C114": {"status": "proved", "note": "C114_stores for the objective, C114_money for the money. About the plan over its horizon: only the first hour of it is carried out before the next plan is made, so nothing follows for the bill of a year."},
"C115": {"status": "partial", "note": "Proved with an electric heater: the balance of each hour (C115_hour_partial), and over the run if no hour needed a second attempt (C115_run, C115_drawn). The implicit Euler rule is assumed for the differential equation. False after a failed attempt, which starts again from the charge of the start of the run (C115_failure_refills), and with a boiler, where nothing ties what the heat pump is reported to draw to the charge (C115_boiler_draws_nothing)."},
"C116": {"status": "proved", "note": "Both runs are assumed to complete. The two conditions on the order are needed: charging before the heat pump is served (C116_before_heat_raises_import) or from the grid (C116_import_charging_raises_import) can raise the import. C116_workbook says it of two workbooks that differ in the capacity of the battery. C116_tables says it of the import in the tables."},
"C117": {"status": "partial", "note": "Proved if stop returns, the output process was not killed and the level is at least INFO or processes are forked. Otherwise messages can be missing: after a timeout the listener is never stopped (C117_timeout_can_lose), a killed process loses what it had not yet sent (C117_kill_can_lose), and a spawned process drops DEBUG messages (C117_spawned_drops_debug). One start is modelled, as in main."},
"C118": {"status": "partial", "note": "False of the code: the functions look for the files in data/ under other names than they have in data/demand/, so with the package as shipped every call fails and nothing is written, for every sequence of calls (C118_never_found). Proved with the files where the functions look for them; what a run itself reads is found (C118_run_data). Digits of the csv files and plots are not modelled."},
"C119": {"status": "proved", "note": "Proved for runs without stores and with an electric auxiliary heater, and from the workbook to the tables: with the simple heat pump model, no battery and no thermal store, sum_import and opex do not rise with the size of the heat pump (C119_workbook, C119_tables, C119_flat_rates). Each of the conditions is needed: counterexamples for the order (C119_order_needed), for a COP below one (C119_cop_needed), for exports paid better than imports cost (C119_price_needed), for a fuel boiler (C119_boiler_imports) and for a thermal store (C119_store_raises_import). Over the rationals."},
"C12": {"status": "proved", "note": "For every order, repeats included."},
"C120": {"status": "proved", "note": "Proved for runs on one core. C120_outside_untouched, C120_refuses, C120_fresh_start, C120_rerun, C120_answer, C120_cut_off and C120_only_these. Assumptions in the statements: the base name is not . or .. (see C53 for those), the workbook is not below the folder of the study, no file (only a folder or nothing) is at the folder. Simplified in the model: a file is written in two steps and writing does not fail half way; the text of the log; the figures of a period in which one fails."},
"C121": {"status": "proved", "note": "C121_returned, C121_goes_on, C121_ends, C121_every_schedule, C121_quiet_end, C121_any_moment, C121_cut_off and C121_nothing_after; the exception named in the last sentence is C121_late_fails: for every study that returns on one core, if the 30 s of stop run out before the output process has begun, main raises and that process goes on adding figures. Simplified: a file is written in two changes (torn, then whole); rmtree goes through any stages; the queue is reliable; plotting does not call sys.exit."},
"C122": {"status": "proved", "note": "C122_alone, C122_elsewhere, C122_one_core, C122_two_cores, C122_returned, C122_quiet_end, C122_goes_on, C122_ends, C122_any_moment, C122_cut_off, with C122_names and C122_directories for when studies are different. Simplified as in C120 and C121: a file is written in two changes (torn, then whole), mkdir is a single change, no links between folders."},
"C123": {"status": "partial", "note": "Proved without the flag: C123_one, C123_earlier_run, C123_at_most_one, C123_any_moment, C123_returned, C123_goes_on. With the flag it fails: C123_overwrite_fails (one call removes the folder another has just made, which then raises FileNotFoundError although it returns alone) and C123_overwrite_refused (a call with the flag raises FileExistsError)."},
"C124": {"status": "partial", "note": "Proved: C124_total, C124_year, C124_each_total, C124_whole, C124_order_kept, C124_not_negative, C124_percentage, C124_self_consumption, C124_demand_met, C124_demand_met_close, C124_wind_import, C124_pump_share, C124_pump_share_close, C124_utilisation, C124_utilisation_close, C124_scop, C124_operating_cost, C124_electricity_cost, C124_heat_cost, C124_heat_cost_close, C124_subsidy_order, C124_subsidy_close, C124_cost_of_heat_close, C124_capital_cost_close, C124_levelised_heat_close, C124_energy_cost_close, C124_levelised_energy_close, C124_lifetime_close, C124_lifetime_order, C124_levelised_order, C124_levelised_heat_order, C124_run_at_most. Against it: after a run in floats self-consumption can be above 100 (C124_over_hundred), with a wind farm so can the heat pump's renewable share (C124_pump_share_over), and a whole percentage of use of the heat pump is not shown as one (C124_utilisation_not_whole). The power in the price of a store is taken as the library gives it, so its own error is not counted."},
"C125": {"status": "proved", "note": "Proved as a condition that is enough for the run to stop (C125_large_pump_stops), with a year that meets it (C125_large_pump_case), and for studies of a workbook (C125_study_stops, C125_sample_study). The two further ways are concrete cases. With numpy numbers for the temperatures the exception would be another one, raised by math.ceil."},
"C126": {"status": "proved", "note": "Proved for the run (C126_run_ends), the simulation of a combination of a workbook (C126_simulates) and a study (C126_study_ends), each with a case. In exact arithmetic. Four layers are left out because the offer of such a store can raise (C33_offer_raises)."},
"C127": {"status": "partial", "note": "Proved of the heat pump's table (C127_heat_pump). The tables of turbines and panels are exact too but disagree with it: C127_turbines_a_day_behind, C127_panels_an_hour_ahead, C127_panels_missing_and_double, C127_tariff_ignores_summer_time. The two changes of clock of 2017 are taken from the tz database; C127_summer_time checks that they are the last Sundays of March and October."},
"C128": {"status": "partial", "note": "Order and number of layers for every integrator and every run; one pass, the range of discharging and the heat of a pass within the error. The heat of charging is proved without a layer at the source temperature; with one the smallest error decides between 60 and 120 degrees (C128_tie). Errors over several passes are bounded for the range only: the flags of the layers jump, so profiles with and without error can part."},
"C129": {"status": "proved", "note": "Upper bound for the stores of C126. Heat booked into a store can be lost in it, so there is no lower bound. A store with a layer exactly at the source temperature creates heat (C66_tie_creates_heat); these stores never get there."},
"C130": {"status": "partial", "note": "The code violates it. The controller books a discharge up to the state of charge, while the state of charge falls by at most the rating: a battery rated at 10 W supplies 10 kWh in every hour of a year without being charged (C130_gives_what_it_never_got). Within the rating the efficiency is applied the wrong way round (C23_losses_create_energy). Proved: the balance with the efficiency's share of the discharge for hours within the rating, the balance itself for a lossless discharge, and that a battery that can be emptied within an hour is always within its rating."},
"C131": {"status": "proved", "note": "For the stores of C126 and demands half a layer holds; also from the workbook (C131_predicts, C131_workbook, C131_study_ends). With other fuels every run with a tank fails (C47_fuel_and_tank_fail)."},
"C132": {"status": "partial", "note": "The books of an hour and of a run hold for all heat pumps without minimum output. The bound over a run holds without stores, and with a store as in C126 and no battery or one without discharge losses that is never drawn beyond its rating (up to the roundings below the setpoint). C132_workbook says it of the entries of a workbook. It fails with other batteries: C132_from_nothing uses 10 kWh an hour for a year out of 100 kWh."},
"C133": {"status": "partial", "note": "Electric heaters only, and the first result of a run (C47) is left out. An hour holds for every optimiser that satisfies what is posted. The bound over a run holds without stores whatever attempts fail (C133_workbook says it of the entries of a workbook), with a battery that follows the implicit Euler rule if no hour needed a second attempt, and with a store as in C126 too if no hour falls short. It fails after a second attempt (C133_second_attempt), with a boiler (C133_boiler) and when the store cannot give what was planned (C133_short_hour)."},
"C134": {"status": "proved", "note": "For systems without stores, as stated. C134_each_hour compares single hours, C134_bill the sums. C134_workbook compares two workbooks that differ in heat and electric demand, C134_tables the import and the export in the tables of two studies. With a thermal store a lower heat demand can raise the import of an hour: C134_store_raises_import."},
"C135": {"status": "proved", "note": "For systems without stores, as stated. The run of the old workbook with the new heat pump, through which the two are compared, is proved to exist rather than assumed. The conditions on the order, the COP and the prices cannot be dropped: C119_order_needed, C119_cop_needed, C119_price_needed."},
"C136": {"status": "partial", "note": "Proved: the price of every hour (C136_prices), that it works exactly with a file of at least 8760 rows (C136_file_needed), and that a surplus lowers the price if all periods cost at least 30 (C136_never_dearer_partial). Against it: the file is not part of the package, so every call fails (C136_not_shipped), and with periods below 30 a surplus is dearer (C136_surplus_dearer). Nothing calls the method."},
"C15": {"status": "partial", "note": "Proved up to the lift where the fitted parabola turns (about 96 and 102 K), with the reverse proved beyond it (C15_cop_rises_beyond_limit). Ground better than air proved up to 115 K, false at 140 K (C15_not_ground_better)."},
"C18": {"status": "partial", "note": "Balance never exceeded for every order without repeats. Nothing unmet for every such order unless the battery drives the heat pump after 'HP import to TS'; then a tiny amount can stay unmet (C18_rounding_leaves_unmet). Repeats fail (C18_repeats_lose_supply)."},
"C19": {"status": "partial", "note": "Never overspent, for every order without repeats (before the minimum output rule) and for safe orders after it. Exact spending for safe orders; C19_unsafe_order_not_spent shows the condition is needed."},
"C20": {"status": "partial", "note": "Never over-supplied for every order without repeats; met exactly for safe orders, before the minimum output rule (C26 covers the rule). C20_unsafe_order_not_met shows the condition is needed. The report below the setpoint omits the renewable electric heater (C20_below_report_omits_electric_heater)."},
"C21": {"status": "partial", "note": "Proved for safe orders; three counterexamples show the order condition is needed."},
"C22": {"status": "partial", "note": "False of the code in general (C22_es_then_import_exceeds_duty, C22_default_order_exceeds_duty, C22_rounding_exceeds_duty); proved when no heat pump process follows ES to HP, up to rounding below the setpoint."},
"C23": {"status": "partial", "note": "False for net discharge with losses or above the rating (counterexamples); proved for net charging above the setpoint and for lossless net discharge within the rating."},
"C24": {"status": "partial", "note": "Sums proved before the minimum output rule and, for a fuelled boiler, after it; the reported export price above the setpoint is wrong (C24_reported_export_price_wrong)."},
"C25": {"status": "partial", "note": "Proved below the setpoint; above it outputs up to 0.1 kWh are kept (C25_small_output_above_kept)."},
"C26": {"status": "partial", "note": "Device totals and heat balance unless switched off are proved; dropped heat, stale reports and unbilled import are counterexamples."},
"C27": {"status": "proved", "note": ""},
"C28": {"status": "proved", "note": "Independent of hours before and after the span, apart from the yearly peak heat demand (in SamePlant). C28_workbook says it of two workbooks that differ in the number of hours."},
"C29": {"status": "proved", "note": "KeyError is certain if the tank itself never raises; otherwise the tank's exception may come first. C29_same_side and C29_workbook: setpoints on the same side of every price give the same results."},
"C30": {"status": "partial", "note": "Holds for every call and every hour of a fixed order run that returns profiles. A tank on standby without openings always returns (C30_standby_returns); a tank whose mean is exactly the source temperature returns a flat list when charged (C30_full_tank_flat), and one node never works."},
"C31": {"status": "partial", "note": "Discharging is proved in full. Charging is proved without ties and with the bottom colder than the source; both exceptions are shown to break the claim."},
"C32": {"status": "proved", "note": "For one call and for whole fixed order runs."},
"C33": {"status": "partial", "note": "Non-negativity and the two mean-temperature cases are proved in full. The cool-top case is proved without losses, and with a wall but no openings; openings break it (C33_opening_offers_heat). The function can also raise for an ordinary stratified tank of four layers (C33_offer_raises)."},
"C34": {"status": "partial", "note": "Proved without openings. Openings heat the tank because their losses are added (C34_openings_heat)."},
"C35": {"status": "proved", "note": ""},
"C36": {"status": "proved", "note": "Price list of 8760 hours for every tariff, on every well formed sheet; percentages that are not whole hundredths fail (C36_fractional_percent_fails)."},
"C37": {"status": "proved", "note": ""},
"C38": {"status": "proved", "note": ""},
"C39": {"status": "partial", "note": "Proved for years of 365 days; in leap years the 365th day is priced with the wrong weekday (C39_leap_year_mispriced)."},
"C40": {"status": "proved", "note": ""},
"C41": {"status": "partial", "note": "Proved when the step divides the interval; otherwise the largest size lies above the maximum (C41_hp_overshoots, C41_ts_overshoots), and the store range ends at the heat pump step (C41_ts_maximum_dropped)."},
"C42": {"status": "partial", "note": "Isolation proved in full. The duty scales with a ratio rounded to two decimals (C42_factor_close, C42_small_pump_no_duty)."},
"C43": {"status": "proved", "note": "Sizes 0 and above; negative sizes are misread (C43_negative_misread)."},
"C44": {"status": "partial", "note": "Formula for all results; range for runs whose orders are safe. Otherwise more can be sold than generated (C44_unsafe_order_negative). Includes the IndexError when fewer results than timesteps exist."},
"C45": {"status": "proved", "note": "Unknown subsidy words leave the income undefined (C45_unknown_words)."},
"C46": {"status": "partial", "note": "False of the code: lifetime and levelised cost charge fuel a thousandfold (C46_fuel_charged_thousandfold). Equality proved for electric auxiliaries. Without a demand there is no levelised cost (C46_no_demand)."},
"C47": {"status": "partial", "note": "One result an hour in order for runs of two or more hours that end before the last hour of the year, for every optimiser behaviour. False otherwise: a one-hour run has no results, the last result of a run to the year's end repeats the first hour, the first result lacks electricity data; some runs always fail."},
"C48": {"status": "partial", "note": "Proved outside the band 8759 - 2*horizon <= first + timesteps < 8759 - horizon, and proved to fail in it."},
"C49": {"status": "partial", "note": "Electricity and renewables balance exactly for every feasible answer. Heat balances without a tank; with one it does not (two witnesses). The import bill is exact unless the battery feeds the heater. The differential equations of the two stores are GEKKO's and not modelled."},
"C50": {"status": "partial", "note": "Order and once-only proved for every history. Completion proved for every stop that returns normally after one start, with no job calling sys.exit(0); finiteness and absence of deadlock proved. stop gives up after 30 s with ValueError although nothing failed (C50_timeout_gives_up)."},
"C51": {"status": "partial", "note": "Proved for one start and jobs that do not exit with code 0; a job calling sys.exit(0) goes unnoticed (C51_silent_exit)."},
"C52": {"status": "partial", "note": "False of the code: cancel runs every pending job (C52_cancel_runs_pending) and leftovers survive a restart (C52_restart_runs_old_job, C52_restart_loses_job). A restart after a session that returned normally is clean."},
"C53": {"status": "partial", "note": "Proved for every file system, argument and crash point when the workbook has an ordinary base name. With overwrite, workbooks called ..xlsx or ...xlsx make it delete the whole output directory or its parent (C53_dot_workbook, C53_dots_workbook)."},
"C54": {"status": "partial", "note": "Same answer and same output directory whenever stop and cancel return normally, hence for every schedule without timeout, kill or failing plot, and there always is such a schedule (C54_two_cores_end); never a false success. A backlog of plots over 30 s makes the two-core run fail (C54_timeout_fails); errors differ for failing plots (C54_plot_error_differs) and may be masked (C54_solve_error_masked)."},
"C58": {"status": "partial", "note": "Every hour has one season, from the first days given as a table, and one kind of day; the year's series is total and takes the value of season, day and hour. The documented dates of autumn are not those of the code (C58_autumn_dates)."},
"C59": {"status": "partial", "note": "No output without panels, never negative, and its value; the factor of an hour is by twelfths of the year, not by month: C59_wrong_month; off by at most one month (C59_month_close_partial). pvlib's output is a parameter."},
"C60": {"status": "partial", "note": "True for heat and for electricity from 12 values on, with the alignment of the mean; false for shorter electricity profiles (C60_short_electricity)."},
"C62": {"status": "partial", "note": "Exact above the setpoint; below it up to the rounding of 'HP import to TS' and for orders without overshoot. False otherwise (C62_rounding_overcharges, C62_unsafe_order_overdraws)."},
"C63": {"status": "partial", "note": "Above the setpoint exact, also after the rule; below it up to the rounding of HP import to TS (C63_rounding_free_heat)."},
"C64": {"status": "proved", "note": ""},
"C65": {"status": "partial", "note": "False of the code: the generic model always raises KeyError in init, the Lorentz model always raises AttributeError. Proved for the simple and standard models."},
"C66": {"status": "partial", "note": "Discharging in full, charging without ties; a tie creates heat (C66_tie_creates_heat)."},
"C67": {"status": "partial", "note": "Volume and sign proved; the losses use the diameter as radius (C67_losses_use_diameter)."},
"C68": {"status": "partial", "note": "The bill is per kWh of heat, ignoring the efficiency (C68_fuel_bill_ignores_efficiency), and is stale after switch-off (C68_off_bill_not_updated). Otherwise proved."},
"C69": {"status": "partial", "note": "Proved for the heat pump's share; the heat share without minimum output; the demand share if no hour takes in more than it uses. False otherwise (C69_demand_share_exceeds_100, C69_heat_share_exceeds_100)."},
"C70": {"status": "partial", "note": "Proved for runs from hour 0; false otherwise (C70_wrong_hours)."},
"C71": {"status": "proved", "note": ""},
"C72": {"status": "partial", "note": "Lifetime cost and days of storage; false for the levelised cost with a subsidy (C72_levelised_cost_depends_on_span)."},
"C73": {"status": "partial", "note": "Proved without a minimum output, and when switched off below the setpoint. False otherwise: raising forgets the electric heater, switching off above draws unbooked heat, draws up to 0.05 kWh below are ignored (C73_raise_forgets_heater, C73_off_draws_unbooked_heat, C73_small_draw_ignored)."},
"C74": {"status": "partial", "note": "Safe without overwrite, and with it when the workbook is outside the replaced directory. With overwrite a workbook kept in its own results directory is deleted before being read (C74_workbook_deleted)."},
"C75": {"status": "partial", "note": "An error and nothing written, in every history. The error is ValueError on one core and, without kill or timeout, on two; a slow worker turns it into SystemError (C75_slow_worker_masks)."},
"C76": {"status": "partial", "note": "False: the code indexes the temperatures with the position in the horizon, so hour 1 of the year always counts; proved that the temperatures of all other hours are ignored."},
"C77": {"status": "partial", "note": "Proved for electricity. False for heat: C77_heat_peak_exceeded."},
"C78": {"status": "proved", "note": "The standard profiles are a parameter; other numbers of bedrooms raise KeyError (C78_bedrooms)."},
"C79": {"status": "proved", "note": ""},
"C80": {"status": "partial", "note": "Proved for the farm; the helper functions always fail (C80_helpers_fail). windpowerlib's output is a parameter."},
"C81": {"status": "partial", "note": "At least the lowest COP in every run. Not at most the highest: electricity from the battery is not counted (C81_battery_not_counted)."},
"C82": {"status": "partial", "note": "Never negative for tariffs without wind farm; with one the formula is proved and the import for heat is that of the wrong hours when the run does not start at hour 0 (see C70)."},
"C83": {"status": "partial", "note": "The split of the bill is proved for runs with any prices (C83_bills_of_run) and for any results at one price (C83_bill_split). Partial because the first part fails with a battery: import that charges it is charged to heat (C83_battery_charged_to_heat)."},
"C84": {"status": "partial", "note": "Proved for an electric heater (with a boiler and a tank every run fails, C47_fuel_and_tank_fail), except that after a failed first attempt the hour starts from the tank of the start of the run (C84_failure_forgets_heat); plans that differ by at most 0.005 kWh move the tank at rest."},
"C85": {"status": "partial", "note": "Full years: every figure but 'operation'. Part-years: only from the start of the year; otherwise hour h shows hour first + h (C85_part_year_shifted). 'operation' of the two weeks is shifted too."},
"C86": {"status": "partial", "note": "For runs from the start of the year, in MWh. The axis says kWh (C86_axis_unit_wrong), and other runs show their energy in the wrong months (C86_part_year_in_january)."},
"C87": {"status": "partial", "note": "Heat, electric demand and generation stacks add up; usage omits battery charging (C87_usage_stack_omits_battery) and a shortfall of heat is drawn as 'Aux' (C87_shortfall_drawn_as_boiler). Proved of fixed order runs."},
"C88": {"status": "proved", "note": "C88_made gives a sufficient condition for the tables to be made; an RHI scheme not on the sheet makes the whole stage fail (C88_no_scheme_no_tables)."},
"C89": {"status": "partial", "note": "Proved for at least two sizes of heat pump and two of store. With one size of either the tables are written and the first chart raises (C89_one_dimension_fails)."},
"C90": {"status": "proved", "note": ""},
"C91": {"status": "partial", "note": "Proved for the battery, the thermal store, the heat pump, the heater, the grid and tariff, the table of grid services (read but never used), the turbines and the controller. False of the photovoltaic inverter: the one named on the sheet is replaced by a fixed one. The sizes and hours of a study are in C99, the horizon in C100."},
"C92": {"status": "proved", "note": "An equivalence, on the model of read_excel; the top row of each sheet is empty, as in the template."},
"C93": {"status": "proved", "note": ""},
"C94": {"status": "proved", "note": "Equivalences, C94_filled for the objects and C94_ready for the start of a run, entirely in cells and library results, for sheets of any size. The top row of each sheet is empty, as in the template, and nothing is written below the used range of the heat pump sheet."},
"C95": {"status": "proved", "note": "What the program does, stated as it is; a user would expect a message. See DESIGN.md section 3."},
"C96": {"status": "proved", "note": "For sheets of any size from which the objects can be made; those are the sheets of 19 used columns and at least 36 rows (C94_stray_column)."},
"C97": {"status": "proved", "note": "pvlib and windpowerlib are parameters. The columns handed to pvlib for temperature and wind have names it does not read, so they have no effect."},
"C98": {"status": "proved", "note": "For both controllers and for whole studies, including figures, tables and charts (C98_report). C98_unchanged is the full statement for one combination. The top row of each sheet is empty, as in the template, and nothing is written below the used range of the heat pump sheet."},
"C99": {"status": "partial", "note": "Proved for the fixed order controller. The program ends for every workbook (C99_always_ends); a study that can end without an exception does so on one core and on two in every schedule without kill and timeout (C99_any_cores); that it can is proved for studies without a thermal store and for runs whose orders never use it (C99_unused_store_partial: no openings, no minimum output). A store in use can stop the controller with an exception, see C30, C33 and C125; for one that never does see C126."}
}
