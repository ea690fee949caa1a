{"id": "C01", "title": "Battery state of charge stays inside the battery", "statement": "Starting from initial_state in [0,1], after any sequence of ElectricalStorage.new_soc calls the state of charge is between 0 and capacity.", "quantifier": "every battery with capacity >= 0, every finite history of net power matches (any sign and size)", "why_tests_cant": "The bound must hold after arbitrarily long histories of arbitrary real matches; a test samples a few.", "anchors": ["pylesa/storage/electrical_storage.py:ElectricalStorage.new_soc", "pylesa/storage/electrical_storage.py:ElectricalStorage.init_state"]}
{"id": "C02", "title": "Battery accepts the largest admissible charge", "statement": "ElectricalStorage.max_charging returns exactly the smallest of: the surplus offered (0 if there is no surplus), the charge rating, and the free capacity; so it never exceeds any of them and never refuses power it could accept.", "quantifier": "every battery with non-negative rating, every match, every soc", "why_tests_cant": "The claim is an equality over three real inputs with branch boundaries.", "anchors": ["pylesa/storage/electrical_storage.py:ElectricalStorage.max_charging"]}
{"id": "C03", "title": "Battery discharge respects rating and stored energy", "statement": "ElectricalStorage.max_discharging is never more (in magnitude) than discharge_max, and never more than the energy stored.", "quantifier": "every battery, every match, every soc", "why_tests_cant": "Needs all soc/match pairs, in particular an almost empty battery.", "anchors": ["pylesa/storage/electrical_storage.py:ElectricalStorage.max_discharging"]}
{"id": "C04", "title": "Battery loss and discharge reports return a value", "statement": "ElectricalStorage.discharging and total_losses return a number for every match and soc instead of raising.", "quantifier": "every battery, every match (charging, idle, discharging), every soc", "why_tests_cant": "A raise on one sign of the input is only seen if that branch is exercised.", "anchors": ["pylesa/storage/electrical_storage.py:ElectricalStorage.discharging", "pylesa/storage/electrical_storage.py:ElectricalStorage.total_losses"]}
{"id": "C05", "title": "Reported battery charging is the rise in state of charge", "statement": "ElectricalStorage.charging(match, soc) equals the increase of the state of charge produced by new_soc(match, soc), and is 0 when the state of charge does not rise.", "quantifier": "every battery, match and soc", "why_tests_cant": "The exceptional case (full battery) is one point of a continuum.", "anchors": ["pylesa/storage/electrical_storage.py:ElectricalStorage.charging"]}
{"id": "C06", "title": "Charging to capacity does not overfill", "statement": "ElectricalStorage.charge_to_capacity(soc) is at most charge_max, and adding it to soc does not exceed capacity.", "quantifier": "every battery, every soc in [0, capacity]", "why_tests_cant": "Depends on efficiency and self-discharge values jointly.", "anchors": ["pylesa/storage/electrical_storage.py:ElectricalStorage.charge_to_capacity"]}
{"id": "C07", "title": "An idle battery only self-discharges", "statement": "With no surplus and no deficit for n timesteps the state of charge is soc*(1-self_discharge)^n.", "quantifier": "every battery, every soc in [0, capacity], every n", "why_tests_cant": "Unbounded number of steps.", "anchors": ["pylesa/storage/electrical_storage.py:ElectricalStorage.new_soc", "pylesa/storage/electrical_storage.py:ElectricalStorage.self_loss"]}
{"id": "C08", "title": "Surplus/deficit split is exact", "statement": "At every hour generation - demand = surplus - deficit, both are non-negative, at most one is non-zero, RES_used + surplus = generation and RES_used + deficit = demand; the fixed-order and the predictive controller's versions agree; a series shorter or longer than 8760 hours is rejected.", "quantifier": "all hourly generation and demand series", "why_tests_cant": "Quantifies over all real series.", "anchors": ["pylesa/controllers/fixed_order.py:CheckFunctions.electrical_surplus_deficit", "pylesa/tools.py:CheckFunctions.electrical_surplus_deficit"]}
{"id": "C09", "title": "Monthly totals partition the year", "statement": "month_split puts every hour of an 8760-hour series in exactly one month, in order, with the calendar lengths of a 365-day year; the twelve sum_monthly values add up to the annual total in MWh; sum_year is their total, and mean_year the mean of the mean_monthly values weighted with the days of the months.", "quantifier": "every series of 8760 (or fewer) hourly values", "why_tests_cant": "All series.", "anchors": ["pylesa/tools.py:month_split", "pylesa/tools.py:sum_monthly", "pylesa/tools.py:mean_monthly", "pylesa/tools.py:sum_year", "pylesa/tools.py:mean_year"]}
{"id": "C10", "title": "Heat pump output obeys supply, demand and duty", "statement": "HeatPump.thermal_output never delivers more heat than demanded, than the duty, or than elec_supply*cop, delivers exactly the minimum of the three, and the electricity it reports times cop equals the heat.", "quantifier": "every heat pump with non-zero capacity, cop > 0, every supply, demand and duty", "why_tests_cant": "Real-valued inputs.", "anchors": ["pylesa/heat/heatpump.py:HeatPump.thermal_output"]}
{"id": "C11", "title": "Heat pump electricity use is consistent", "statement": "HeatPump.elec_usage(d)*cop = min(d, duty); it is monotone in the demand; and elec_usage of the heat reported by thermal_output is the electricity reported by thermal_output.", "quantifier": "every heat pump with non-zero capacity and cop > 0, every demand", "why_tests_cant": "Real-valued inputs.", "anchors": ["pylesa/heat/heatpump.py:HeatPump.elec_usage", "pylesa/heat/heatpump.py:HeatPump.thermal_output"]}
{"id": "C12", "title": "A heat pump of capacity zero is inert", "statement": "With capacity 0 the yearly performance has duty 0 at each of 8760 hours, elec_usage and thermal_output are 0, and a fixed-order timestep reports no heat pump heat or electricity for any order of processes.", "quantifier": "every order list, every timestep input", "why_tests_cant": "All orders and inputs.", "anchors": ["pylesa/heat/heatpump.py:HeatPump.performance", "pylesa/heat/heatpump.py:HeatPump.elec_usage", "pylesa/heat/heatpump.py:HeatPump.thermal_output", "pylesa/controllers/fixed_order.py:FixedOrder.above_setpoint"]}
{"id": "C13", "title": "Hourly performance covers exactly one year", "statement": "HeatPump.performance either raises or yields a PerformanceArray whose cop and duty both have 8760 entries; construction rejects temperature series of any other length, and PerformanceArray rejects arrays of unequal shape or more than one dimension.", "quantifier": "all input lengths and model choices", "why_tests_cant": "All lengths.", "anchors": ["pylesa/heat/heatpump.py:HeatPump._check_full_year", "pylesa/heat/heatpump.py:HeatPump.performance", "pylesa/heat/models/performance.py:PerformanceArray"]}
{"id": "C14", "title": "Heat pump construction accepts exactly the valid configurations", "statement": "Construction succeeds if and only if hp type, data input and model are valid, the model's own inputs are given and series are full-year; each failure raises the documented exception.", "quantifier": "all combinations of configuration values", "why_tests_cant": "Cross product of configuration options and arbitrary strings.", "anchors": ["pylesa/heat/heatpump.py:HeatPump.__init__", "pylesa/heat/heatpump.py:HeatPump.model"]}
{"id": "C15", "title": "Generic regression: efficiency falls as the lift grows", "statement": "For the generic regression, COP falls when flow temperature rises or ambient temperature falls, and a ground/water source pump has a higher COP than an air source pump at the same temperatures.", "quantifier": "all flow and ambient temperatures", "why_tests_cant": "A polynomial claim over all reals.", "anchors": ["pylesa/heat/models/generic_regression.py:GenericRegression.cop"]}
{"id": "C16", "title": "Lorentz model reproduces its specification point", "statement": "Lorentz.cop at the specification temperatures equals the specified COP; COP is lower for a higher flow temperature and higher for a higher source temperature; duty is min(capacity, cop_spec*elec_capacity).", "quantifier": "all specification points and temperatures in the physical range", "why_tests_cant": "Transcendental function over all reals.", "anchors": ["pylesa/heat/models/lorentz.py:Lorentz.cop", "pylesa/heat/models/lorentz.py:Lorentz.duty"]}
{"id": "C17", "title": "Standard test regression interpolates consistent data", "statement": "StandardTestRegression rejects inconsistently shaped data, and if the test data lie on a quadratic surface the model returns the measured values at the measured points, for cop and duty alike.", "quantifier": "all data sets of any size", "why_tests_cant": "All data sets.", "anchors": ["pylesa/heat/models/standard_regression.py:StandardTestRegression"]}
{"id": "C18", "title": "Electricity demand is balanced in each timestep", "statement": "In the fixed-order controller, RES used + battery to demand + import for demand + unmet = electricity demand, for every order of processes; nothing is left unmet when importing to demand is one of the processes.", "quantifier": "every order list without repeated processes (a repeated process overwrites its own report, proved as a counterexample), every timestep input", "why_tests_cant": "Permutations and sub-lists of up to 15 processes with real inputs.", "anchors": ["pylesa/controllers/fixed_order.py:FixedOrder.above_setpoint", "pylesa/controllers/fixed_order.py:FixedOrder.below_setpoint", "pylesa/controllers/fixed_order.py:FixedOrder.run_process"]}
{"id": "C19", "title": "Renewable surplus is spent at most once", "statement": "Surplus = heat pump use + electric heater use + battery charging + export + remainder, the remainder is never negative, and it is zero when exporting is one of the processes.", "quantifier": "every order list without repeated processes (a repeated process overwrites its own report, proved as a counterexample), every timestep input", "why_tests_cant": "As C18.", "anchors": ["pylesa/controllers/fixed_order.py:FixedOrder.run_process"]}
{"id": "C20", "title": "Heat demand is balanced in each timestep", "statement": "Heat pump + storage + auxiliary heat to demand + unmet = heat demand for every order; nothing is unmet when the auxiliary boiler is one of the processes.", "quantifier": "every order list without repeated processes (a repeated process overwrites its own report, proved as a counterexample), every timestep input", "why_tests_cant": "As C18.", "anchors": ["pylesa/controllers/fixed_order.py:FixedOrder.run_process"]}
{"id": "C21", "title": "No dispatch quantity is negative", "statement": "Every energy flow reported by a fixed-order timestep is non-negative.", "quantifier": "every order list, every timestep input", "why_tests_cant": "As C18; the failing orders are unusual.", "anchors": ["pylesa/controllers/fixed_order.py:FixedOrder.run_process"]}
{"id": "C22", "title": "The heat pump never exceeds its duty", "statement": "HP heat_total_output reported for a timestep is at most the duty for that hour.", "quantifier": "every order list, every timestep input", "why_tests_cant": "As C18.", "anchors": ["pylesa/controllers/fixed_order.py:FixedOrder.above_setpoint", "pylesa/controllers/fixed_order.py:FixedOrder.below_setpoint"]}
{"id": "C23", "title": "Battery discharge reported equals energy taken out", "statement": "The state of charge after a timestep is the state before plus reported charging minus reported discharging minus self-discharge, so reported discharge never exceeds discharge_max or stored energy.", "quantifier": "every order list, battery and timestep input", "why_tests_cant": "As C18.", "anchors": ["pylesa/controllers/fixed_order.py:FixedOrder.above_setpoint", "pylesa/storage/electrical_storage.py:ElectricalStorage.new_soc"]}
{"id": "C24", "title": "Grid totals and cash flow add up", "statement": "total_import is the sum of its reported parts (plus grid-fed electric heating), import_costs = total_import*price/1000, export_income = export*export price/1000, cashflow = income - costs.", "quantifier": "every order list, every timestep input, electric and fuelled auxiliary", "why_tests_cant": "As C18.", "anchors": ["pylesa/controllers/fixed_order.py:FixedOrder.above_setpoint", "pylesa/controllers/fixed_order.py:FixedOrder.below_setpoint"]}
{"id": "C25", "title": "Minimum heat pump output is enforced", "statement": "After a timestep the heat pump is off, or at or above its minimum output.", "quantifier": "every order list, tank, heat pump and timestep input", "why_tests_cant": "As C18; threshold boundaries.", "anchors": ["pylesa/controllers/fixed_order.py:FixedOrder.above_setpoint", "pylesa/controllers/fixed_order.py:FixedOrder.below_setpoint"]}
{"id": "C26", "title": "Minimum-output correction keeps the heat and electricity books balanced", "statement": "When the controller raises the heat pump to minimum output or switches it off, reported heat supply still covers the heat demand and reported grid import still contains all heat pump import.", "quantifier": "every order list and timestep input that triggers the correction", "why_tests_cant": "The correction triggers in a narrow band of inputs.", "anchors": ["pylesa/controllers/fixed_order.py:FixedOrder.above_setpoint", "pylesa/controllers/fixed_order.py:FixedOrder.below_setpoint"]}
{"id": "C27", "title": "A run yields one result per hour, chained through storage", "statement": "run_timesteps(first, n) yields exactly n results, result i is for hour first+i, starts from the storage state left by result i-1 (initial state for i=0), and a run past hour 8760 is rejected before any result.", "quantifier": "every first hour, every n, all inputs", "why_tests_cant": "All run lengths.", "anchors": ["pylesa/controllers/fixed_order.py:FixedOrder.run_timesteps"]}
{"id": "C28", "title": "Shorter runs are prefixes of longer runs", "statement": "The first m results of an n-hour run are the results of an m-hour run with the same inputs; results do not depend on later hours except through the yearly peak heat demand.", "quantifier": "every m <= n, all input series", "why_tests_cant": "All lengths and series.", "anchors": ["pylesa/controllers/fixed_order.py:FixedOrder.run_timesteps"]}
{"id": "C29", "title": "The price setpoint selects the order", "statement": "The above-setpoint order is used exactly when the import price exceeds the setpoint; process numbers outside 1..13 (above) or 1..15 (below) are rejected.", "quantifier": "every price, setpoint and order list", "why_tests_cant": "All orders.", "anchors": ["pylesa/controllers/fixed_order.py:FixedOrder.run_timesteps", "pylesa/controllers/fixed_order.py:FixedOrder.process_key"]}
{"id": "C30", "title": "Tank temperatures stay stratified with a fixed number of nodes", "statement": "After new_nodes_temp the node temperatures are sorted from top to bottom and there are as many as before; the number of internal steps is between 1 and the number of nodes.", "quantifier": "every tank, state and temperature profile", "why_tests_cant": "All profiles and step counts.", "anchors": ["pylesa/storage/hot_water_tank.py:HotWaterTank.new_nodes_temp"]}
{"id": "C31", "title": "Tank mixing conserves flow: no temperature outside its sources", "statement": "Ignoring wall losses, a charging or discharging step leaves every node between the smallest and largest of the previous node temperatures and the temperature of the incoming water.", "quantifier": "every stratified profile, node count, mass flow up to one node", "why_tests_cant": "All profiles.", "anchors": ["pylesa/storage/hot_water_tank.py:HotWaterTank.mixing_function", "pylesa/storage/hot_water_tank.py:HotWaterTank.set_of_coefficients"]}
{"id": "C32", "title": "A tank of capacity zero is inert", "statement": "With capacity 0 no energy can be stored or drawn and node temperatures do not change.", "quantifier": "all inputs", "why_tests_cant": "All inputs.", "anchors": ["pylesa/storage/hot_water_tank.py:HotWaterTank.max_energy_in_out", "pylesa/storage/hot_water_tank.py:HotWaterTank.new_nodes_temp"]}
{"id": "C33", "title": "A full tank takes no heat and a cold tank gives none", "statement": "max_energy_in_out is never negative; it is 0 for charging when the mean temperature is at or above the source and 0 for discharging when the mean is at or below the return temperature, or the top is not above the flow temperature.", "quantifier": "every profile with return <= flow <= source, all tanks", "why_tests_cant": "All profiles.", "anchors": ["pylesa/storage/hot_water_tank.py:HotWaterTank.max_energy_in_out"]}
{"id": "C34", "title": "An idle tank loses heat to the surroundings", "statement": "On standby with surroundings colder than every node no node gets warmer.", "quantifier": "every profile, tank geometry and openings", "why_tests_cant": "All profiles and geometries.", "anchors": ["pylesa/storage/hot_water_tank.py:HotWaterTank.coefficient_A", "pylesa/storage/hot_water_tank.py:HotWaterTank.coefficient_D"]}
{"id": "C35", "title": "Water property lookup is total on 0..100 degC", "statement": "specific_heat_water returns a value between 4178 and 4217 J/kgK for every numeric temperature in [0,100] and raises ValueError for every other numeric temperature.", "quantifier": "all temperatures", "why_tests_cant": "All reals.", "anchors": ["pylesa/storage/hot_water_tank.py:HotWaterTank.specific_heat_water"]}
{"id": "C36", "title": "Each tariff yields a price for each hour", "statement": "import_cost_series returns exactly 8760 prices for each of the six tariff choices.", "quantifier": "all tariff parameters", "why_tests_cant": "All parameters.", "anchors": ["pylesa/power/grid.py:Grid.import_cost_series"]}
{"id": "C37", "title": "Wholesale tariff is capped and adds the premium at 16-19h only", "statement": "The wholesale price is min(2.2*market + premium, maximum) for hours 16, 17, 18 of each day and min(2.2*market, maximum) otherwise, so never above maximum.", "quantifier": "all market series, premium and maximum, all hours", "why_tests_cant": "All hours and series.", "anchors": ["pylesa/power/grid.py:Grid.tou_wm_series"]}
{"id": "C38", "title": "Wind PPA adjustment", "statement": "For each PPA tariff the price is the base price minus the discount when farm power is at or above the higher band, plus the penalty when at or below the lower band, unchanged otherwise; the windier hour never pays more at equal base price.", "quantifier": "all power series, bands and adjustments", "why_tests_cant": "All series.", "anchors": ["pylesa/power/grid.py:Grid.flat_rates_wind", "pylesa/power/grid.py:Grid.variable_periods_wind", "pylesa/power/grid.py:Grid.tou_wm_wind_ppa"]}
{"id": "C39", "title": "Variable-period tariff follows the calendar", "statement": "Each hour's price is the price of that weekday and hour for the chosen year.", "quantifier": "every year and price table, all 8760 hours", "why_tests_cant": "All years.", "anchors": ["pylesa/power/grid.py:Grid.variable_periods_series"]}
{"id": "C40", "title": "The parametric study runs every size pair exactly once", "statement": "The folder names are in one-to-one correspondence with the pairs of heat pump and store sizes; no two pairs share a folder.", "quantifier": "all parameter ranges", "why_tests_cant": "All ranges.", "anchors": ["pylesa/parametric_analysis.py:Para.__init__"]}
{"id": "C41", "title": "Parametric ranges stay in the requested interval", "statement": "The sizes simulated start at the minimum, rise by the step, include the maximum and never exceed it, for heat pump and store.", "quantifier": "all min, max, step", "why_tests_cant": "All ranges, in particular steps that do not divide the interval and differing steps.", "anchors": ["pylesa/parametric_analysis.py:Para.__init__"]}
{"id": "C42", "title": "Each combination's inputs differ from the base only in size", "statement": "The pickle written for a combination has the combination's heat pump and store capacity, duties scaled by the capacity ratio, everything else as in the base inputs, independently of other combinations.", "quantifier": "all base inputs and combinations", "why_tests_cant": "All inputs.", "anchors": ["pylesa/parametric_analysis.py:Para.create_pickles"]}
{"id": "C43", "title": "KPI stage reads exactly the combinations that were run", "statement": "The KPI stage enumerates the same folder names in the same order as the parametric stage, and recovers the heat pump and store size from the folder name.", "quantifier": "all parameter ranges with non-negative sizes", "why_tests_cant": "All sizes (string round trip).", "anchors": ["pylesa/io/outputs.py:ThreeDPlots.__init__", "pylesa/io/outputs.py:Calcs.capital_cost", "pylesa/parametric_analysis.py:Para.__init__"]}
{"id": "C44", "title": "Self-consumption is a percentage", "statement": "RES_self_consumption is 100*(1 - export/generation), lies in [0,100] for results of a fixed-order run, and is 0 without generation.", "quantifier": "all result lists", "why_tests_cant": "All runs.", "anchors": ["pylesa/io/outputs.py:Calcs.RES_self_consumption"]}
{"id": "C45", "title": "Tiered subsidy income is continuous and monotone", "statement": "RHI_income pays tier 1 up to 1314 h of capacity and tier 2 beyond, is monotone in eligible heat for non-negative tariffs, and total = yearly * 7 (domestic) or 20.", "quantifier": "all eligible heat, tariffs and sizes", "why_tests_cant": "All reals.", "anchors": ["pylesa/io/outputs.py:Calcs.RHI_income"]}
{"id": "C46", "title": "Cost indicators use the same running cost", "statement": "operating_cost, lifetime_cost and levelised_cost_of_energy charge the same yearly running cost for the same results; a levelised cost without a demand to spread it over is no number, and not a cost of zero.", "quantifier": "all result lists, electric and fuelled auxiliary", "why_tests_cant": "Unit errors only show for fuelled auxiliary with cost > 0.", "anchors": ["pylesa/io/outputs.py:Calcs.operating_cost", "pylesa/io/outputs.py:Calcs.lifetime_cost", "pylesa/io/outputs.py:Calcs.levelised_cost_of_energy", "pylesa/io/outputs.py:Calcs.levelised_cost_of_heat"]}
{"id": "C47", "title": "Predictive control yields one result per hour", "statement": "moving_horizon(first, n) yields n results, result i describing hour first+i.", "quantifier": "all first hours, n and horizons, any solver behaviour", "why_tests_cant": "All lengths and positions in the year.", "anchors": ["pylesa/controllers/mpc.py:Scheduler.moving_horizon"]}
{"id": "C48", "title": "Predictive pre-calculation never indexes out of range", "statement": "pre_calculation succeeds for every first hour, timesteps with first+timesteps <= 8760 and horizon >= 2.", "quantifier": "all first hours, timesteps and horizons", "why_tests_cant": "A narrow band near the end of the year.", "anchors": ["pylesa/controllers/mpc.py:Scheduler.pre_calculation"]}
{"id": "C49", "title": "Predictive dispatch satisfies the balances", "statement": "Whenever the solver returns a point satisfying the posted equations, reported electricity, heat and renewable flows balance in the reported hour.", "quantifier": "all solver answers satisfying the constraints", "why_tests_cant": "All feasible points.", "anchors": ["pylesa/controllers/mpc.py:Scheduler.solve"]}
{"id": "C50", "title": "Submitted output jobs run once each, in order", "statement": "Jobs submitted to OutputProcess between start and stop are executed exactly once in submission order before stop returns, whatever the interleaving of parent and worker.", "quantifier": "all job lists and interleavings", "why_tests_cant": "Schedules.", "anchors": ["pylesa/mp/process.py:OutputProcess"]}
{"id": "C51", "title": "A failing job is reported", "statement": "If a job raises, stop raises SystemError, no later job runs, and the process is not alive afterwards.", "quantifier": "all job lists, failing positions and interleavings", "why_tests_cant": "Schedules.", "anchors": ["pylesa/mp/process.py:OutputProcess.stop", "pylesa/mp/process.py:OutputProcess._run_job"]}
{"id": "C52", "title": "Cancel drops pending jobs and a restart begins clean", "statement": "After cancel, jobs not yet started do not run, and a restarted process only runs jobs submitted after the restart.", "quantifier": "all histories of start, submit, stop, cancel", "why_tests_cant": "Histories.", "anchors": ["pylesa/mp/process.py:OutputProcess.cancel", "pylesa/mp/process.py:OutputProcess.start"]}
{"id": "C53", "title": "Existing results are never overwritten unless asked", "statement": "main with an existing output directory and no overwrite flag raises FileExistsError and changes nothing on disk; with the flag, only that directory is replaced.", "quantifier": "all file system states and arguments", "why_tests_cant": "All states.", "anchors": ["pylesa/main.py:main"]}
{"id": "C54", "title": "Single and two-core runs produce the same results", "statement": "For the same inputs, main with and without singlecore solves the same combinations and makes the same plots and KPIs; an error in a solve surfaces in both.", "quantifier": "all combination lists, failing positions and interleavings", "why_tests_cant": "Schedules.", "anchors": ["pylesa/main.py:main", "pylesa/mp/process.py:OutputProcess"]}
{"id": "C55", "title": "Enum text round trip", "statement": "Each heat pump type, model name, data input and fuel is recovered from its text by from_value, `in` accepts exactly these texts, and any other text raises KeyError.", "quantifier": "all strings", "why_tests_cant": "All strings.", "anchors": ["pylesa/heat/enums.py:SingleTypeCheck"]}
{"id": "C56", "title": "Auxiliary fuel handling", "statement": "Aux accepts exactly the known fuels, rejects others with ValueError, raises KeyError if fuel data are missing, and needs no data for electricity; fuel_usage*efficiency = demand.", "quantifier": "all fuels, fuel tables, demands", "why_tests_cant": "All inputs.", "anchors": ["pylesa/heat/auxiliary.py:Aux"]}
{"id": "C57", "title": "Controller order text round trip", "statement": "An order written as comma separated process numbers is read back as the same list of numbers.", "quantifier": "all order lists", "why_tests_cant": "All lists.", "anchors": ["pylesa/io/read_excel.py"]}
{"id": "C58", "title": "Season and day-type classification is total", "statement": "Each hour of the year belongs to exactly one season class, with the documented boundaries.", "quantifier": "all hours", "why_tests_cant": "8760 hours.", "anchors": ["pylesa/demand/electricity_demand.py"]}
{"id": "C59", "title": "Solar output is never negative and uses the right month factor", "statement": "PV output is zero without panels, never negative when correction factors are non-negative, and the correction index is in range for every hour.", "quantifier": "all hours and weather series", "why_tests_cant": "All series.", "anchors": ["pylesa/power/renewables.py:PV.power_output"]}
{"id": "C60", "title": "A predicted demand profile has the length of the original", "statement": "predicted_demand returns as many values as the historical profile it is built from.", "quantifier": "all profiles", "why_tests_cant": "All lengths.", "anchors": ["pylesa/demand/electricity_demand.py", "pylesa/demand/heat_demand.py"]}
{"id": "C61", "title": "A flow reported under two headings is reported equal", "statement": "Before the minimum-output correction, each energy flow that appears in two result groups (battery to demand, battery to heat pump, renewables to heat pump, heat pump to demand, heat pump to store, store to demand, heater to store) has the same value in both.", "quantifier": "every order list without repeats, every timestep input", "why_tests_cant": "As C18.", "anchors": ["pylesa/controllers/fixed_order.py:FixedOrder.run_process", "pylesa/controllers/fixed_order.py:FixedOrder.above_setpoint", "pylesa/controllers/fixed_order.py:FixedOrder.below_setpoint"]}
{"id": "C62", "title": "The thermal store is asked for no more than it offers", "statement": "Net charging in a timestep is at most the energy the tank can take, net discharging at most the energy it can give.", "quantifier": "every order list without repeats, every tank and timestep input", "why_tests_cant": "As C18.", "anchors": ["pylesa/controllers/fixed_order.py:FixedOrder.run_process", "pylesa/controllers/fixed_order.py:FixedOrder.HP_RES_to_TS", "pylesa/controllers/fixed_order.py:FixedOrder.TS_to_demand"]}
{"id": "C63", "title": "Heat pump heat is COP times electricity", "statement": "For each heat pump flow reported by a timestep, heat = COP * electricity of that flow, also after the minimum-output correction.", "quantifier": "every order list without repeats, every timestep input", "why_tests_cant": "As C18.", "anchors": ["pylesa/controllers/fixed_order.py:FixedOrder.run_process", "pylesa/controllers/fixed_order.py:FixedOrder.HP_import_to_TS", "pylesa/heat/heatpump.py:HeatPump.elec_usage"]}
{"id": "C64", "title": "Balance checks are sound within their tolerance", "statement": "heat_demand_check answers 'met' only if supply and demand differ by at most 0.06 kWh, 'not met' only if supply falls short, and stops the program only if supply exceeds demand; surplus_check and deficit_check likewise within 0.015 kWh; the two copies differ only in stopping versus returning nothing.", "quantifier": "all demands and supplies", "why_tests_cant": "The answer depends on three nested roundings whose errors add up; only a proof covers every combination.", "anchors": ["pylesa/tools.py:CheckFunctions.heat_demand_check", "pylesa/controllers/fixed_order.py:CheckFunctions.heat_demand_check", "pylesa/controllers/fixed_order.py:CheckFunctions.surplus_check", "pylesa/controllers/fixed_order.py:CheckFunctions.deficit_check"]}
{"id": "C65", "title": "Every modelling approach the input sheet offers can be run", "statement": "For each modelling approach the sheet accepts (simple, Lorentz, generic regression, standard test regression), a sheet with complete hourly data yields a year of heat pump performance.", "quantifier": "every modelling approach, all complete input sheets", "why_tests_cant": "The failures depend on the kind of container each temperature arrives in; a test fixture passes whatever container makes it work.", "anchors": ["pylesa/initialise_classes.py:init", "pylesa/heat/heatpump.py:HeatPump.performance", "pylesa/io/inputs.py:Inputs.demands"]}
{"id": "C66", "title": "Tank heat content follows the heat that flows", "statement": "Ignoring wall losses, an internal step of the tank changes its heat content (node mass times the sum of node temperatures) by exactly the heat the source delivers less the heat the network takes, as long as that fits in one node.", "quantifier": "every stratified profile, node count, and pair of source output and network demand", "why_tests_cant": "Heat conservation has to hold for every profile, including profiles with equal neighbouring temperatures, which a few sample profiles do not show.", "anchors": ["pylesa/storage/hot_water_tank.py: new_nodes_temp, set_of_coefficients, mixing_function"]}
{"id": "C67", "title": "Tank geometry matches its capacity", "statement": "The computed width and height enclose exactly the given capacity, and the heat losses computed from them are non-negative and use the tank's own radii.", "quantifier": "every positive capacity, non-negative correction factors and openings", "why_tests_cant": "The relation is between real functions with a cube root and pi; a test can only compare rounded values for a few capacities.", "anchors": ["pylesa/storage/hot_water_tank.py: __init__, internal_radius, coefficient_A, connection_losses"]}
{"id": "C68", "title": "Auxiliary heating is booked consistently", "statement": "The heat, fuel, fuel mass and bill reported for the auxiliary in an hour describe the same amount: the fuel is the heat over the efficiency and the bill pays for that fuel.", "quantifier": "every timestep, order and auxiliary (electric or fuelled), heat pump switched off or not", "why_tests_cant": "The four figures are written in separate places and only disagree for efficiencies other than 1 or in hours in which the heat pump is switched off.", "anchors": ["pylesa/controllers/fixed_order.py: FixedOrder.run_timesteps, FixedOrder.run_process, FixedOrder.aux_to_demand", "pylesa/heat/auxiliary.py: Aux.fuel_usage"]}
{"id": "C69", "title": "Renewable shares are percentages", "statement": "The reported shares of demand, of heat and of heat pump output met by renewables lie between 0 and 100.", "quantifier": "every fixed-order run, tariff and auxiliary", "why_tests_cant": "The shares combine sums over a whole run; exceeding 100 needs storage across the end of a run or a switched-off heat pump.", "anchors": ["pylesa/io/outputs.py: Calcs.demand_met_RES, heat_met_RES, HP_met_RES"]}
{"id": "C70", "title": "Grid renewables are counted in windy hours", "statement": "Imported electricity counts as renewable exactly in the simulated hours in which the wind farm of the tariff yields at least its higher band.", "quantifier": "every run, first hour and wind farm tariff", "why_tests_cant": "Only runs that do not start at hour 0 reveal a shifted index.", "anchors": ["pylesa/io/outputs.py: Calcs.total_RES_used, grid_RES_used, heat_from_grid_RES"]}
{"id": "C71", "title": "Capital cost grows with size", "statement": "The capital cost is non-negative, grows with the heat pump and with the store, each cubic metre of a larger store is cheaper, and it uses the sizes of the combination.", "quantifier": "all sizes", "why_tests_cant": "Power law over all reals.", "anchors": ["pylesa/io/outputs.py: Calcs.capital_cost, ts_calc"]}
{"id": "C72", "title": "Yearly indicators do not depend on the simulated span", "statement": "Lifetime cost, levelised cost of heat and days of storage are the same whether a periodic year is simulated over one period or several.", "quantifier": "all results and numbers of repetitions", "why_tests_cant": "Requires comparing runs of all lengths.", "anchors": ["pylesa/io/outputs.py: Calcs.lifetime_cost, levelised_cost_of_heat, days_storage_content"]}
{"id": "C73", "title": "The store receives the heat the controller books", "statement": "In every hour the tank is charged, discharged or left idle according to the net heat booked for it, and the heat produced less the heat delivered, which moves its temperatures, is the heat booked in less the heat booked out.", "quantifier": "every timestep, order and tank, heat pump raised to minimum output, switched off or neither", "why_tests_cant": "Books and tank are updated in separate code; they only diverge in correction hours or for small amounts.", "anchors": ["pylesa/controllers/fixed_order.py: FixedOrder.above_setpoint, below_setpoint", "pylesa/storage/hot_water_tank.py: HotWaterTank.new_nodes_temp"]}
{"id": "C74", "title": "The workbook is never lost", "statement": "However a run ends, the Excel workbook it was given is still there, unchanged, afterwards.", "quantifier": "all file systems, arguments and points at which the run is stopped", "why_tests_cant": "All file system states and crash points.", "anchors": ["pylesa/main.py:main", "pylesa/io/read_excel.py:XlsxInput"]}
{"id": "C75", "title": "An unknown controller is refused", "statement": "A controller name other than the two known ones ends the run with ValueError, with no results and no figures written, on one core and on two.", "quantifier": "all controllers, combinations and interleavings", "why_tests_cant": "Schedules.", "anchors": ["pylesa/main.py:run_solver", "pylesa/main.py:main"]}
{"id": "C76", "title": "Predictive control uses the temperatures of the hour", "statement": "The tank in the predictive controller is charged and discharged at the network temperatures of the hour that is solved.", "quantifier": "all hours, network temperature series and optimiser answers", "why_tests_cant": "Constant test temperatures hide it.", "anchors": ["pylesa/controllers/mpc.py:Scheduler.solve"]}
{"id": "C77", "title": "Smoothing does not raise the peak", "statement": "The predicted (diversified) profile has no negative value and no value above the highest of the profile it is made from.", "quantifier": "all profiles of non-negative demands", "why_tests_cant": "All profiles; the violation needs the peak in the first hours.", "anchors": ["pylesa/demand/electricity_demand.py:predicted_demand", "pylesa/demand/heat_demand.py:predicted_demand"]}
{"id": "C78", "title": "Every temperature has a heat profile", "statement": "With complete standard profiles and one to five bedrooms the heat demand is computed whatever the air temperatures, has 8760 values, and each is the sum over the house groups of the scaled standard value for that hour of day and that day's mean temperature, plus hot water.", "quantifier": "all temperature series, standard profiles and lists of house groups", "why_tests_cant": "All temperatures, extreme ones included.", "anchors": ["pylesa/demand/heat_demand.py:profiles_from_inputs", "pylesa/demand/heat_demand.py:aggregate", "pylesa/demand/heat_demand.py:hot_water_addition"]}
{"id": "C79", "title": "Demand adds up over houses", "statement": "The demand of two settlements together is the sum of their demands, proportional to the number of houses, and never negative.", "quantifier": "all house groups, weather and standard profiles", "why_tests_cant": "All lists of groups.", "anchors": ["pylesa/demand/heat_demand.py:aggregate", "pylesa/demand/electricity_demand.py:profile_from_input"]}
{"id": "C80", "title": "Wind output counts every turbine and is never negative", "statement": "The power of a wind farm is the number of turbines times one turbine's power times the corrections, and never negative; the module's helper functions return it.", "quantifier": "all weather series and farms", "why_tests_cant": "All series.", "anchors": ["pylesa/power/renewables.py:Windturbine"]}
{"id": "C81", "title": "Seasonal efficiency lies between the hourly ones", "statement": "Size ratio, utilisation and seasonal efficiency are the ratios of the amounts over all hours of the run, and the seasonal efficiency lies between the lowest and the highest hourly COP.", "quantifier": "all runs and results", "why_tests_cant": "All runs; the violation needs a battery-driven heat pump.", "anchors": ["pylesa/io/outputs.py: Calcs.calc_scop, HP_size_ratio, HP_utilisation, max_heat_pump_output"]}
{"id": "C82", "title": "Renewable energy for heat adds up", "statement": "The renewable electricity used for heat is the import for heat in windy hours and the local generation neither sold nor used for other demand; it is never negative, and the renewable heat of the heat pump never exceeds its heat.", "quantifier": "all runs", "why_tests_cant": "All runs.", "anchors": ["pylesa/io/outputs.py: Calcs.heat_total_RES_used, HP_total_RES_used, heat_grid_RES_used"]}
{"id": "C83", "title": "Costs of heat and electricity add up", "statement": "The cost of heat is what the import and the fuel for heat cost less the subsidy, per kWh of heat made; it and the cost of the electric demand make up the cost of all import; the cost of electricity is the operating cost without fuel.", "quantifier": "all runs and results", "why_tests_cant": "All results.", "anchors": ["pylesa/io/outputs.py: Calcs.cost_of_heat, cost_elec, operating_cost, sum_ed_import"]}
{"id": "C84", "title": "The predicted tank moves by what is reported", "statement": "Under predictive control every hour starts from the tank the hour before left; the tank is moved by exactly the heat it is reported to take in and give out, which is the optimiser's plan cut to what the tank offers; without a tank its temperatures never change.", "quantifier": "all runs, tanks and optimiser answers", "why_tests_cant": "All histories of answers, failed attempts included.", "anchors": ["pylesa/controllers/mpc.py:Scheduler.solve", "pylesa/controllers/mpc.py:Scheduler.moving_horizon"]}
{"id": "C85", "title": "Figures show the hours they are labelled with", "statement": "Each curve of each figure of a run shows the quantity its legend names, at the hour of the year marked on its axis, and the figures cover the whole run (for a year also a week of winter and a week of summer). Drawing succeeds for every run with results.", "quantifier": "all runs: any start, any length, any results", "why_tests_cant": "All starts, lengths and hours.", "anchors": ["pylesa/io/outputs.py: run_plots, Plot"]}
{"id": "C86", "title": "Monthly bars are monthly energy", "statement": "In the bar charts of generation the bar of a month is the energy generated in that month, in the unit of the axis; the bars add up to the total in the title, which is the energy of the run.", "quantifier": "all runs and results, all months", "why_tests_cant": "All results and starts.", "anchors": ["pylesa/io/outputs.py: Plot.RES_bar", "pylesa/tools.py: sum_monthly"]}
{"id": "C87", "title": "Stacked figures add up", "statement": "In each stacked figure the parts shown at an hour add up to the quantity the figure is about: heat demand, electric demand, generation, use of generation, output and electricity of the heat pump; every part is the flow its legend names.", "quantifier": "all runs, all hours", "why_tests_cant": "All histories of results.", "anchors": ["pylesa/io/outputs.py: Plot.elec_demand_and_RES, Plot.HP_and_heat_demand, Plot.RES_bar"]}
{"id": "C88", "title": "KPI tables: every row its own combination, every column its own indicator", "statement": "The three tables of a study have one row per combination of sizes, in the order of the study; in each row, under each column name, stands the indicator of that name of the results and inputs of that combination.", "quantifier": "all studies, all results", "why_tests_cant": "All numbers of combinations, all results.", "anchors": ["pylesa/io/outputs.py: ThreeDPlots.__init__, ThreeDPlots.KPIs_to_csv"]}
{"id": "C89", "title": "The KPI stage completes", "statement": "For a study whose runs have all finished, the KPI stage writes the three tables (as pickle and csv) and the eight charts, and ends without an exception.", "quantifier": "all studies, including studies of one size", "why_tests_cant": "All ranges of sizes and all results.", "anchors": ["pylesa/io/outputs.py: run_KPIs, ThreeDPlots"]}
{"id": "C90", "title": "Surface charts show each combination at its sizes", "statement": "Each surface chart of a study has one point per combination of sizes; on the axes labelled with the sizes it has that combination's sizes, and its height is the indicator the chart is labelled with, of that combination's own results.", "quantifier": "all studies, all results", "why_tests_cant": "All numbers of combinations, all results.", "anchors": ["pylesa/io/outputs.py: ThreeDPlots.plot_opex, plot_RES, plot_heat_from_RES, plot_HP_size_ratio, plot_HP_utilisation, plot_capital_cost, plot_COH, plot_LCOH"]}
{"id": "C91", "title": "Every parameter is the cell it is labelled with", "statement": "For every combination of a study, each parameter the battery, the thermal store, the heat pump, the auxiliary heater, the grid, the turbines, the photovoltaic system and the controller are run with is the entry of the workbook cell labelled with it; the two sizes are those of the combination. The entries of the table of grid services are found under the names of the service and of the entry exactly if their row is filled.", "quantifier": "all workbooks, sheets of any size, all sizes of the combination", "why_tests_cant": "The position of every cell is fixed by chains of dropped rows, dropped columns, transpositions and renamings; a test reads one workbook, the claim is about all contents and all extents of the sheets.", "anchors": ["pylesa/io/read_excel.py: XlsxInput", "pylesa/io/inputs.py: Inputs", "pylesa/parametric_analysis.py: Para.create_pickles", "pylesa/initialise_classes.py: init"]}
{"id": "C92", "title": "Which workbooks can be read", "statement": "Reading a workbook with the template's layout succeeds exactly if all thirteen sheets are there, each is used as far as the template, the two orders of processes are lists of whole numbers and the four fuels named are known.", "quantifier": "all workbooks with empty top rows", "why_tests_cant": "The claim covers all contents of all cells and all extents of thirteen sheets.", "anchors": ["pylesa/io/read_excel.py: read_inputs, XlsxInput"]}
{"id": "C93", "title": "Hourly series are the rows of their sheet, in order", "statement": "Hour t of each demand series and each temperature series is the entry in row 6+t of its column, for every hour; no row is skipped, repeated or taken from another column. The heat pump accepts only series of a year.", "quantifier": "all workbooks with the template's layout, all sizes, all hours", "why_tests_cant": "8760 hours of six columns for every workbook.", "anchors": ["pylesa/io/read_excel.py: XlsxInput.demand_input, XlsxInput.resources", "pylesa/io/inputs.py: demands, weather", "pylesa/initialise_classes.py: init"]}
{"id": "C96", "title": "Test points of the heat pump", "statement": "A heat pump described by test data is given exactly the points of the filled rows of the four tables, each with its table's flow temperature, the duty scaled by the ratio of the size of the combination to the capacity on the sheet; a table of more than eight rows gets its flow temperature in the first eight only.", "quantifier": "all workbooks, sheets of any size, all sizes of the combination, all ways of leaving rows empty", "why_tests_cant": "All subsets of filled rows of four tables, all numbers.", "anchors": ["pylesa/io/read_excel.py: XlsxInput.heat_pump", "pylesa/io/inputs.py: heatpump_standard_regression", "pylesa/parametric_analysis.py: Para.create_pickles"]}
{"id": "C94", "title": "Which workbooks the simulation can start from", "statement": "Once the sheets are read, the battery, tank, heat pump, turbines, panels, heater and grid of a combination can be made exactly if a listed set of cells is filled in as required: a year of temperatures, a complete row for the battery, turbines and panels, numbers for the tank and for the chosen heat pump model, a known fuel and tariff with the prices that tariff uses. Nothing else in the workbook can stop it, and the sizes of the combination do not matter.", "quantifier": "all workbooks, sheets of any size, all sizes of the combination", "why_tests_cant": "An equivalence over all contents of thirteen sheets.", "anchors": ["pylesa/initialise_classes.py: init", "pylesa/io/inputs.py", "pylesa/parametric_analysis.py: Para.create_pickles"]}
{"id": "C99", "title": "A whole study, from the workbook to the results", "statement": "When the program ends without an error for a workbook with the fixed order controller, on one core or several, then every combination of the sizes written in the workbook has results, nothing else has, and each reported hour holds the demand of that hour's row, balanced electricity, no more renewable power than generated, no negative flow, a battery charge within the capacity of its row, layers of the store sorted by temperature, and costs at the prices written. If the workbook cannot be read, or the ranges are not whole numbers or empty, the program stops before the first combination.", "quantifier": "all workbooks, all outputs of the libraries, all schedules of the worker processes", "why_tests_cant": "All contents of thirteen sheets, all hours, all interleavings, and every branch of the controller.", "anchors": ["pylesa/main.py: main", "pylesa/io/read_excel.py", "pylesa/parametric_analysis.py", "pylesa/initialise_classes.py", "pylesa/controllers/fixed_order.py"]}
{"id": "C97", "title": "Which weather the panels and turbines see", "statement": "The power of the panels and turbines of a run is what the photovoltaic and wind libraries compute from the entries of the workbook's weather sheet, hour by hour and column by column: the three irradiances (with no gap) for the panels, wind speeds, roughness, pressure and air temperature for the turbines, and for a wind farm the same columns of the wind farm sheet. No panels or no turbines means no power at all. The panels never see the site's temperature or wind.", "quantifier": "all workbooks from which a run starts, all sizes, all library results", "why_tests_cant": "All contents of two sheets of 8760 rows, including missing entries and columns that get dropped.", "anchors": ["pylesa/environment/weather.py: Weather.PV, Weather.wind_turbine", "pylesa/power/renewables.py: PV, Windturbine", "pylesa/power/grid.py: Grid"]}
{"id": "C98", "title": "The results depend on the listed cells only", "statement": "Two workbooks that agree on a listed set of cells give the same results in every hour of every combination, and one of them can be simulated exactly if the other can: the demand generation sheet, the air density, the name of the inverter, altitude and surface type, the written height, width and insulation thickness of the store, balancing prices, grid services and heat incentives have no effect.", "quantifier": "all pairs of readable workbooks that agree on the listed cells, sheets of any size, all sizes of the combination", "why_tests_cant": "A statement about all pairs of workbooks: no effect can only be observed by a test for the edits that are tried.", "anchors": ["pylesa/io/inputs.py", "pylesa/initialise_classes.py: init", "pylesa/controllers/fixed_order.py: FixedOrder.run_timesteps"]}
{"id": "C95", "title": "A missing entry in the tables of battery, panels and turbines", "statement": "Of the tables of batteries, panels, sites and turbines a run uses the first row that has an entry in every used column of the sheet. Rows with a gap are passed over without a message, whatever they say. If no row is complete, as after one stray entry to the right of the table, no combination can be simulated.", "quantifier": "all workbooks, sheets of any size, all sizes of the combination", "why_tests_cant": "Depends on which cells of a whole sheet are empty.", "anchors": ["pylesa/io/inputs.py: Inputs.electrical_storage, Inputs.PV_model, Inputs.windturbine_user, Inputs.windturbine_database", "pylesa/io/read_excel.py", "pylesa/initialise_classes.py: init"]}
{"id": "C100", "title": "A study with the predictive controller", "statement": "With 'Model predictive control' in the controller sheet, a study that ends without an error has, for every combination of sizes, one result for each hour asked for, about the demands of that hour in the workbook. After the first hour electricity and renewables balance, the heat pump stays within its duty, the battery within its capacity, and imports and exports are priced as written. A study without a store ends if the optimiser answers and hours and horizon fit into the year; a horizon of one hour, a first hour in the last two of the year, a store with a fuel heater, or an end of the run in a certain band before the end of the year stop it whatever the optimiser answers.", "quantifier": "all workbooks with empty top rows, all optimisers that respect what is posted to them, all sizes, hours and horizons", "why_tests_cant": "Ranges over all workbooks and all answers of an optimiser that is not part of the program.", "anchors": ["pylesa/main.py: main, run_solver", "pylesa/controllers/mpc.py: Scheduler", "pylesa/io/inputs.py: Inputs.controller"]}
{"id": "C101", "title": "The figures and tables of a study are about its workbook", "statement": "Every KPI table a study writes has one row per combination of the ranges in the workbook, in order, and every chart one point per combination; the entries are the named indicators of the results that the chosen controller gives for that combination, with the hours, heater, heat incentive, tariff and wind farm of the workbook. The figures of a combination show its results for the hours in the workbook. If the heat incentive is filled in and sizes are not negative, six tables are written, and eight charts follow exactly if there are two sizes of heat pump and two of store; otherwise the programme ends with an exception. With an unknown incentive scheme or tariff no table is written at all.", "quantifier": "all workbooks with empty top rows, all answers of the libraries and the optimiser, all combinations, both controllers", "why_tests_cant": "Ranges over all workbooks, library answers and runs.", "anchors": ["pylesa/main.py: main", "pylesa/io/outputs.py: run_plots, run_KPIs, Calcs, ThreeDPlots, Plot", "pylesa/io/inputs.py: Inputs", "pylesa/parametric_analysis.py: Para"]}
{"id": "C102", "title": "Without stores more generation never costs more", "statement": "For a system without battery and thermal store, adding wind or solar power or lowering the electric demand in some hours, everything else the same, never raises the import and never lowers the export of any hour of a fixed order run; if prices are not negative no hour's cash flow falls, and the same holds for the sums over the span simulated. This holds for every order of the processes (each listed at most once), on both sides of the setpoint and for every minimum output of the heat pump.", "quantifier": "all pairs of runs that differ in generation and electric demand as said, all plants without stores, all orders without repetition, all spans", "why_tests_cant": "Compares two runs for every pair of profiles; a test compares one pair.", "anchors": ["pylesa/controllers/fixed_order.py: FixedOrder.run_timesteps, FixedOrder.above_setpoint, FixedOrder.below_setpoint, FixedOrder.run_process", "pylesa/controllers/fixed_order.py: CheckFunctions.electrical_surplus_deficit"]}
{"id": "C103", "title": "Without stores every hour stands alone", "statement": "For a system without battery and thermal store, what a fixed order run reports for an hour depends only on the plant and the data of that hour: two runs of the same plant, with other hours different and starting at different times, report the same for an hour with the same data.", "quantifier": "all pairs of runs of a plant without stores, all starting hours and lengths, all hours in both", "why_tests_cant": "Ranges over all histories before the hour.", "anchors": ["pylesa/controllers/fixed_order.py: FixedOrder.run_timesteps, FixedOrder.above_setpoint, FixedOrder.below_setpoint, FixedOrder.run_process"]}
{"id": "C104", "title": "Prices move money, not energy", "statement": "Changing import prices, the export price or the fuel price, without moving the import price of any hour across the setpoint, changes no energy flow, no state of charge and no tank temperature in any hour of a fixed order run, nor whether the run finishes. Stating all prices and the setpoint in another currency converts every price and amount of money in the results and changes nothing else.", "quantifier": "all pairs of runs that differ in prices as said, all plants and orders, all spans, finishing or not", "why_tests_cant": "Compares two runs for every pair of price series.", "anchors": ["pylesa/controllers/fixed_order.py: FixedOrder.run_timesteps, FixedOrder.above_setpoint, FixedOrder.below_setpoint, FixedOrder.run_process"]}
{"id": "C105", "title": "A system k times as large has k times the flows", "statement": "Multiplying demands, generation, the heat pump's duty and the battery by k multiplies every energy flow, state of charge and amount of money of every hour by k, and the run finishes exactly if the original does.", "quantifier": "all k > 0, all runs and spans", "why_tests_cant": "Compares two runs for every system and factor.", "anchors": ["pylesa/controllers/fixed_order.py: FixedOrder.run_timesteps, FixedOrder.above_setpoint, FixedOrder.below_setpoint, FixedOrder.run_process", "pylesa/storage/electrical_storage.py: ElectricalStorage"]}
{"id": "C106", "title": "The controller computes with floats", "statement": "The fixed order controller with every sum, difference, product and quotient rounded as a Python float is, when nothing is rounded, the controller of the other properties. Every number such a run reports is a float if the numbers it is given are. Rounding to floats returns the closest float, the one with the even last digit halfway between two, keeps order, signs and what is already a float, and errs by at most one part in 2^53 of the result (half the smallest positive float next to zero).", "quantifier": "all runs; all numbers that do not overflow", "why_tests_cant": "Says what the rounded program is for every input; a test sees single numbers.", "anchors": ["pylesa/controllers/fixed_order.py: FixedOrder.run_timesteps, FixedOrder.run_process, FixedOrder.above_setpoint, FixedOrder.below_setpoint, FixedOrder.electrical_surplus_deficit"]}
{"id": "C107", "title": "Rounding never takes the battery out of its range", "statement": "However arithmetic is rounded, the state of charge reported in every hour of every fixed order run is between zero and the capacity. The surplus and the deficit of an hour are never negative and never both positive, and together with the renewable energy used they add up to generation and demand but for one rounding error.", "quantifier": "all ways to round (for the split: all that keep order and sign), all runs", "why_tests_cant": "Rounding errors depend on every digit of every input.", "anchors": ["pylesa/controllers/fixed_order.py: FixedOrder.run_timesteps, FixedOrder.run_process, FixedOrder.above_setpoint, FixedOrder.below_setpoint, CheckFunctions.electrical_surplus_deficit", "pylesa/storage/electrical_storage.py: ElectricalStorage.new_soc, ElectricalStorage.init_state"]}
{"id": "C108", "title": "The balances of an hour hold up to rounding", "statement": "With Python floats, where B (at least 1 kWh) bounds all energies of the hour: battery and import supply the electric deficit within B/10^12 if import is in the order; the surplus is spent and the heat demand met within COP*B/10^9 if export and the boiler are in the order; no flow is below zero by more than that; never more than deficit, surplus and heat demand is supplied but for B/10^12.", "quantifier": "all hours with meaningful inputs below B and COP from 1 to 1000, all tidy orders without repetition, both sides of the setpoint, before the minimum output rule", "why_tests_cant": "The error of fifteen dependent steps depends on every digit of every input.", "anchors": ["pylesa/controllers/fixed_order.py: FixedOrder.run_timesteps, FixedOrder.run_process, FixedOrder.above_setpoint, FixedOrder.below_setpoint, FixedOrder.electrical_surplus_deficit"]}
{"id": "C109", "title": "The balances of a run hold up to rounding", "statement": "With Python floats, where B bounds all energies of the run: every hour of a run reports an electric demand supplied within B/10^12, no more renewable energy used than generated but for COP*B/10^9, and no flow below zero by more than that. Rounding never makes a run fail: with known processes and a tank that answers it ends with one result per hour. Errors do not add up over the hours.", "quantifier": "all runs with meaningful inputs below B, tidy orders, all spans, after the minimum output rule", "why_tests_cant": "Ranges over all inputs and up to 8760 dependent hours.", "anchors": ["pylesa/controllers/fixed_order.py: FixedOrder.run_timesteps, FixedOrder.run_process, FixedOrder.above_setpoint, FixedOrder.below_setpoint, FixedOrder.electrical_surplus_deficit"]}
{"id": "C110", "title": "The predictive controller minimises the bill", "statement": "With an electric heater, what the predictive controller minimises is the money a plan spends on the grid less what it earns, plus 0.001 pence for every kWh of wind and sun put into the battery. A cheapest plan therefore spends at most 0.001 pence per kWh generated more than any other feasible plan, and the cost reported for an hour is the one that was minimised, but for electricity the battery gave the heater, which is billed as import.", "quantifier": "all plants with an electric heater, all horizons and feasible plans, any discretisation of the stores' equations", "why_tests_cant": "Compares a plan with every other feasible plan, a set of infinitely many.", "anchors": ["pylesa/controllers/mpc.py: Scheduler.moving_horizon"]}
{"id": "C111", "title": "The planning problem has a solution", "statement": "The planning problem posed in every hour has feasible plans if battery and thermal store start with no more than they may hold over the horizon, and the objective does not fall without end, so that a cheapest plan can be looked for.", "quantifier": "all plants, horizons and starting states", "why_tests_cant": "Existence and bounds over an infinite set of plans; a test shows what a solver returned once.", "anchors": ["pylesa/controllers/mpc.py: Scheduler.moving_horizon"]}
{"id": "C112", "title": "Without stores planning never costs", "statement": "A system without battery and thermal store, with an electric heater, is run with both controllers on the same data. If the fixed order leaves no demand unmet, the predictive controller's cash flow is at least that of the fixed order controller in every hour it plans, and so over the run after its first hour, whatever the prices, the order and the generation.", "quantifier": "all such systems, data, prices, orders and spans that end before the last hour of the year, any optimiser that answers with cheapest plans, any discretisation that keeps an empty idle store empty", "why_tests_cant": "Compares two controllers over all data, orders and prices; a test compares them on one year.", "anchors": ["pylesa/controllers/mpc.py: Scheduler.solve, moving_horizon", "pylesa/controllers/fixed_order.py: FixedOrder.run_timesteps"]}
{"id": "C113", "title": "A better system never makes the best plan dearer", "statement": "Two systems with an electric heater are planned for the same hours, demand and starting charge. The second has stores and a heat pump of at least the same size and otherwise alike, at least as much generation, import at most as dear and export paid at least as well (and not negatively). Then a cheapest plan for the second costs at most as much as any plan for the first.", "quantifier": "all pairs of such systems, all horizons, prices, demands and starting charges, any discretisation of the store equations", "why_tests_cant": "Compares all pairs of systems over all horizons; the optimum of one problem says nothing about another.", "anchors": ["pylesa/controllers/mpc.py: Scheduler.moving_horizon"]}
{"id": "C114", "title": "Stores pay off in the plan", "statement": "A system with an electric heater, a battery and a thermal store is planned over a horizon. A cheapest plan spends over the horizon at most what the fixed order controller would pay in the same hours without the stores, if that order leaves no demand unmet.", "quantifier": "all such systems, data, prices, orders, horizons and starting charges within capacity, any discretisation in which an idle store has a course", "why_tests_cant": "Compares an optimum with another controller's run over all data and horizons; a test compares them on one year.", "anchors": ["pylesa/controllers/mpc.py: Scheduler.solve", "pylesa/controllers/fixed_order.py: FixedOrder.run_timesteps"]}
{"id": "C115", "title": "The battery keeps its books under predictive control", "statement": "Under the predictive controller the charge reported at the end of an hour is the charge reported for the hour before, plus what went in after the charging loss, minus what went out before the discharging loss, minus self-discharge. So up to any hour of a run the battery has given no more than it held at the start plus what it was given.", "quantifier": "all systems, data and horizons, all answers of the optimiser that satisfy the posted equations, all failures of attempts, all hours of the run", "why_tests_cant": "An invariant over the whole run that depends on how each hour hands its charge to the next, for every sequence of answers and failures of the optimiser.", "anchors": ["pylesa/controllers/mpc.py: Scheduler.solve, Scheduler.moving_horizon"]}
{"id": "C116", "title": "A larger battery never raises the import", "statement": "Under the fixed order controller, if the battery serves the electric demand only and is charged only with renewable surplus that heat has no use for, then a battery of larger capacity leads to at most the import, and at most the import costs, in every hour of the run; it holds at least as much charge after every hour, and heat pump, thermal store and boiler do exactly the same.", "quantifier": "all systems with and without thermal store, all batteries with any losses and ratings and any initial state, all series of demand, generation and prices, all orders without repeats that keep flows non-negative and put the battery second to heat, all spans", "why_tests_cant": "Compares two whole runs over all data: the larger battery has to stay ahead through every sequence of charging, delivery, self-discharge and clamping, which no finite set of cases shows.", "anchors": ["pylesa/controllers/fixed_order.py: FixedOrder.run_timesteps, FixedOrder.above_setpoint, FixedOrder.below_setpoint", "pylesa/storage/electrical_storage.py: ElectricalStorage.new_soc, ElectricalStorage.max_charging, ElectricalStorage.max_discharging"]}
{"id": "C117", "title": "The log holds every message of both processes", "statement": "However the main process, the output process and the threads between them interleave: once the output process has been stopped, pylesa.log holds every message of at least INFO of both processes, each once and each process's messages in their order, and the console every message of at least its own level; at no moment does the log hold a line nobody logged, and stopping the listener always ends.", "quantifier": "all interleavings of any length of parent, output process, queue feeder and listener, all messages and levels, both ways of starting a process", "why_tests_cant": "The order of events between two processes and two threads is up to the scheduler; a lost or doubled line shows only in some interleavings.", "anchors": ["pylesa/logging.py: setup_logging", "pylesa/mp/logging.py: setup_mp_logging", "pylesa/mp/process.py: OutputProcess._run_job, OutputProcess.start, OutputProcess.stop"]}
{"id": "C118", "title": "The demand functions find the standard profiles", "statement": "The functions that make demand profiles for a settlement find the standard profiles that come with the package, whatever was called before; the electricity profile is then, in each hour, the number of houses times the mean of the two half hours of the standard profile, and keeps the energy of the day.", "quantifier": "all places the package can be installed in, all contents of the rest of the disk, all sequences of calls of the demand functions, all years and settlements, all half-hourly profiles", "why_tests_cant": "Whether a call finds its files depends on where the package lies, what else is on the disk and what earlier calls wrote.", "anchors": ["pylesa/demand/electricity_demand.py: import_elexon_profile, profile_from_input, predicted_demand, plot_demand", "pylesa/demand/heat_demand.py: standard_profile_file, standard_day_profile, profiles_from_inputs, hot_water_addition, aggregate, predicted_demand", "pylesa/data"]}
{"id": "C119", "title": "A larger or more efficient heat pump never raises the electricity bill", "statement": "Of two fixed-order runs of the same system without stores, with an electric auxiliary heater, that differ only in the heat pump, the one whose heat pump is in every hour no smaller and no less efficient imports at most as much electricity in every hour and over the whole span; if an exported unit never earns more than an imported one costs, its balance of electricity is at least as good in every hour and over the span.", "quantifier": "all plants, prices, demands and generation series, all pairs of heat pumps of which one has in every hour at least the COP and the duty of the other and a COP of at least one, all minimum outputs, all orders that list each process at most once and the auxiliary heater, and not the electric heater on surplus after the heat pump on imports, all spans", "why_tests_cant": "The claim compares two runs over every order of processes, every hour and every size; whether extra heat pump capacity can displace surplus into export and raise the import depends on the order.", "anchors": ["pylesa/controllers/fixed_order.py: above_setpoint, below_setpoint, run_process, HP_RES_to_demand, HP_import_to_demand, EAUX_RES_to_demand, aux_to_demand, RES_to_export", "pylesa/heat/heatpump.py: thermal_output, elec_usage"]}
{"id": "C120", "title": "A run repairs any earlier run and leaves only right files", "statement": "A run on one core touches nothing outside the folder of the study, wherever it is cut off. Without the overwrite flag it changes nothing if anything is at that folder. With the flag its exception and the whole disk it leaves do not depend on what was in the folder: after any history of runs with workbooks of that name, ended or cut off anywhere, it gives what it would have given at first. It ends as the study of the workbook ends, with the results, figures and tables of that study in their files and nothing else in the folder. Wherever it is cut off, a file of results holds what it held before, or is the one being written, or holds the right results of its combination.", "quantifier": "all disks that are trees, all workbooks outside the folder with any contents, all histories of runs with and without the flag, all cut-off points, all partial removals by rmtree that take directories after their contents", "why_tests_cant": "The claim ranges over every earlier content of the folder, every point at which a run can be killed and every sequence of such runs.", "anchors": ["pylesa/main.py: main, run_solver", "pylesa/io/read_excel.py: read_inputs, XlsxInput.__init__", "pylesa/parametric_analysis.py: Para.__init__, create_pickles", "pylesa/io/outputs.py: run_plots, run_KPIs", "pylesa/controllers/fixed_order.py: FixedOrder.run_timesteps", "pylesa/controllers/mpc.py: Scheduler.moving_horizon"]}
{"id": "C121", "title": "A study on two cores leaves on the disk what the study on one core leaves", "statement": "With two processes sharing the disk and interleaved at single looks and single changes, a run on two cores that returns leaves exactly the disk that the run on one core leaves: every file and folder. If the run on one core returns, no schedule goes on for ever, a quiet schedule (nothing killed, no timeout) never gets stuck, and every quiet schedule that can go no further has returned with that disk. Wherever a run on two cores is cut off, in any schedule, the folder of each combination is as at some moment of the run on one core, and a file of results holds what it held before, or is the one being written, or holds the right results. Once a run has returned nothing changes the disk any more; after a timeout this is not so.", "quantifier": "all workbooks, disks and histories, all interleavings of the two processes at single file operations, all cut-off points, any kills and timeouts", "why_tests_cant": "The number of interleavings of file operations of two processes is far beyond what can be run, and a test sees only the few that the scheduler happens to pick.", "anchors": ["pylesa/main.py: main, run_solver", "pylesa/mp/process.py: OutputProcess", "pylesa/io/outputs.py: run_plots, Plot.__init__, run_KPIs", "pylesa/controllers/fixed_order.py: FixedOrder.run_timesteps"]}
{"id": "C122", "title": "Studies that run at the same time do not disturb each other", "statement": "Any number of calls of main may run at once on one disk, each on one core or on two, and their steps may come in any order, down to single looks at the disk and single changes of it. If no study's folder is another's or inside it, and no workbook lies inside another study's folder, then each call is at every moment where it would be if it had been alone on the disk and had taken its own steps, and its folder holds what it would hold then. A call that returns has left its folder as the study alone on one core leaves it. Outside the folders nothing changes. A study that returns alone can always go on and return among the others, and no schedule goes on for ever. Wherever all are cut off, no file of results of any study is wrong. Workbooks of different names into one output directory are such studies.", "quantifier": "all numbers of calls, workbooks, flags and disks, all interleavings of their file operations, all cut-off points", "why_tests_cant": "The interleavings of file operations of several programs cannot be enumerated, and a disturbance shows only in the rare ones.", "anchors": ["pylesa/main.py: main", "pylesa/io/read_excel.py: read_inputs", "pylesa/io/inputs.py: Inputs", "pylesa/parametric_analysis.py: Para.create_pickles", "pylesa/io/outputs.py: run_KPIs", "pylesa/mp/process.py: OutputProcess"]}
{"id": "C123", "title": "Runs started for the same study at the same time: one gets the folder, the others are refused", "statement": "Any number of calls of main for the same study folder, none with the flag to overwrite, may run at once in any order of their file operations. At most one of them gets past making the folder; every other one that ends raises FileExistsError and changes nothing. The whole disk is at every moment as that one call alone would have made it, and if it returns, as the study alone on one core leaves it. If something is at the place of the folder already, nothing changes at all and every call is refused. If the study can return, one of the calls always can. With the flag to overwrite none of this holds: one call can remove the folder that another has just made.", "quantifier": "all numbers of calls for one folder, all disks, all interleavings of their file operations", "why_tests_cant": "The gap between looking for the folder and making it is a few instructions long; a test would have to hit it for every pair of calls.", "anchors": ["pylesa/main.py: main"]}
{"id": "C124", "title": "The indicators hold up in floating point", "statement": "The totals and shares that PyLESA shows are computed with Python's floats, and np.sum adds in an order of its own. In whatever order it adds, a total over at most a year is right to one part in 10^12 of the sum of the amounts; whole numbers are added without error; and a quantity that is larger in every hour has the larger total, exactly. If in no hour more is sold than generated and no sale is negative, self-consumption is between 0 and 100, exactly, and right to 10^-9 percentage points; the share of demand met is never negative, and right to the error named, under every tariff. What is bought while the wind farm of a tariff has much wind is between 0 and all that is bought, exactly, and right to one part in 10^12. The renewable share of the heat pump's heat is right to 2*10^-9 percentage points, and exactly between 0 and 100 without a wind farm. The use of the heat pump is between 0 and 100 if it never makes more heat than asked for. Seasonal performance, operating cost and cost of electricity are right to the parts in 10^11 or 10^12 named. More heat from less electricity never earns less subsidy, not even by a rounding; nor does a larger heat pump with a dearer bill in every hour show the lower capital or lifetime cost, nor, at the same sizes and demands, a dearer bill the lower levelised cost of energy, or of heat; the subsidy, the cost of a unit of heat, the capital cost, the lifetime cost and the levelised costs of heat and of energy are right to the parts in 10^11 to 10^15 named. After a run in floats, in which a sale can be negative by a rounding error, self-consumption is at most 100 but for the error named.", "quantifier": "all series of hourly results of at most a year, all orders of addition, for order and signs all monotone roundings", "why_tests_cant": "Rounding errors depend on every value and on the order of addition; a few examples show nothing about the worst case.", "anchors": ["pylesa/io/outputs.py: Calcs.sum_RES, sum_export, RES_self_consumption, HP_utilisation, calc_scop, operating_cost, cost_elec, cost_of_heat, demand_met_RES, RHI_income, grid_RES_used, total_RES_used, HP_from_grid_RES, HP_from_local_RES, HP_met_RES, levelised_cost_of_heat, capital_cost, levelised_cost_of_energy, lifetime_cost"]}
{"id": "C125", "title": "When a thermal store stops a run", "statement": "A run with a thermal store can end with an exception, and some of the ways in which it does can be told from the inputs. A tank whose top is at the return temperature cannot be discharged: the program divides by zero. Tanks start at the return temperature. So if in the first hour the heat pump would run below its minimum output, and the tank has not room for the rest, the run stops in that hour, whatever the other hours hold: the program then switches the heat pump off and discharges the tank. One such combination in a parametric study stops the whole study: it never gets to its indicators, whatever the other combinations are. Two further ways are shown by cases: layers so thin that they lose more than half of their difference to the surroundings in one pass make the tank's offer raise, and connections, which warm the water, turn the flow in the second hour of charging.", "quantifier": "all runs of the fixed order controller with any tank, any first hour, any number of hours, all orders without repeats that are safe; all workbooks and studies containing such a run", "why_tests_cant": "Whether a study stops depends on the first hour, the size of the heat pump and the size of the tank together; a test fixes one combination.", "anchors": ["pylesa/controllers/fixed_order.py: above_setpoint, below_setpoint", "pylesa/storage/hot_water_tank.py: HotWaterTank.thermal_storage_mass_discharging, new_nodes_temp, max_energy_in_out, connection_losses"]}
{"id": "C126", "title": "Stores that serve a run to its end", "statement": "There are thermal stores which the processes may charge and discharge freely without ever stopping a run. If the store has two or three layers, no openings, a wall that loses at most a tenth of a layer's excess over the air in a pass, stands in air that is always as warm and colder than the return, if the source is always as warm and is at most 100 degrees, source and flow agree when rounded to tens of degrees, half a layer holds the heat of any hour's demand, the heat pump has no minimum output and the boiler is in both orders, then the run gives one result for every hour asked for, and after every hour the layers are ordered from warm to cold, warmer than the air and colder than the source. A study whose combinations all have no store or such a store writes its six tables and eight charts.", "quantifier": "all runs of the fixed order controller on such a store, any span of the year, all safe orders without repeats, all demands, prices, generation and heat pump performance; all workbooks that describe such stores", "why_tests_cant": "The profile of the store after an hour is the input of the next, so whether the program stops in hour 8000 depends on everything before; a test follows one history.", "anchors": ["pylesa/controllers/fixed_order.py: FixedOrder.run_timesteps, above_setpoint, below_setpoint", "pylesa/storage/hot_water_tank.py: HotWaterTank.new_nodes_temp, max_energy_in_out"]}
{"id": "C127", "title": "Which hour an entry of the weather stands for", "statement": "Entry t of the weather sheet is hour t of the year for everything that uses it. The heat pump's table labels it with hour t % 24 of day t / 24 of 2017, each hour once and in order. The turbines' table labels it with the hours of 2012, so from the end of February on it is a day behind and has no 31 December. The panels' table takes entry t as the instant t hours after the start of 2017 in Greenwich, labelled with the clock of London: the same label as the heat pump's in winter, and exactly in summer time the next hour; 1:00 on 26 March is missing and 1:00 on 29 October is there twice. The tariff by weekday and hour takes no notice of summer time.", "quantifier": "all entries of the year, all tariffs by weekday and hour", "why_tests_cant": "The tables agree for all the hours a short test looks at; they part at 29 February and on two Sundays.", "anchors": ["pylesa/tools.py: timeindex", "pylesa/environment/weather.py: Weather.PV, wind_turbine, heatpump", "pylesa/power/renewables.py: PV.power_output", "pylesa/power/grid.py: variable_periods_series"]}
{"id": "C128", "title": "The store does not rely on an exact integrator", "statement": "The layers of the thermal store come out of a numerical integrator. Whatever it answers, as long as it answers with one temperature for each layer, the profile after every call and after every hour of a run is ordered from warm to cold and has all its layers. If each of its answers is within e degrees of the exact one, then so is the ordered profile after a pass; drawing from a tank without losses takes no layer further than e for each pass outside the temperatures it started with and the return; and the heat that enters or leaves in a pass is what was booked up to e for each layer. Ties are the exception: when a layer is exactly as warm as the source, an exact integrator overheats it, while one that errs by however little does not.", "quantifier": "all integrators (functions from temperatures and rates to temperatures) within a given error, all tanks, states, network temperatures and profiles; all runs of the fixed order controller", "why_tests_cant": "A test runs one integrator with one error; the claim is about all, and the exception needs an exact tie.", "anchors": ["pylesa/storage/hot_water_tank.py: HotWaterTank.new_nodes_temp, max_energy_in_out"]}
{"id": "C129", "title": "A store gives back no more than it got", "statement": "In any run with a thermal store of two or three layers, without openings, that loses little through its walls and holds an hour's demand in half a layer, at a constant source temperature, without a minimum output of the heat pump and with the boiler in both orders: after any number of hours, all the heat booked out of the store is less than all the heat booked into it, plus the heat of a store at the return temperature above its surroundings, plus 0.05 kWh for each hour whose price is not above the setpoint. The same holds with the heat still in the layers added to the heat booked out. The 0.05 kWh are needed: below the setpoint smaller draws are booked but not passed on to the store.", "quantifier": "all such stores, plants, demands, prices, orders and spans, after every number of hours", "why_tests_cant": "A test adds up one run; the balance must hold after any history of charging, drawing and standing by.", "anchors": ["pylesa/controllers/fixed_order.py: FixedOrder.run_timesteps, FixedOrder.run_process, FixedOrder.TS_to_demand", "pylesa/storage/hot_water_tank.py: HotWaterTank.new_nodes_temp, max_energy_in_out"]}
{"id": "C130", "title": "A battery gives back no more than it got", "statement": "In any run of the fixed order controller, after any number of hours, all the electricity booked out of the battery is at most what it held at the start and all that was booked into it.", "quantifier": "all batteries, plants, demands, prices, orders and spans, after every number of hours", "why_tests_cant": "A test adds up one run with one battery; the balance must hold for every rating and after any history of charging and discharging.", "anchors": ["pylesa/controllers/fixed_order.py: FixedOrder.run_timesteps, above_setpoint, below_setpoint, ES_to_demand, ES_to_HP_to_demand", "pylesa/storage/electrical_storage.py: ElectricalStorage.new_soc, max_charging, max_discharging"]}
{"id": "C131", "title": "The thermal store under predictive control", "statement": "With a thermal store of two or three layers that loses little through its walls, an electric heater, and an optimiser whose answers satisfy what is posted to it: a run of the predictive controller gets to its end as soon as each hour is solved at one of its attempts, because the real tank accepts every plan, cut to what it offers. Up to any hour, all the heat booked out of the store is less than all the heat booked into it, plus the heat of a store at the return temperature above its surroundings, plus 0.005 kWh per hour for the rounding of the plan. An hour that needed a second attempt starts from a new store at the return temperature and so adds at most the heat of one.", "quantifier": "all such stores, systems, demands, prices, horizons and spans, all answers of the optimiser within what is posted, after every number of hours (but the last hour of the year, which is a copy of the first result)", "why_tests_cant": "A test runs one optimiser on one system; the claim is about every answer it may give and every history of the store.", "anchors": ["pylesa/controllers/mpc.py: Scheduler.solve, moving_horizon", "pylesa/storage/hot_water_tank.py: HotWaterTank.new_nodes_temp, max_energy_in_out"]}
{"id": "C132", "title": "A run passes energy on and makes none", "statement": "With the fixed order controller, in every hour generation, import and what the battery gives are the electric demand, what heat pump and heater use, what the battery gets and the export; and the heat made and drawn is the heat demand and what the store gets. So over any number of hours a system uses no more than it is supplied with: the electric demand, the export, and the heat demand divided by the best efficiency of the heat pump are together at most the generation, the import, the heat made of fuel divided by that efficiency, and what the stores held at first.", "quantifier": "all systems, demands, prices, orders of processes that are safe and complete, spans, and numbers of hours", "why_tests_cant": "The bound is about every history of both stores; a test adds up one.", "anchors": ["pylesa/controllers/fixed_order.py: FixedOrder.run_timesteps, FixedOrder.run_process", "pylesa/storage/electrical_storage.py: ElectricalStorage.new_soc", "pylesa/storage/hot_water_tank.py: HotWaterTank.new_nodes_temp"]}
{"id": "C133", "title": "A predictive run passes energy on and makes none", "statement": "With the predictive controller, in every planned hour the electric demand, what heat pump and heater use, what the battery gets and the export are together at most the generation, the import and what the battery gives. So over any number of planned hours a system uses no more than it is supplied with: the electric demand, the export, and the heat demand divided by the best efficiency of the heat pump are together at most the generation, the import, and what the stores held at first.", "quantifier": "all systems, demands, prices, spans, numbers of hours, and optimisers whose answers satisfy what is posted", "why_tests_cant": "The bound is about every answer an optimiser may give and every history of both stores; a test sees one.", "anchors": ["pylesa/controllers/mpc.py: Scheduler.moving_horizon, Scheduler.solve", "pylesa/storage/hot_water_tank.py: HotWaterTank.new_nodes_temp"]}
{"id": "C134", "title": "Without stores a lower demand never costs more", "statement": "For a system without battery and thermal store, lowering heat or electric demand in some hours (and adding wind or solar power), everything else the same, never raises the import and never lowers the export of any hour of a fixed order run. If prices are not negative no hour's cash flow falls and no hour of the auxiliary heater costs more, and the same holds for the sums over the span simulated. This holds for every order of the processes, also one that lists some twice, on both sides of the setpoint and for every minimum output of the heat pump. In particular it holds of two workbooks that differ in the heat and electric demands on the demand sheet only.", "quantifier": "all pairs of runs that differ in demands and generation as said, all plants without stores, all orders, all spans; all pairs of workbooks that differ in those columns", "why_tests_cant": "Compares two runs for every pair of demand profiles; a test compares one pair.", "anchors": ["pylesa/controllers/fixed_order.py: FixedOrder.run_timesteps, FixedOrder.above_setpoint, FixedOrder.below_setpoint, FixedOrder.run_process", "pylesa/controllers/fixed_order.py: CheckFunctions.electrical_surplus_deficit"]}
{"id": "C135", "title": "Lower demands and a larger heat pump together never cost more without stores", "statement": "For a workbook without battery, with an electric auxiliary heater that both orders list, the simple heat pump model with a COP of at least one, and orders that do not run the electric heater on surplus after the heat pump on imports: lower the heat and electric demands on the demand sheet and fit a larger heat pump at the same time. Then no hour of the fixed order run without a thermal store imports more, and the table shows no larger sum_import. If an exported kWh earns no more than an imported one costs, no hour's cash flow falls and the table shows no larger opex.", "quantifier": "all pairs of workbooks that differ in those columns, all pairs of heat pump sizes, all spans within the year, all libraries that give a value for every hour", "why_tests_cant": "Compares two studies for every pair of demand profiles and of sizes; a test compares one pair.", "anchors": ["pylesa/controllers/fixed_order.py: FixedOrder.run_timesteps, FixedOrder.above_setpoint, FixedOrder.below_setpoint, FixedOrder.run_process", "pylesa/main.py: main"]}
{"id": "C136", "title": "The tariff for Findhorn lowers the price in hours of surplus", "statement": "Grid.findhorn_tariff prices each of the 8760 hours at 30 if the site's recorded export exceeds its import by at least 50, and at the price of the period otherwise, so a surplus never makes electricity dearer; it works whenever the variable periods do.", "quantifier": "all tables of periods and years, all files of imports and exports, every hour", "why_tests_cant": "Ranges over all files and all price tables; and the file it reads is not shipped, so a test cannot even start it.", "anchors": ["pylesa/power/grid.py: Grid.findhorn_tariff, Grid.variable_periods_series"]}
