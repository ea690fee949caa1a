# Formal model of PyLESA: design

PyLESA simulates a local energy system (heat demand, electricity demand, wind and PV, heat pump, hot
water tank, battery, auxiliary heater, grid tariff) hour by hour. The source is `/repo/pylesa`. This
directory holds a Lean 4 model of that code and kernel-checked theorems about it.

Contents: 1 how the code is modelled, 2 plan and method per property, 3 where the code does not do what
the property says, 4 trusted base, 5 what is modelled and what is not, 6 seeded bugs.

## 1. How the code is modelled

* Python `float` and NumPy arrays become exact rationals `ℚ`, or reals `ℝ` where the code takes
  logarithms, roots or uses pi (Lorentz model, tank geometry, capital cost). NaN, infinities and
  overflow of IEEE floats are not modelled. Rounding error is modelled for the fixed order controller
  (`Model/Rounded.lean`, C106–C109) and the indicators (`Model/RoundedKpi.lean`, `Model/RoundedLevelised.lean`, C124) only; all other theorems are about exact arithmetic.
* `round(x, n)` is modelled exactly, half to even.
* A raised exception is a value of `PyErr` in `Except PyErr α`; `None` is `none`. The class is kept, the
  message is not. Unbound locals, missing keys, bad indices and missing arguments are exceptions too.
* Python division by zero is `.zeroDivisionError`; NumPy division by zero is `none` (`npDiv`). No theorem
  relies on Lean's `x / 0 = 0`, with one exception: a COP or an efficiency of zero is outside the model
  (the statements that need it ask for it to be positive or non-zero).
* Loops over ranges are structural recursion or list folds. Every function is total, because every
  input on which the Python raises has its own branch.
* Result dictionaries become structures with one field per key the code writes.
* External libraries are parameters or relations; what is assumed of each is in section 4.
* Processes are a labelled transition system: an execution is a list of events, and theorems quantify over
  all of them.
* The file system is a function from paths to what is there; a crash is a prefix of the list of changes.

| directory | contents |
|---|---|
| `lean/Verif/Base.lean` | exceptions, Python rounding, small list facts |
| `lean/Verif/Model/*.lean` | definitions that mirror the Python, each citing file and lines |
| `lean/Verif/Spec/*.lean` | small, independent specifications used in statements (some are at the top of a `Props` file, always named `Spec.…`) |
| `lean/Verif/Lemmas/*.lean` | helper lemmas and invariants |
| `lean/Verif/Props/*.lean` | the property theorems `Cnn_…`, with an `example` beside them showing a concrete case that meets the hypotheses |
| `scripts/` | `manifest.py` (rebuilds `MANIFEST.json`), `seed.py` and `log.py` (seeded bugs) |

Conventions: a theorem `Cnn_xxx` belongs to property `Cnn` of `properties.jsonl`. `Cnn_…_partial` proves
the property on the part of its domain that the theorem states, and its comment says what is missing. When
the code does not satisfy a property, a theorem proves the negation from a concrete witness (or for a
whole class of inputs); its comment begins "Cnn is false of …". Most of these are
conflicts between the code and the property, not gaps in the proofs.

## 2. Plan and method per property

Status is in `MANIFEST.json`. P: proved as stated; F: the code violates part of it, the violation is
proved, and the rest is proved; R: proved under a restriction.

| id | | what is modelled | how it is proved |
|---|---|---|---|
| C01 | P | `ElectricalStorage.new_soc` and what it calls | clamped balance per step; induction over any list of matches |
| C02 | P | `max_charging` branch by branch | equality with an independent `min`; greatest admissible charge |
| C03 | F | `max_discharging` | rating bound by cases; witness against the stored-energy bound |
| C04 | F | `discharging`, `total_losses` as `Except` | exact condition for raising |
| C05 | F | `charging` | equality where the state of charge rises; witness otherwise |
| C06 | F | `charge_to_capacity` | exact condition for overfilling; witness |
| C07 | P | `new_soc` iterated | induction on the number of hours; monotonicity |
| C08 | P | both copies of `electrical_surplus_deficit` | pointwise cases lifted over lists |
| C09 | P | `month_split`, `sum_monthly`, `mean_monthly`, `sum_year`, `mean_year` | slices concatenate to the list; induction on the boundaries |
| C10, C11 | P | `thermal_output`, `elec_usage` | order and field reasoning |
| C12 | P | capacity 0 in constructor, methods, dispatch, whole runs | invariant over the process list, for every order |
| C13 | P | `performance`, with the length checks of every model | case analysis, list lengths |
| C14 | P | constructor and setters | acceptance if and only if an independent `Valid` |
| C15 | F | generic regression polynomials | inequality up to the turning point, reverse inequality beyond |
| C16 | P | Lorentz model over `ℝ` | logarithmic mean is monotone (convexity of exp/log) |
| C17 | P | standard test regression; least squares as any minimiser | zero residual implies interpolation |
| C18–C20 | F | dispatch of one hour: `checks`, `run_process`, totals | invariants by induction over any order list (duplicates excluded; "safe" orders where needed), with counterexamples for each condition |
| C21 | F | all reported flows | same invariant, sign part |
| C22, C23 | F | heat pump output; battery reports | invariant; witnesses incl. the default order |
| C24–C26, C61, C68 | F (C61 P) | grid totals, minimum output rule, auxiliary bill | symbolic execution of the step |
| C27–C29 | P | `run_timesteps` | recursion over hours; chaining, prefix and locality by induction |
| C30–C34, C66 | F | tank functions on lists of node temperatures | list induction, convex combinations, sums |
| C32, C35 | P | capacity 0; table of water properties | case analysis; the whole finite table by kernel evaluation |
| C36–C38 | P | tariffs, sheets, wind agreement | list lengths and pointwise values |
| C39 | F | variable periods and `datetime` | day-number arithmetic for all years |
| C40, C43 | P | `Para`, pickles, `ThreeDPlots`, folder names as text | `range` model; injectivity of number printing; parsing |
| C41, C42 | F | ranges, scaled duty tables | exact conditions; witnesses |
| C44, C69, C70, C81–C83 | F | `Calcs` over any list of results; over runs of the model | algebra over sums; run invariants |
| C45, C71 | P | subsidy tiers; capital cost over `ℝ` | monotonicity, continuity; power functions |
| C46, C72 | F | lifetime, levelised, operating cost | algebra; witnesses |
| C47, C48 | F | `moving_horizon`, `pre_calculation`, optimiser as parameter | induction over hours; exact failing band |
| C49, C76, C84 | F | `solve`: reports and tank | linear arithmetic from the posted equations; loop invariant chaining the tank |
| C50–C52 | F | parent/worker/queue transition system | invariants over all interleavings |
| C53, C74 | F | `main` up to the start of the run, paths, crash points | prefix of every change list |
| C54, C75 | F | `main` on one and two cores | refinement of every schedule to the sequential run |
| C55–C57 | P | enums, `Aux`, order text | finite tables, text round trips |
| C58, C77 | F | seasons, day types; smoothing | interval arithmetic; averages |
| C59, C80 | F | PV and wind after the libraries | pointwise values; month table |
| C60 | F | predicted profiles | list lengths |
| C62, C73 | F | what the controller asks of the tank | dispatch invariant; cases of the minimum output rule |
| C63 | F | COP bookkeeping | invariant |
| C64 | P | balance checks | order reasoning; the tolerance is shown to be real |
| C65 | F | approaches of the input sheet through to the constructor | symbolic execution |
| C67 | F | geometry over `ℝ` | algebra |
| C85–C87 | F | `run_plots` and `Plot` as the points, labels and titles given to matplotlib | list indexing; run invariants for the stacks |
| C88–C90 | P (C89 F) | `run_KPIs`, `ThreeDPlots` | symbolic execution of the loop; a triangle exists iff there are two sizes of each |
| C78, C79 | P | heat and electricity demand of lists of houses | list induction |
| C91, C93, C97 | F (C93, C97 P) | `read_excel` on a model of pandas frames, pickles, `Inputs`, `Weather`, `initialise_classes.init`: from the cells of the workbook to the objects | each frame operation is characterised on cells; composition by unfolding `do` blocks |
| C92, C94, C96 | P | the same, including every exception on the way | equivalences: success if and only if a list of conditions on cells (and on library results) |
| C95 | P | the tables of battery, panels, turbines | corollaries of C91: uniqueness of the first complete row |
| C98 | P | the same, for two workbooks, both controllers, one combination and whole studies | each object is a function of the listed cells; success transfers by C94 |
| C99 | R | the programme from the workbook to the results of all combinations, on one core and several | composition of C27–C29, C40, C54, C91–C94 and the run invariants; termination without a store, or with one the orders never use, and then on any number of cores |
| C100 | R | the same with the predictive controller and any optimiser | composition of C47–C49, C91 and the programme; what a run needs from the failures of C47, C48; termination without a store |
| C101 | R | `main` with its own figures and tables, from the pickles of the combinations | composition of C85–C90, C43 and the programme; a run that finishes has all that the indicators read, so only the incentive cells and the sizes are left to check |
| C102, C103 | F | two runs of the fixed order loop, `Spec/Compare.lean` | a step without stores is a step with fewer processes; a simulation relation between the two dispatch states ("richer" and "cheaper"), kept by every process, and then per hour over the run; two workbooks with other panels and turbines start from runs that differ there only (`Spec/OtherSheets.lean`); two workbooks with other hours start the same run |
| C104 | F | two runs that differ in prices | the step commutes with replacing prices and money; induction over the hours; two workbooks with other tariffs and fuel costs start from runs that differ there only |
| C105 | R | two runs that differ by a factor | the step commutes with the factor; induction over the hours |
| C106 | R | `Model/Rounding.lean`: any way to round, and binary64; `Model/Rounded.lean`: the fixed order controller with every operation rounded | with the identity as rounding both controllers are the same function; facts on binary64 from the position of the last digit; floats only: an invariant on what is left to do and on all results, through processes, totals, minimum output rule and hours |
| C107 | F | the same, for any rounding | the clamp in `new_soc`; monotone rounding |
| C108, C109 | R | the same, for accurate roundings and binary64 | every account of the dispatch state is the exact one within a slack; each process multiplies the slack by at most a fixed weight and adds a few roundings; the product of the weights over processes without repetition is at most 192 |
| C110 | R | `Model/MpcPlan.lean`: plans over the horizon, the objective, feasible and cheapest plans; any discretisation | the objective of a posted point is the money spent by linear arithmetic; sums over the horizon |
| C111 | F | the same | bounds on each purchase from the posted equations; for a boiler a variable that occurs in the objective only; the fallback plan leaves the stores alone; a cheapest plan by eliminating directions (`Lemmas/Polyhedron.lean`) |
| C112 | R | the two controllers' models on the same data | what the fixed order does in an hour is a point the plan could have taken (`step_posted`); without stores the hours of a plan can be changed one by one (`cheapest_hour`); an optimiser that finds cheapest plans exists because cheapest plans do (C111) |
| C113 | R | `Model/MpcPlan.lean` for two systems | a plan for the first, with the further generation sold and the heat pump's upper value at its duty, is a plan for the second (`better_hour`) |
| C114 | R | the two controllers' models, stores in the plan only | `run_posted` gives the hours of the fixed order run as points with empty stores; stores left alone can be added to them (`posted_idle`) |
| C115 | R | `solve` and the loop, answers as second points of feasible plans | the chain of C84 gives the hour before and the attempt; induction over the results |
| C116 | R | fixed order runs with two capacities | the loop run twice with a relation between checks and results; the larger battery is ahead by at least nothing and at most the difference in size, hour by hour; two workbooks with other batteries start from runs that differ there only |
| C117 | F | levels, handlers, queue, feeder, listener and `stop` as a transition system | one invariant over all executions (what was said = what is written + in the pipe + in the buffer + lost); a measure for the end of `stop` |
| C118 | R | the files the demand functions read and write, and sequences of calls | invariant over all sequences of calls for the failure; the profile formula with the files in place |
| C119 | R | two runs without stores whose heat pumps differ in size | invariant over the processes comparing the two timesteps (unmet heat, surplus left, import and export), then hour by hour over the run; counterexamples for each condition |
| C120 | R | `main` on one core as a program on a disk, with every disk on the way | the stages on the disk refine the stages on values of C101 (invariant over the loop); relations kept by every operation for what is touched, added or removed; induction over the history of runs |
| C121 | R | the two processes as programs of single looks and changes on one disk, interleaved through the queue of C50 | non-interference: each combination has its own part of the disk, and an invariant says that each part is as if that combination ran alone; a well-founded measure for termination; progress by cases |
| C122 | R | any number of calls of `main`, each as a program of single looks and changes (on two cores the machine of C121), on one disk | locality: every step depends only on the workbook, the output directory and the folder, and changes only the folder; so each call can be replayed alone; alone it is `main` of C120 or a schedule of C121; a well-founded relation for termination |
| C123 | R | the same, with one folder | invariant: nobody has made the folder and the disk is untouched, or one has and the disk is that one's; `mkdir` decides; concrete schedules for the failures with the flag |
| C124 | R | `Model/RoundedKpi.lean`, `Model/RoundedLevelised.lean`: the indicators with every operation rounded; `np.sum` adds every value once in any order and with any brackets that depend on the number of values only | induction over the tree of additions for error, order and whole numbers; monotone rounding keeps bounds that are floats; concrete float runs for the failures |
| C125 | R | the fixed order controller with the real tank, from its first hour | by contradiction: the hour without the minimum output fixes what the pump gives, the invariant of the processes bounds the room left, and the tank at the return temperature refuses to discharge; through the reading of the workbook to the study; concrete cases for thin layers and connections |
| C126 | R | the fixed order controller with the real tank | invariant on the layers (ordered, between the air and the source) kept by charging, discharging and standing; the invariant of the processes shows that what is drawn was offered, so the top is warm; induction over the hours; through the reading of the workbook to the study |
| C127 | F | `tools.timeindex` and the indexes of the weather tables, by counting hours in the calendar | days of the year against the calendar of C39, for every year; entry by entry for the three tables |
| C128 | F | the tank's two functions with the integrator as a parameter | sorting is monotone and commutes with shifts, so it keeps distances; one pass against C31 and C66, induction over the passes and over the run; a family of integrators for the tie |
| C129 | P | the run of C27 with the tank of C126 | each pass telescopes over the layers and the wall only takes; induction over passes, then over the hours with the books of C73, C20 and C62 |
| C130 | F | the run of C27 with the battery of C01 | one hour raises the charge by at most what is booked in less the efficiency's share of what is booked out; induction over the hours; the counterexample by induction over a year of equal hours |
| C131 | P | the predictive run of C47 with the tank of C126 | the plan is cut to what the tank offers, so each hour is one of charging, drawing from a warm top, standing by; the passes of C129; induction over the results, and over the loop for the end of the run; then the entries of the workbook, as in C126 |
| C132 | F | the run of C27 with the stores of C129 and C130 | C18, C19, C20, C24, C26 and C61 add up to the books of an hour; sums over the hours; the efficiency bounds the heat of the heat pump, C129 and C130 bound what the stores give; the run of C130 is the counterexample |
| C133 | F | the runs of C47 with the battery of C115 and the store of C131, optimisers as in C49 | the posted equations add up to the books of an hour; sums over the hours; the efficiency bounds the heat of the heat pump, C115 and C131 bound what the stores give; the workbook through C100; witnesses from C49 and C115 for what fails |
| C134 | F | two runs of the fixed order loop, `Spec/LowerDemand.lean`; two workbooks, `Spec/LowerDemandSheet.lean` | a simulation relation between the two dispatch states ("easier" and the "cheaper" of C102), kept by every process, and then per hour over the run; two workbooks with other demands start from runs that differ there only, since the heat pump reads source and return temperatures only |
| C135 | F | two workbooks and two heat pump sizes, `Props/Retrofit.lean` | the run of the old workbook with the new heat pump exists (C94, C99); C119 compares it with the old run and C134 with the new one, hour by hour |
| C136 | F | `findhorn_tariff`, `Model/Findhorn.lean`, the file as a parameter | the loop over the hours entry by entry; a file that is not there; a table of one price as a witness |

"Safe" orders: processes that would use a quantity another process has already overdrawn are not in the
wrong relative position (`SafeOrder`, `NoOvershoot`, `EsPumpLast` in `Spec/FixedOrder.lean`). The orders that list all
processes by increasing number are safe (`orderAbove_safe`, `orderBelow_safe`). The repository contains no input
workbook, so nothing is said about the orders it may propose.

## 3. Where the code does not do what the property says

Each item is a theorem. None of these was found by running the code, which is not possible here; they
are consequences of the model, and each can be checked against the cited lines.

Battery
* `discharging` and `total_losses` raise `TypeError` for every negative match (C04).
* `max_discharging` can exceed the stored energy (C03); `charging` reports the match at a full battery (C05);
  `charge_to_capacity` overfills (C06).
* Dispatch can discharge above the rating, and discharge losses are applied on the wrong side, so that
  reported discharge exceeds what leaves the battery (C23). Over a year a battery rated at 10 W
  that is never charged supplies 10 kWh in every hour (C130), so a system can use more than it is supplied with (C132).

Fixed order controller
* A process listed twice overwrites its first report, losing supply (C18, C19, C20).
* Some orders give negative flows (C21), unspent surplus (C19), unmet heat (C20), an overdrawn tank (C62),
  negative self-consumption (C44); `round(…, 2)` in "HP import to TS" leaves electricity unmet (C18),
  overcharges the tank (C62), gives free heat (C63) and exceeds the duty (C22).
* The heat pump can exceed its duty, also with the default order (C22).
* Below the setpoint the heat report omits the renewable electric heater (C20).
* Minimum output rule: outputs up to 0.1 kWh are kept above the setpoint (C25); switching off below drops
  heat; switching off leaves reports and bills stale; raising the output imports electricity that is not
  billed (C26); raising forgets the electric heater's stored heat, switching off above draws unbooked heat
  (C73).
* The export price is reported as 0 above the setpoint (C24). `elec_total_usage` omits electricity from the
  battery (C63), so that the seasonal efficiency can exceed every hourly one (C81).
* Draws of up to 0.05 kWh below the setpoint are ignored by the tank (C73). The heat check accepts a small
  shortfall (C64).
* Fuel is billed per kWh of heat, not of fuel (C68).
* With a thermal store charged before the demand is served, 4 kWh more of surplus can raise the import by 8 kWh
  (C102). The same system two hundred times smaller runs its heat pump where the large one switches it off (C105).
* With a thermal store charged from imports, 6 kWh less of heat demand can raise the import of an hour by 2 kWh: the
  heat pump charges the store with what the demand leaves it (C134).

* With Python floats export and other flows can be negative by a rounding error, and battery and import do not supply
  the deficit exactly (C108). The error is bounded (C108, C109).

Heat pump
* The generic COP rises again beyond a lift of about 96 K (102 K for ground) and ground sources are worse
  than air at 140 K (C15). The generic and the Lorentz approach cannot be run from the input sheet at all (C65).
  The text "ELECTRIC" (not the enum) needs fuel data (C56).

Tank
* A tie in temperature makes charging overheat a node and create heat (C31, C66); a source colder than the
  bottom cools the tank (C31); asking an ordinary tank of four layers what it can deliver can raise, because
  the trial passes do not sort the layers (C33); a tank whose mean is exactly the source temperature returns a flat list
  (C30); one node always fails (C30); openings heat the tank and offer heat (C33, C34); a return hotter
  than the flow gives a negative offer (C33); losses use the diameter as radius (C67).

Tariffs, parametric study, inputs
* In a leap year 30 December gets the weekday of the 31st (C39). Wind agreement percentages that are not whole
  hundredths raise `ValueError`, an unknown tariff `UnboundLocalError` (C36).
* A step that does not divide the interval runs a size above the maximum; the store range ends with the heat
  pump's step (C41). Duty tables scale with a ratio rounded to two decimals, and a base of capacity 0 gives no duty
  (C42). Negative sizes are misread from folder names (C43).
* The demand functions look for their standard profiles under names the package does not have
  (`data/electricity_profiles.xlsx` for `data/demand/electricity_profiles.xlsx`, and so on), so none of them works
  (C118).

Indicators
* Lifetime and levelised cost count fuel a thousandfold (C46); the levelised cost does not scale the subsidy to
  a year (C72). Renewable shares can exceed 100 %, and a gas boiler counts as renewable in windy hours (C69).
  Grid renewables are looked up at the wrong hour if the run does not start at hour 0 (C70). Import that
  charges the battery is charged to heat (C83). Unknown subsidy words raise `UnboundLocalError` (C45), and then
  no table of the study is written (C88).

Figures
* Figures of part of a year mark its hours from 0, so hour `h` shows hour `first + h`; so does 'operation' for
  the weeks of a full year; a run of no hours cannot be drawn (C85).
* The bars of monthly generation are in MWh on an axis that says kWh; part-years not starting at hour 0 show
  their energy in the wrong months (C86).
* 'Heat demand' draws any shortfall as heat from 'Aux'; 'Renewable power usage' omits battery charging (C87).
* A study of one heat pump size or one store size raises at the first chart, after the tables (C89).

Predictive controller
* A run of one hour has no results; a run to the end of the year ends with a copy of its first hour; the
  first result lacks electricity data; runs of the last two hours, with a horizon of at most 1, or with a
  boiler and a tank always fail (C47). `pre_calculation` indexes out of range in a band near the end of the
  year (C48). C100 says this in terms of cells of the workbook.
* Heat is over- or under-reported with a tank; heat from the battery is billed as import; import can be
  negative with a boiler; the minimum output is not enforced; the tank can go both ways in an hour; an
  electric heater always costs 0 (C49). The tank uses the network temperatures of hour 1 of the year in every
  hour (C76). After a failed first attempt the heat in the tank is forgotten (C84) and
  the battery is back at its charge of the start of the run, so a run can draw more from it than was ever in it (C115). With
  a boiler the battery can be reported to feed the heat pump with energy it never held (C115). Either way, and when the
  store cannot give what was planned, a run can use more than it is supplied with (C133).
* With a boiler the planning problem has no cheapest plan: nothing limits the heat the boiler is said to get from
  renewables (`aux_rd`) or the heat pump from the battery (`HPtesd`), and the objective pays for both (C111). The
  second also drives the reported import below any number.

Output process and `main`
* `cancel` drops nothing; leftovers survive a restart (C52). `stop` gives up after 30 s with `ValueError` and
  `block` is inverted (C50). A job calling `sys.exit(0)` goes unnoticed (C51).
* With `overwrite`, a workbook called `..xlsx` wipes the output directory and `...xlsx` its parent (C53), and a
  workbook kept in its own results directory is deleted before it is read (C74).
* On two cores a backlog of plots over 30 s makes the run fail; a failing plot is reported as `SystemError`
  after all solves; errors are masked (C54, C75). The output process then goes on writing figures after `main` has
  raised (C121).
* With a heat pump whose minimum output is more than the demand of the first hour and the room in the tank, a study
  stops in its first hour with `ZeroDivisionError` (C125). Tanks of many thin layers, and well insulated tanks with
  connections, stop it with `ValueError` (C125).
* In summer time the panels see an entry of the weather sheet an hour later by the clock than the tariff by weekday
  and hour prices it; the turbines' table is labelled with the leap year 2012 (C127).
* Self-consumption and, with a wind farm, the heat pump's renewable share can be shown as 100.00000000000003 %, and 58 % use of the heat pump as 57.99999999999999 % (C124).
* `findhorn_tariff` reads `data/FindImEx.csv`, which is not shipped, so it always fails; with the file, a surplus raises a price below 30 to 30 (C136).
* Two runs of one study at once with the flag to overwrite: one can remove the folder the other has just made, which
  then fails (C123).
* After a timeout of `stop` the listener of the log is never stopped, so messages of the output process, also errors,
  can be missing from `pylesa.log`; a spawned output process drops DEBUG messages whatever level is set (C117).

Workbook
* The photovoltaic inverter named in the workbook is replaced by a fixed one (C91, C97). Air temperature and wind
  speed of the site are handed to pvlib under names it does not read, so the panels always see 20 degrees and no
  wind (C97).
* Written height, width and insulation thickness of the store, altitude, surface type, air density, balancing
  prices, grid services and the whole demand generation sheet have no effect on the results, figures or tables (C98).
* Batteries, panels and turbines: a row with a gap is skipped without a message, and a stray entry beside the table
  makes every run fail (C95). One missing hour of irradiance makes every run with panels fail (C94).
* A heat pump sheet with a used column to the right of the template's is refused if the heat pump is described by
  test data, and accepted otherwise (C94, `C94_stray_column`). The Lorentz model can be chosen but a run with it fails
  unless the size is 0 (C94). A fuel listed twice takes the last row (C91).
* A study of one size of heat pump, or one size of store, always ends with an exception: the tables are written,
  then the first chart fails (C89, C101). A heat incentive scheme or tariff that is not one of the four names loses
  all tables after all runs have finished (C88, C101).

Demand and renewables
* PV factors are applied by twelfths of the year (C59); the wind helper functions always fail (C80). Seasons do
  not start on the documented dates (C58). Smoothing heat can raise the peak (C77); smoothing fewer than 12
  electricity values changes the length (C60). Numbers of bedrooms outside 1–5 raise `KeyError` (C78).

## 4. Trusted base

* The Lean 4.33.0 kernel. Axioms used: `propext`, `Classical.choice`, `Quot.sound` at most; no others are
  declared. `decide +kernel` is used for concrete witnesses and for whole finite tables; it is evaluated by
  the kernel, not by compiled code. No `native_decide`, `bv_decide`, `sorry` or `admit`.
* Mathlib, as installed (kernel-checked).
* The translation by hand from Python to Lean, and exact arithmetic in place of IEEE floats; for the fixed order
  controller C106–C109 say how far floats can be from it. There the trusted part is that Python's `+ - * /` and
  `round` return the float closest to the exact result (ties to even), that constants are the closest floats, and that
  `x * 0.01` and the like are done in the order of the source. For C124 also that `x ** -0.501` is never negative, and that `np.sum` adds every value once, in
  an order that depends on nothing but their number.
* pandas/openpyxl/pickle: a workbook is a function from sheet names to used ranges of cells (empty, number or
  text). What `read_excel` makes of it, and `drop`, `dropna`, `iloc`, `rename`, `reset_index`, column access and
  arithmetic on columns, are modelled in `Model/Frame.lean` after their documentation. The header is the top row
  of the used range, which is empty in the template (`TopRowsEmpty`). Dates, booleans and formulas in cells are not modelled.
  Pickles return what was stored.
* `scipy.integrate.odeint` integrates a right-hand side that is constant in its argument exactly (the code's
  right-hand side does not depend on it). C128 does without this: it is about every integrator within an error. The
  overheating of C31 and C66 needs an exact tie and so an exact integrator.
* scikit-learn's linear regression returns a minimiser of the squared error (`C17`).
* GEKKO/APOPT: an arbitrary function of hour and attempt that fails or returns a value for each variable. Theorems that rely on the
  posted equations say so (`Spec.Obeys`). C110–C114 are about the problem itself and C115 about plans for it: in GEKKO's dynamic mode the values of the
  first point are fixed, equations hold at the later points and the objective is added up over them; how the two
  differential equations are discretised is a parameter (C115 and, with a battery, C133 assume the implicit Euler rule).
* pvlib and windpowerlib: arbitrary functions of the parameters and weather columns they are given, which fail or
  return a series; pvlib reads `dhi`, `ghi`, `dni` (and fails without) and `temp_air`, `wind_speed` if there. Where a theorem needs
  8760 values it says so (`WholeYear`, `FarmYear`).
* `multiprocessing`: a queue is first in first out, each item taken once; exit codes as documented;
  `join(timeout)` may return early; `close` of a running process raises. For the log (C117): a process that ends
  waits for the feeder of its queue, one that is killed does not; a handler writes one message at a time.
* `shutil.rmtree`, `mkdir` and `open` act on the path they are given; symbolic links, permissions and a full
  disk are not modelled (`rmtree` may fail half way). In C120 a run can be cut off anywhere; a file is opened and then
  complete, with nothing in between.
* matplotlib: `plot`, `stackplot`, `bar` show the points given and raise if lengths differ; `plot_trisurf` raises
  exactly if the points in the plane contain no triangle.
* `datetime`: the proleptic Gregorian calendar it documents.

## 5. What is modelled and what is not

| file | modelled | not modelled |
|---|---|---|
| `controllers/fixed_order.py` | everything except the unused helpers | progress bar |
| `controllers/mpc.py` | `pre_calculation`, `solve`, `moving_horizon`, results, the planning problem | GEKKO's options, its discretisation |
| `storage/electrical_storage.py` | everything | — |
| `storage/hot_water_tank.py` | temperatures, energies, losses, geometry, water table | `odeint` itself |
| `heat/*` | constructor, setters, performance, the four models, auxiliary heater, enums | polynomial features and least squares as library calls |
| `power/grid.py` | every tariff | plots |
| `power/renewables.py` | what is done with the libraries' output, helpers | pvlib, windpowerlib, weather set-up |
| `demand/*` | files read and written, half-hourly table, profiles, aggregation, hot water, smoothing | plots |
| `parametric_analysis.py` | everything | — |
| `tools.py` | `month_split`, `sum_monthly`, `mean_monthly`, `sum_year`, `mean_year`, `timeindex`, `CheckFunctions` | `inputs_path`, `name_error` (never called) |
| `io/outputs.py` | everything: `Calcs`, figures as data, tables, KPI stage | colours, fonts, layout, inverted axes |
| `io/paths.py`, `main.py` | everything | texts of messages, argument parsing |
| `mp/process.py`, `mp/logging.py` | everything; logging as a transition system of its own | a second `start` with the same log queue |
| `io/read_excel.py`, `io/inputs.py` | everything a run uses: all sheets, frames, pickles, text to enums | kinds of cells other than empty, number, text |
| `initialise_classes.py` | everything | — |
| `environment/weather.py` | the columns given to pvlib and windpowerlib | solar position, plots |
| `logging.py` | levels, handlers, what is written where | formats, colours |

## 6. Seeded bugs

`seeded/LOG.jsonl` has one line per edit of a model definition: the edit, the claim it breaks, the theorems
that failed and, where the first build did not fail, the theorems tightened since. `scripts/seed.py` applies an edit in
a scratch copy and rebuilds. `theorems_failed` lists the theorems whose
proofs no longer build and `claims_lost` the property theorems (`Cnn_…`) that are among them or rest on them. An edit
caught only by an `example` was followed by a tightened theorem, or has a note that names the theorem which covers it.
