# Formal model of pysnobal — design and trusted base

## 1. Modelling decisions

* **Numbers.** Python floats are modelled as mathematical reals (`ℝ`, Mathlib); `math.exp/log/cos/sqrt/atan/pow` are
  the real functions.  Rounding, overflow and underflow are *not* modelled.
  NaN is modelled in a second copy of the forcing layer, the physics and the driver over `Option ℝ` (`Missing.lean`,
  `NanFunctions.lean`, `NanSnobal.lean`, `NanDriver.lean`; C77–C80), proved to agree with the model over ℝ on numbers.  Theorems about the driver
  (clock, output records, subdivision, append-only, caches) are proved for an *arbitrary* physics kernel first
  (`Driver.lean: Sim`, `Lemmas/Trace.lean`) and then instantiated, so they do not rest on real arithmetic.
* **Exceptions are values.** Every function that can raise returns `Except Err α`.  `pdiv a b` is Python division:
  `Err.zeroDivision` when `b = 0` (where the operand is a numpy scalar, numpy returns inf/nan with a warning instead of
  raising; the model stops there with `zeroDivision` — one documented exception is the Obukhov length in `hle1`, where
  the numpy behaviour is modelled because ordinary inputs reach it).  `plog`, `psqrt` model `math.log`, `math.sqrt`
  domain errors.
* **Mutation** becomes state passing.  Python object attributes become structure fields with the Python names.
* **Immutable attributes** (parameters, measurement heights, thresholds, roughness) live in `Env`.
* `layer_count`, `e_s_0`, `e_s_l`, `e_g`, `sat_vp` are computed afresh in the physics model; that the Python caches
  always return the fresh value is its own theorem (C38) about a model that does have the cache flags.
* **Dates** are integers (minutes).  Pandas/inicheck/xarray/file formats are outside the model; the *logic* of
  windowing, conversion and renaming is modelled over lists of rows.
* **Runs.** `PySnobal.run` is a function from configuration, input rows and old file content to a result and new file
  content.  A completed run is described by a *trace* (`RunTrace g rows ls m`): the executed run steps, one list per
  data step, each with its level, the precipitation handed to it, and the states before and after.  Theorems about "every
  run step of a run" quantify over configurations `g`, record lists `rows` and traces; that every completed `run` has
  such a trace and conversely is proved (C57).  The lists are not chosen: they are the log kept by the driver itself
  when it is run on a physics kernel that records its calls (`Sim.logged`, proved not to change the result), so a run has
  exactly one trace (`C57_one_history`).

## 2. Files (`lean/Verif/`)

Model:

| file | models |
|---|---|
| `Num.lean` | exceptions, Python division/log/sqrt |
| `Constants.lean` | `core/constants.py`, `libsnobal.py` constants |
| `Functions.lean` | `core/functions.py`, `core/snow.py`, `utils.py` |
| `Libsnobal.lean` | `point/libsnobal.py` (`psi`, `sati`, `satw`, `hle1`, `efcon`, `ssxfr`, …) |
| `Input.lean` | `point/input.py` |
| `SnowState.lean` | `point/snow_state.py` |
| `Snobal.lean` | `point/snobal.py` physics |
| `Driver.lean` | `Snobal.do_data_tstep/divide_tstep/do_tstep/output`, generic over the physics kernel, and its instance |
| `PySnobal.lean` | `pysnobal.py` |
| `Cache.lean` | cached properties of `InputData`/`SnowState` |
| `Spatial.lean` | `spatial/isnobal.py: calc_layers`, array saturation functions, `spatial/snow_state.py`, what `ipysnobal.py` prepares for a cell |
| `Format.lean` | number formatting of `output_to_file` |
| `Missing.lean` | the forcing layer once more with missing values (NaN): `read_input_data` on one row, `InputData`, `InputDeltas`, the liquid water of `precip_event` |
| `NanFunctions.lean`, `NanSnobal.lean`, `NanDriver.lean` | `core/`, `point/libsnobal.py`, `point/snow_state.py`, `point/snobal.py` and `pysnobal.py` once more over values that may be missing (namespace `Nan`) |

Lemmas (`Lemmas/`): `Steps` (each routine as a case distinction), `Layers`, `Ledger`, `Outcome`, `Chain` (a run step as
the chain of its routines), `Invariant`/`StepInv` (structural invariant), `Admissible`, `Water`, `Fresh`, `Flux`,
`Errors`, `Hle`/`HleTotal` (turbulent transfer), `Progress`/`MassProgress` (when routines complete), `Trace`, `Records`,
`Logged` (the driver run with a log of its physics calls), `Run`, `RunTrace`, `StepRecords`, `OneStep`, `Located` (where an exception comes from), `Complete` (a run completes if an invariant makes every run step complete), `Config`, `Input`, and the concrete runs `Witness`, `WitnessRun`,
`WitnessRich` (a storm with snow, rain, melt and runoff followed by any number of quiet hours), `WitnessWind` (a cold
two-layer pack in wind), `WitnessChill` (the same pack in strong wind and colder air), `WitnessThaw` (the same pack on soil at the freezing point), `WitnessDeep` (a ripe two-layer pack through a day of melt and a night of refreezing), `WitnessFrost` (a shallow wet pack that freezes through).
With missing values: `NanNum`, `NanSnow`, `NanRun` (on numbers the `Nan` definitions agree with the others, routine by
routine up to whole runs), `NanStep`, `NanData`, `NanHistory` (what a missing value does to a step, a data step, a run),
`NanWitness`, `NanTail` (a run with a blank wind cell that completes), `NanGap`, `NanGapMass`, `NanGapRun` (fluxes, energy balance,
mass balance and run steps with any blank cells complete if they do with the cells filled in).

Properties (`Props/`): one file per group; theorems named `Cnn_…`; `Examples*.lean` feed the concrete runs to the
theorems to show that their hypotheses are met.

## 3. Property plan

Method key: **U** unfolding and algebra over all inputs; **I** invariant, induction over run steps and records;
**T** trace theorem for an arbitrary physics kernel and its corollaries; **N** the expected property fails: a completed
simulation (or input) violating it is proved to exist, next to what does hold; **R** real analysis.

| property | what is modelled | method | file |
|---|---|---|---|
| C01–C03 precipitation of a record | `InputData.__init__`, `precipitation_inputs` | U | Forcing |
| C04, C05 interpolation, subdivision | `InputDeltas`, `add_deltas`, `do_data_tstep` | T + telescoping | Forcing, Interpolation |
| C06 clock | `do_tstep`, `divide_tstep`, `parse_time_steps` | T; N for non-dividing steps | Clock |
| C07, C08 records | `output`, `divide_tstep` | T | Clock |
| C09, C10 modes, averages | `value_to_bar`, `time_average`, `output` | T, simulation between two runs; the all-mode records of a run in blocks, one per normal record ; histories: the logs of the two modes are equal | Modes, ExamplesModes, ModeHistory |
| C11 subdivision | `below_thold`, `divide_tstep` | T | Clock, Subdivision |
| C12 append-only | `run` | I | Clock |
| C13 layer split | `calc_layers` | U | Pack |
| C14, C15 records | all of the mass balance | I (`Inv`) | Pack |
| C16, C17 cold content, temperature | mass balance, `adjust_layer_temps` | I | Cold |
| C18 round trip | `cold_content`, `new_tsno` | U | Functions |
| C19 mass balance | mass balance | chain of routines, telescoping over the run | Mass |
| C20, C45 bare ground | whole step | U/I | Bare |
| C21, C22, C23 | whole step | inequality by chain + N (completed simulations) | Surplus, Water, NonNeg |
| C24, C25 energy | `snowmelt`, `energy_balance`; C24 also as an energy ledger of the whole run step and as a bound on its melt | U, lifted to run steps; ledger: R | Energy, PackEnergy, MeltBound, ExamplesDeep, ExamplesThaw |
| C26, C29, C30, C53 water and density bounds | `runoff`, `adj_snow`, `init_snow` | I | Retention, Water, Capacity |
| C27, C28 compaction | `time_compact`, `h2o_compact` | U/R against density laws written with literals | Compaction |
| C31–C34, C47, C58, C61 turbulence | `hle1`, `h_le` | induction over iterations, R, N | Turbulence, Exchange, Profile |
| C35, C36, C37, C39, C49, C50, C59 functions | `core/functions.py`, `libsnobal.py` | R; C35 also against the published equations | Functions, IceWater, Stability, Profile, Vapour, Formulas |
| C38 caches | property getters/setters | I over operation sequences | Tables |
| C40 initial temperatures | `PySnobal.__init__`, `init_snow`, first step | N | Initial |
| C41 heights | `h_le`, configuration | U over runs | Pack |
| C42 levels | `parse_time_steps` | U | Clock |
| C43, C44 tables | `read_input`, `output_to_file`, `run` | U over row lists | Tables |
| C46 layer transitions | `adj_layers` | U | Transitions |
| C48 gridded layer split | `iSnobal.calc_layers` | U per cell | Tables |
| C51, C52 completion | mass balance, energy balance | progress lemmas per routine | Progress |
| C54, C55 ledgers of water and depth | mass balance | chain of routines | StepLedger |
| C56 vapour budget | `evap_cond`, soil exchange | sign analysis along the chain | Vapour |
| C57 start and history | `__init__`, `init_snow`, `run` | trace induction | Start, Subdivision |
| C60 temperatures after a step | `adjust_layer_temps` | chain of routines | Thermal |
| C62 when the cover ends | mass balance | chain of routines | Cover |
| C63, C64 shifted, reordered and shortened inputs | `read_input_data`, `run`, time stepping | T: simulation between two runs | Shift |
| C65 formatted output | `output_to_file` | R (rounding) | Printed |
| C66 gridded snow state | `spatial/snow_state.py` | U + C16 | Grid |
| C67 exchange over a warmer surface | `hle1`, `h_le` | I over the passes of the loop (the Obukhov length stays at most −l) + R | Unstable, ExamplesChill |
| C68 where and why a run fails | `run`, `do_data_tstep`, `divide_tstep`, `do_tstep` | T (located exceptions of an arbitrary kernel) + invariants of the completed part | Failure, Lemmas/Located |
| C47, C69 vapour pressure above saturation | `h_le`, `add_deltas`, `do_data_tstep` | T (interpolation) + U, and N: a run that fails | Turbulence, Clipping |
| C70 the exceptions of a run | whole run | I over the run (finite first guess of the exchange, `GuessP`) + case analysis of every raise in a run step, and six N runs | Exceptions |
| C72 flux laws | `energy_balance`, `evap_cond`, `efcon`, `ssxfr`, `kts` | U/R: the step against a specification written with literals only; N for the conductivity | Formulas, ExamplesThaw |
| C73 what of a record matters | `InputData`, `stepPhys`, time stepping, `run` | T: simulation relation between two runs, forcing related field by field | Falls, ExamplesShift |
| C74 refreezing | `snowmelt`, `evap_cond`, `runoff`, whole step | I: exact refreezing laws of `snowmelt` carried through the step, combined with the ledgers of C24, C54, C55 | PackEnergy (`FreezeBooks`), Refreeze, ExamplesFrost |
| C75 radiation | `energy_balance`, whole step, undivided data steps | two executions side by side: fluxes do not influence compaction and precipitation (frame lemmas), `snowmelt` is monotone in the surface energy, ledgers of C54 | Radiation, ExamplesRadiation |
| C76 heat budget | whole run steps, `output` | ledgers of C54, C24 and C74 in every step (melt minus refreezing is loss of ice), telescoped along the unbroken history of C57; means of C10 times the length of C04; the end of the cover by contradiction | HeatBudget, ExamplesHeat |
| C77 blank cells | `read_input_data`, `InputData`, `InputDeltas` with `none` for NaN; the liquid water of `precip_event` | U over all patterns of blanks (closed form of the constructor), induction over run steps; runs by C73; the whole program with `none` refines the program on numbers (routine by routine, generic driver) | Missing, MissingRun, ExamplesMissing |
| C78 a missing weather value ends the snowcover | physics and driver over `Option ℝ` (`Nan*`) | NaN carried through `hle1` and `evap_cond` to depth and mass; invariant over run steps, induction over rows; N a run with 100 kg/m² and any dry rows after a blank wind cell ; `C78_blank_row_completes`: no exception, by following the blank through every division and check | NanPack, NanGap, ExamplesNan, ExamplesNanGap |
| C79 recovery from blanks with the next snowfall | physics and driver over `Option ℝ` (`Nan*`) | snowfall on bare ground overwrites every state variable that is read again; a missing first guess equals one pass less of the iteration from the neutral guess; induction over rows; N a blank wind cell, any number of dry rows, then 100 kg/m² of snow | NanRecover (Lemmas, Props), ExamplesNanRecover |
| C80 weather unread on bare ground | physics and driver over `Option ℝ` (`Nan*`) | relation between two runs (equal but for the forcing), induction over rows; N any number of rows without weather, snowfall on bare ground without weather | NanBare (Lemmas, Props), ExamplesNanBare |
| C81 running out of snow raises only on an exact tie | mass balance, energy balance, run step, driver | composition of the step lemmas without C51's ice condition; the only divisors that can vanish are the pack's mass after evaporation and after runoff; N 50 kg/m² of rain and the exact melt energy on 100 kg/m² of snow (`tie_run`), and a melt-out that completes | MassTies, Ties, ExamplesTies |
| C82 the turbulent-transfer routine raises only on exact ties; every cold wind has one | `hle1`, `psi`, `h_le`, driver | U: a pass raises iff a profile vanishes at its Obukhov length, induction over the passes; composition with C81; N by the intermediate value theorem: a wind speed with a vanishing profile exists for every unstable input and every cold air over ripe snow (`C82_critical_run`) | TurbTies, ExamplesTurb
| C83 in a thaw the pack only warms; the run fails only on exact ties | whole run: forcing interpolation, `hle1`, `energy_balance`, `mass_balance` | P: interpolated thaw forcing is thaw forcing; per step the sign of every flux (C34/C52 stable stratification, C37, C56) and the melt ledger give the next pack; induction over the run steps of the run; U for the exceptions from C81 | Thaw, ExamplesMelt, ExamplesMeltTie
| C84 resuming a run from its last record | whole run, `Snobal.__init__`, `create_snow_state`, `init_snow` | T: relation between two objects (same pack, clock, first guesses), preserved by every run step and data step, induction over the rows; the pack rebuilt by `init_snow` equals the recorded one (C14/C15, C26 water, C60 cold content); composition of runs (C12) | Memory, Resume, ExamplesResume |
| C85 the pack never holds more than was put into it | whole run: `precip_event`, `mass_bal`, driver | I: per routine upper bound on the mass (fall adds at most the precipitation, runoff and melt add nothing, vapour at most the condensation), chained over the routines of a step and telescoped over the run steps; precipitation of the steps adds up to that of the rows (C10); N a run attaining the bound | Held, ExamplesHeld |
| C86 warmer ground never means less melt, except through the freezing point | `g_soil`, `efcon`, `ssxfr`, energy balance, run step, last record of a run | T: relation between two executions (monotone conductivity on either side of freezing, all other routines equal but for the energy terms, monotone melt ledger for both layers); exception by continuity of both vapour-pressure formulas at the freezing point and a numeric bound on `satw`; N two runs, and a cold pack with the drop | Ground, GroundDrop, ExamplesGround |
| C87 gridded preparation of a cell | `ipysnobal.py`: `read_input_data`, `read_initial_conditions`, `iSnobal.__init__` up to `init_snow` | R: equality of whole runs by induction on the series, from the second application of the rain rule in `InputData`; N rain at -1 °C | GridPrep |
| C88 warmer rain never means less melt | `advec`, energy balance, run step, last record of a run | T: relation between two executions as for C75; N 10 mm of rain ten degrees apart | Rain, ExamplesRain |
| C89 retention capacity acts through the runoff | run step, whole runs, initial pack | T/R: relation between two executions up to the runoff, then comparison of the two runoffs; simulation relation over the series (`Follow`); N 10 mm of rain held at 0.2 and 0.4, mostly lost at 0.01 | Holding, ExamplesHolding |
| C90 site read only where snow lies | run step, whole runs | R: equality of run steps without snow, lifted to runs by `Follow`; N snowfall on bare ground at two sites | Site, ExamplesSite |
| C91 finer time steps only for thin layers | `divide_tstep`, `InputDeltas`, whole runs | R: a data step at the normal level as a function of the normal level alone, induction on the series, errors included; N storm and n quiet hours | Levels, ExamplesSite |
| C92 `max_active` only for deeper packs | `calc_layers` in every routine of a run step, whole runs | I/R: bounds on the depth between the routines from the state before the step and its forcing, equality of each routine, lifted to runs by `Follow`; N storm and n quiet hours with 0.25 m and 10 m | ActiveStep, Active, ExamplesActive |
| C93 `small_threshold` only for light packs | `calc_layers` in every routine of a run step, subdivision, whole runs | I/R: bounds on mass and lower layer between the routines from the state before and after the step, equality of each routine, subdivision never asks for the smallest threshold, lifted to runs by `Follow`; a pack that melts out passes through the masses between `a` and `b` and is outside the claim; N storm and n quiet hours (one layer), day and night of half a metre (two layers) | TholdStep, SmallThreshold, ExamplesSmallThreshold |
| C94 thresholds only choose the subdivision | log of a data step, subdivision, whole runs | R: a log that is subdivided as other tests ask for determines the branch taken at each place where they are asked (its first run step shows the tested layers), so the block with the other tests computes the same log; lifted over data steps; converse from C11; N 100 kg/m², k hours in medium steps: thresholds that give the same run and thresholds that do not | Thresholds |
| C95 subdivision interpolates | log of a data step, whole runs, specification of the refined table | I: at every run step boundary the forcing is the interpolated one (up to precipitation amounts, which every step overwrites with its share); the deltas of a refined row equal those of the level below; so each medium interval is a data step of the refined table; induction over intervals and rows. Outside: clipped vapour pressure (the clipped value is what the next deltas are added to, C04) and undivided data steps; N 100 kg/m², any list of vapour pressures, four quarters an hour | Interpolate, ExamplesInterpolate, ModeHistory (snow and clock in normal mode, through the same log in both modes) |
| C96 calm air unread | two runs side by side (`Sim.Agree`: results agree whenever both complete) | S: without wind `hle1` can only return zero fluxes (C34), so the energy balance depends on neither air temperature, vapour pressure, heights nor roughness; no other routine reads them; wind stays exactly 0 since its increments are; induction over run steps, data steps and rows. That the other run completes is a hypothesis: `hle1` may reject heights or not converge; N any two lists of vapour pressures over 100 kg/m² of snow | Agree, CalmAir, ExamplesCalmAir |
| C97 absorbed radiation | two whole runs, including the exceptions and the output file | R: relation `same up to S_n and I_lw, equal absorbed sum` preserved by the energy balance (net radiation is the only reader), by the increments (linear) and hence by run steps, data steps and rows. Exact over ℝ; in floating point the two sums round differently. N humid weather over 100 kg/m² of snow with x W/m² moved from thermal to solar | NetRadiation, ExamplesNetRadiation |
| C98 light initial snow lost | two whole runs, including the exceptions and the output file | S: `init_snow` turns the mass into `h2o_total`, resets everything else, and `do_tstep` starts with `h2o_total = 0`; the first data step over bare ground starts with a normal run step, so from there the two executions are equal. Tables of one row make no run step and keep the water in the final state; N 0.9 kg/m² on the ground, then 100 kg/m² of snowfall | LostStart, ExamplesLostStart |
| C99 light snowfall runs off | a whole run, completion included, over series of any length | S: every subroutine of a normal run step over bare ground evaluated in order, with `init_snow` on up to `small_threshold` of new snow; induction over the rows; other columns unread. One-row tables have no record; N a hundred hours of 1 kg/m² leave nothing, one hour of 100 kg/m² leaves 100 kg/m² | LightSnow, ExamplesLightSnow |
| C100 reversed wind | `hle1`, `h_le` and `energy_balance` as functions, then every run step of a run trace | S: every quantity of one pass is odd in (wind, friction velocity, factor, fluxes) except the Obukhov length, which is even; induction on the passes of the loop; then C34 (stably stratified air) on the reversed arguments, the first guesses by the invariant of C61. Negation is exact in floating point, so the equality holds for the program as well; N a completed run at −0.3 m/s whose pack at −10 °C loses heat to air at 100 °C | ReversedWind, ExamplesReversedWind |
| C101 supersaturation irrelevant | two whole runs, including the exceptions and the output file | S: a run step over snow reads the vapour pressure only through its minimum with saturation (C47), over bare ground not at all; an undivided data step does not read the vapour pressure of the second row; relational induction over the rows as for C91. Subdivided data steps are excluded because there the excess enters the increments (C69); N a windy run over two layers of 75 and 225 kg/m², 650 Pa against 900 Pa at the freezing point | Saturated, ExamplesSaturated |
| C102 equilibrium and settling | run steps and whole runs | S: in calm air there are no turbulent fluxes (C91's `calmSnow`), conduction between equal temperatures and soil exchange between equal humidities vanish, radiation balances, hence the chain of the step reduces to time compaction; temperatures are recomputed from unchanged cold contents and, in two layers, changed masses. The run part is a run invariant over rows and increments. N an hour over 300 kg/m² at −10 °C in two layers and over 75 kg/m² in one | Settling, ExamplesSettling |
| C71 runoff of the melt-out step | run step | T over the chain of routines (mass threshold, melt, vapour) + N run with any melt energy | MeltOut |

Properties of the running program that the model cannot express: results of IEEE rounding (e.g. that the reported columns
add up in floating point), the text of the output file beyond the decimals it denotes, time zones.

## 4. What the proofs found (behaviour of the code as modelled)

* C21: snowfall on bare ground, rain when a pack vanishes inside `precip_event`, and liquid water when the pack melts out
  are counted twice; a proved run has more water at the end than went in.  C22: liquid water left over on snow-free
  ground runs off again every step for ever.
* C23: `m_s` and `z_s` can become negative when the fluxes of a step exceed the pack (proved runs).
* C31: the `hle1` status is always 0 (the loop ends with `it ≤ 49 < 50`); in calm air the iteration never converges and
  success is reported.  C32: exactly neutral air raises `UnboundLocalError`.
* C33: heights between `z0` and `4.9 z0` pass validation and raise a math domain error; at exactly `5.9 z0` the wind
  profile divides by zero.
* C40: initial snow temperatures are read as Kelvin although documented in Celsius; any `t_s_0 ≤ 0` with snow fails.
* C41: `relative_heights` has no effect.  C42: medium > normal step divides by zero; small > medium gives zero small
  steps and the clock stalls (C06).
* C46: splitting one layer into two creates cold content, merging drops it.
* C48: the gridded layer split reports one layer in snow-free cells.
* C27: for 2000 kg/m² and more, compaction does not depend on the step length.
* C51: `max_h2o = 0` makes `runoff` raise `ZeroDivisionError` for every lasting dry pack.
* C77: a blank `rho_snow` in a record with rain only turns the liquid water of an existing pack into NaN (`0 * NaN`), a
  blank `precip_mass` silently drops precipitation, a blank `precip_temp` silently makes snow wet.
* C78: one blank cell in wind, air temperature, humidity or ground temperature silently removes the whole snowcover
  within that data step (the NaN reaches the depth through the evaporation term, the layer count of a NaN depth is zero,
  and the mass is set to zero without appearing as outflow); one blank radiation cell does so one data step later,
  through the snow temperature, and a pack below 550 kg/m³ then leaves as outflow although nothing melted.  No exception
  and no warning.
* C79: what a blank leaves behind lasts only until the next snowfall on bare ground: from there on all values are numbers
  again, so the end of the output may look sound although a whole snowcover was lost in between (C78).
* C81: melting out, evaporating or draining a pack never raises, however much more energy or vapour demand there is than snow
  (C51's ice condition is sufficient but far from necessary), except on exact ties: if the pack's mass is exactly 0.0 while its
  depth is positive, the code divides by it.  `tie_run` is a run that does (rain on ripe snow, all of it draining in one step).
* C82: in unstable air the profiles can vanish: for every air colder than the snow there is a wind speed (an isolated value, found by
  the intermediate value theorem) at which `hle1` divides by zero in its first pass and the run ends. The code does not
  guard against it. (Wind speed and logarithm are Python floats there, so Python raises `ZeroDivisionError`; for the temperature and
  humidity profiles the numerator is a numpy scalar, numpy returns an infinity with a warning, and the model stops there.) Away from such ties, exact neutrality and inadmissible data the routine never raises.
* C83: even in plain thaw weather the run can end in a division by zero: `ExamplesMeltTie` is a saturated 75 kg/m² pack under a sky whose
  radiation makes the code drain exactly the mass of the pack.  A pack drained below zero mass stays in place with its depth and
  is at the freezing point from then on; it can only fail if compaction brings its density to exactly zero.
* C84: a record does not hold the state of a run. The first guesses `init_ustar` and `init_factor` of the turbulence equations are carried from
  step to step and appear in no record; the temperature of the lower layer has no documented configuration key; the cold content of a run is
  counted with the heat capacity at the temperature before the step, so that a resumed pack is colder whenever the surface warmed in the last
  step; water left over on bare ground (C22) is lost; a pack that lost mass by runoff may be split differently. Exact equality of the resumed run is proved when
  every run step so far began on bare ground (then no first guess has been stored), which is always resumable with admissible data.
* C86: the latent heat in the effective conductivity of the ground changes from sublimation to vaporisation at 273.16 K (and is their mean exactly
  there), while the vapour pressure is continuous up to 5 %: under a pack with a cold base, ground just above freezing conducts less heat than ground just below it.
* C87: the rain rule of the point driver (pysnobal.py:249–252), said there to be present in Snobal and not in iSnobal, is redundant: `InputData` applies it again.
  `iSnobal.__init__` calls `init_snow(True)`, which takes no argument, so `iPySnobal.run` always raises.
* C98: initial snow up to the small mass threshold disappears: `init_snow` adds its mass to `h2o_total`, which `do_tstep` (snobal.py:243)
  sets to zero before anything reads it, so it is neither in the pack nor in the runoff of any record.
* C99: on bare ground, snowfall of up to the small mass threshold per data step becomes runoff in the same step and never accumulates,
  so with hourly rows and the usual threshold of 1 kg/m² an unlimited amount of light snow leaves the ground bare, at any temperature.
* C100: nothing rejects a negative wind speed (neither `InputData` nor `hle1`, which checks heights, temperatures and pressures), although
  −9999 is a usual code for missing values; the run goes on with heat flowing from cold to warm.
* C102: a uniform two-layer pack in perfect balance with its surroundings does not stay uniform: settling moves mass, but not cold content, from the lower to the surface layer, so the surface warms and the lower layer cools without any heat flow.
* C62: vapour exchange can take a pack below the mass threshold without releasing it when surface sublimation and soil
  condensation cancel exactly in the ice.

## 5. Trusted base

* The Lean 4.33.0 kernel.  Axioms: every theorem depends on at most `propext`, `Classical.choice`, `Quot.sound`
  (`#print axioms`; the real numbers of Mathlib need all three).  No axioms are declared, no compiled evaluation is used.
* The reading of `/repo` recorded in the comments of the model: each definition cites file and lines.
* Modelled: `core/constants.py`, `core/functions.py`, `core/snow.py`, `utils.py`, `point/libsnobal.py`, `point/input.py`,
  `point/snow_state.py`, `point/snobal.py`, `pysnobal.py` (logic of configuration, input window, unit conversion, run
  loop, output table, number formatting), `spatial/isnobal.py: calc_layers`, `spatial/snow_state.py`.
* Not modelled: IEEE rounding/overflow, NaN arising from infinities (a NaN that enters with the forcing is
  modelled: `Missing.lean`, `Nan*.lean`, `none` for NaN, arithmetic with it gives NaN, comparisons are false), numpy warnings, pandas CSV parsing and formatting, inicheck configuration
  checking, time zones, xarray/netCDF, the unfinished spatial driver (`iSnobal.__init__` and `iPySnobal.run` raise
  before doing any work), `cli.py` (a placeholder).

## 6. Tests of the theorems

`seeded/LOG.jsonl` lists the wrong programs tried: one edit of the model each, rebuilt in a scratch copy with errors
tolerated; a theorem counts as failed when its own proof or that of a lemma it uses no longer goes through.
