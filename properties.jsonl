{"id": "C01", "title": "Precipitation is partitioned without loss", "statement": "Constructing InputData splits m_pp into m_snow and m_rain with m_snow + m_rain = m_pp; with 0 <= percent_snow <= 1 and m_pp >= 0 both parts are non-negative, and when snow falls z_snow * rho_snow = m_snow.", "quantifier": "all forcing records", "why_tests_cant": "the split is real-valued; tests only sample four records", "anchors": ["pysnobal/point/input.py:InputData.__init__", "pysnobal/point/input.py:InputData.precipitation_inputs"]}
{"id": "C02", "title": "InputData rejects exactly the records with snowfall of non-positive density", "statement": "InputData(data) raises ValueError if and only if m_pp > 0, m_pp*percent_snow > 0 and rho_snow <= 0; every other record is accepted.", "quantifier": "all forcing records", "why_tests_cant": "an iff over all real inputs", "anchors": ["pysnobal/point/input.py:InputData.precipitation_inputs"]}
{"id": "C03", "title": "Precipitation phase and temperature are consistent", "statement": "For every accepted record with precipitation: rain is never below freezing, falling snow is never above freezing, mixed or warm snow arrives saturated at freezing, cold snow arrives dry at its own temperature.", "quantifier": "all forcing records with precipitation", "why_tests_cant": "case analysis over a continuum of temperatures and fractions", "anchors": ["pysnobal/point/input.py:InputData.precipitation_inputs"]}
{"id": "C04", "title": "Forcing is interpolated to exactly the next record", "statement": "Throughout a data step every run step starts with the forcing (S_n, I_lw, t_a, u, t_g) that linear interpolation in time between the two records gives for the minutes passed, however the data step is subdivided, and after do_data_tstep it equals the second record exactly; the working vapour pressure is the interpolated value minus what was clipped earlier in the data step, never exceeds the second record's at the end and equals it if it was never clipped.", "quantifier": "all record pairs, all snow states, all subdivisions of the data step (time steps that divide evenly)", "why_tests_cant": "the subdivision depends on the snow mass during the step; there are 1+2^4 shapes for the default config and unboundedly many in general", "anchors": ["pysnobal/point/snobal.py:do_data_tstep", "pysnobal/point/snobal.py:divide_tstep", "pysnobal/point/snobal.py:do_tstep", "pysnobal/point/input.py:InputDeltas.calculate", "pysnobal/point/input.py:InputData.add_deltas"]}
{"id": "C05", "title": "Precipitation is conserved by subdivision", "statement": "The precipitation (total, snow, rain, depth of snowfall) applied over the run steps of one data step adds up to the record's precipitation, however the step was subdivided.", "quantifier": "all records, all snow states, all subdivisions", "why_tests_cant": "data-dependent number of steps and levels", "anchors": ["pysnobal/point/snobal.py:divide_tstep", "pysnobal/point/snobal.py:do_tstep", "pysnobal/point/input.py:InputDeltas.calculate", "pysnobal/point/input.py:InputData.update_precip_deltas"]}
{"id": "C06", "title": "The model clock advances by exactly one normal step per record", "statement": "After n calls of do_data_tstep current_datetime = start_date + n * norm_time_step, whatever the physics does and however steps are subdivided, provided medium divides normal and small divides medium; otherwise the clock can fall behind.", "quantifier": "all histories of records, all physics outcomes, all time step configurations", "why_tests_cant": "unbounded histories and data-dependent subdivision", "anchors": ["pysnobal/point/snobal.py:do_data_tstep", "pysnobal/point/snobal.py:divide_tstep", "pysnobal/point/snobal.py:do_tstep", "pysnobal/pysnobal.py:PySnobal.parse_time_steps"]}
{"id": "C07", "title": "Normal mode emits exactly one record per data step, on the hour", "statement": "In output mode normal, after n data steps output_list has exactly n records and the k-th is stamped start_date + k*norm_time_step.", "quantifier": "all histories, all physics outcomes", "why_tests_cant": "unbounded histories", "anchors": ["pysnobal/point/snobal.py:divide_tstep", "pysnobal/point/snobal.py:output"]}
{"id": "C08", "title": "All mode emits one record per run step with strictly increasing stamps", "statement": "In output mode all, each run step appends exactly one record, time stamps are strictly increasing, each equals the previous plus that step's length, and every data step ends on a record stamped at its end.", "quantifier": "all histories, all physics outcomes", "why_tests_cant": "data-dependent number of records", "anchors": ["pysnobal/point/snobal.py:do_tstep", "pysnobal/point/snobal.py:output"]}
{"id": "C09", "title": "Output mode does not influence the simulation", "statement": "Running the same inputs in mode normal and mode all either raises the same exception or yields the same snow state, forcing and clock after every data step; the records of mode all then split into consecutive blocks, one for each record of mode normal, whose swi, melt and E_s are the sums over the block, whose flux columns are the time-weighted means over the block, and whose snow columns and time stamp are those of the last record of the block. A completed run executes exactly the same run steps in both modes.", "quantifier": "all configurations, all histories", "why_tests_cant": "relational property over pairs of runs", "anchors": ["pysnobal/point/snobal.py:do_tstep", "pysnobal/point/snobal.py:divide_tstep", "pysnobal/point/snobal.py:output", "pysnobal/point/snow_state.py:time_average", "pysnobal/point/snow_state.py:value_to_bar"]}
{"id": "C10", "title": "Reported fluxes are time-weighted means and reported masses are totals since the last output", "statement": "At each output the eight *_bar values equal sum(dt_i*v_i)/sum(dt_i) and E_s_sum/melt_sum/swi_sum equal the sums over the run steps since the previous output; a mean lies between the smallest and largest averaged value.", "quantifier": "all sequences of run steps", "why_tests_cant": "unbounded sequences with mixed step lengths", "anchors": ["pysnobal/point/snobal.py:do_tstep", "pysnobal/point/snobal.py:output", "pysnobal/point/snow_state.py:time_average", "pysnobal/point/snow_state.py:value_to_bar", "pysnobal/core/functions.py:time_average"]}
{"id": "C11", "title": "Thin layers, and only thin layers, make the model use finer steps", "statement": "Every data step executes exactly one normal-length run step if no snow layer is lighter than norm_threshold when it starts; otherwise it consists of exactly as many medium intervals as fill it. Each medium interval executes exactly one medium run step if no layer is lighter than medium_threshold when it starts, and otherwise exactly as many small steps as fill it; small steps never subdivide further. So no run step executes at the normal (medium) length while a layer is lighter than the normal (medium) threshold. The recursion always terminates and never indexes outside the three levels.", "quantifier": "all configurations whose time steps divide one another, and the snow state at each run step of every history", "why_tests_cant": "depends on intermediate states", "anchors": ["pysnobal/point/snobal.py:divide_tstep", "pysnobal/point/snobal.py:below_thold"]}
{"id": "C12", "title": "Output is append-only and runs compose", "statement": "Processing more records never alters already emitted output records, and running xs then ys equals running xs ++ ys.", "quantifier": "all histories and split points", "why_tests_cant": "unbounded histories", "anchors": ["pysnobal/point/snobal.py:output", "pysnobal/point/snobal.py:do_data_tstep", "pysnobal/pysnobal.py:PySnobal.run"]}
{"id": "C13", "title": "Layer split contract", "statement": "calc_layers yields no layers iff m_s <= small threshold (or the depth is not positive), never loses depth otherwise, makes the surface layer exactly max_z_s_0 when there are two layers, and never keeps a lower layer lighter than the small threshold.", "quantifier": "all snow states", "why_tests_cant": "boundary cases over the reals; tests sample four", "anchors": ["pysnobal/point/snow_state.py:calc_layers", "pysnobal/point/snow_state.py:layer_count"]}
{"id": "C14", "title": "Every output record describes a consistent two-layer pack", "statement": "In every output record z_s = z_s_0 + z_s_l, cc_s = cc_s_0 + cc_s_l, a lower layer implies a full-depth active layer, and with snow present m_s = rho*z_s, m_s_0 = rho*z_s_0, m_s_l = rho*z_s_l, hence m_s = m_s_0 + m_s_l.", "quantifier": "all runs, all output records", "why_tests_cant": "invariant over unbounded histories", "anchors": ["pysnobal/point/snobal.py:adj_snow", "pysnobal/point/snobal.py:adj_layers", "pysnobal/point/snobal.py:init_snow", "pysnobal/point/snow_state.py:calc_layers", "pysnobal/point/snow_state.py:layer_mass"]}
{"id": "C15", "title": "Snow-free records are canonical", "statement": "A record without snow layers has m_s = m_s_0 = m_s_l = rho = 0, zero cold contents, zero saturation, and all three temperatures at -75 C.", "quantifier": "all runs, all output records", "why_tests_cant": "invariant over unbounded histories", "anchors": ["pysnobal/point/snobal.py:adj_layers", "pysnobal/point/snobal.py:init_snow"]}
{"id": "C16", "title": "Cold content is never positive", "statement": "With admissible data cc_s_0 <= 0 after every run step and in every output record; cc_s_l <= 0 and cc_s <= 0 as well, unless a run step begins with a two-layer pack whose mean temperature t_s is below 0 K (t_s is the one temperature the code never checks).", "quantifier": "all runs", "why_tests_cant": "invariant over unbounded histories", "anchors": ["pysnobal/point/snobal.py:snowmelt", "pysnobal/point/snobal.py:adj_layers", "pysnobal/point/snobal.py:init_snow", "pysnobal/point/snobal.py:cold_content"]}
{"id": "C17", "title": "Snow temperatures never exceed freezing", "statement": "With admissible data, after every run step and in every record with positive snow mass t_s_0 is at most the freezing temperature, and a pack without cold content is exactly at freezing; t_s and t_s_l are at most the freezing temperature as well, unless a run step begins with a two-layer pack whose mean temperature t_s is below 0 K.", "quantifier": "all run steps", "why_tests_cant": "real-valued invariant", "anchors": ["pysnobal/point/snow_state.py:adjust_layer_temps", "pysnobal/core/snow.py:new_tsno"]}
{"id": "C18", "title": "Cold content and temperature are mutually inverse", "statement": "Recomputing a layer's temperature from the cold content computed from that temperature returns the temperature, for every sub-freezing temperature and positive mass.", "quantifier": "all temperatures and masses", "why_tests_cant": "round trip over the reals", "anchors": ["pysnobal/point/snobal.py:cold_content", "pysnobal/core/snow.py:new_tsno", "pysnobal/core/snow.py:heat_stor"]}
{"id": "C19", "title": "Mass is conserved while the snow cover persists", "statement": "If the snow cover lasts through a run step then the change of m_s equals precipitation plus E_s minus swi exactly; summed over a data step and over a run this holds for the E_s, swi and m_s columns of the output.", "quantifier": "all run steps and all histories of steps with persisting snow", "why_tests_cant": "unbounded histories; equality over the reals", "anchors": ["pysnobal/point/snobal.py:mass_balance", "pysnobal/point/snobal.py:adj_snow", "pysnobal/point/snobal.py:runoff", "pysnobal/point/snobal.py:evap_cond", "pysnobal/point/snobal.py:precip_event"]}
{"id": "C20", "title": "Rain on bare ground runs off completely", "statement": "With no snow cover, no stored water and no snowfall, swi of a run step equals the rain and the snow state stays snow-free.", "quantifier": "all rain amounts and forcings", "why_tests_cant": "all inputs", "anchors": ["pysnobal/point/snobal.py:precip_event", "pysnobal/point/snobal.py:runoff"]}
{"id": "C21", "title": "No run step and no run loses water, and the surplus the code creates is known", "statement": "With admissible data m_s + swi after a run step is at least m_s + precipitation + E_s before it, and over a run final mass plus runoff is at least initial mass plus precipitation plus vapour exchange. Equality does not hold: when snow falls on bare ground the retained water of the new pack is counted twice (the surplus is exactly h2o), and a completed simulation with such a surplus exists. The other surplus, in the step in which the pack melts out, is C71.", "quantifier": "all run steps", "why_tests_cant": "requires the exact accounting of every path", "anchors": ["pysnobal/point/snobal.py:adj_layers", "pysnobal/point/snobal.py:init_snow", "pysnobal/point/snobal.py:runoff", "pysnobal/point/snobal.py:precip_event"]}
{"id": "C22", "title": "Water left on bare ground runs off again in every step", "statement": "Snow-free ground whose h2o variable still holds w reports w plus the rain as runoff in every later data step without snowfall. Such states are reachable: there is an admissible simulation in which, with less than 1.02 kg/m2 of water ever available, any number n of dry snow-free hours each report the same positive runoff. (So the expected 'no runoff without water' holds exactly when h2o is zero; see C45.)", "quantifier": "all reachable snow-free states", "why_tests_cant": "needs a reachable corner state", "anchors": ["pysnobal/point/snobal.py:precip_event", "pysnobal/point/snobal.py:adj_layers"]}
{"id": "C23", "title": "When snow mass and depth stay non-negative", "statement": "With admissible data, if in every run step the melt and the vapour loss are within the ice (and mass) at hand, m_s >= 0 and z_s >= 0 after every run step and in every record; packs with layers always have positive depth. Without that bound both fail: there are admissible simulations with a record of negative mass, and with a record of negative depth.", "quantifier": "all runs", "why_tests_cant": "needs an energy-extreme step", "anchors": ["pysnobal/point/snobal.py:snowmelt", "pysnobal/point/snobal.py:runoff", "pysnobal/point/snobal.py:adj_snow", "pysnobal/point/snow_state.py:calc_layers"]}
{"id": "C24", "title": "Melting and refreezing conserve energy", "statement": "In snowmelt the energy delta_Q*dt entering the pack equals the change of cold content plus latent heat of fusion times the change of liquid water, up to the documented 1e-8 kg/m2 snap, as long as the pack keeps its cover and its number of layers. When melt merges two layers into one, the remaining cold content of the lower layer is discarded (energy appears from nothing, at most that cold content). When the pack vanishes its whole mass is added to the liquid water whatever the energy. Over a whole run step through which the cover lasts the surface layer ends with a cold content between what its fluxes left and zero, and excess energy has been spent on melt. Moreover, with admissible data, over every run step through which the cover lasts the energy the fluxes bring to the layers equals the change of cold content plus latent heat of fusion times (melt minus refrozen water), with exactly the melt and the refrozen water of that step's water ledger (C54); the lower layer's cold content changes otherwise only by relayering (discarded on merging, or that of a new lower layer at the mean temperature on splitting). So delta_Q*dt = change of the pack's cold content + Lf*(melt - refrozen) holds in every dry step on a one-layer pack no deeper than the surface layer, and in every dry, non-condensing step with two layers at its start and end unless gravity compacts the pack past 600 kg/m3. No run step, whether or not the pack outlasts it, melts more than the surface layer's energy in excess of its cold content and the heat flowing into the lower layer can melt.", "quantifier": "all states and fluxes; all run steps of all runs with admissible data", "why_tests_cant": "all branches of melt and refreeze in both layers", "anchors": ["pysnobal/point/snobal.py:snowmelt", "pysnobal/core/snow.py:melt"]}
{"id": "C25", "title": "Energy budget identities", "statement": "After a run step delta_Q_0 = R_n+H+L_v_E+G_0+M and delta_Q = delta_Q_0 + G - G_0; a one-layer pack has G = G_0 and delta_Q = delta_Q_0; without snow every term and the vapour flux is zero.", "quantifier": "all run steps", "why_tests_cant": "all inputs", "anchors": ["pysnobal/point/snobal.py:energy_balance", "pysnobal/point/snobal.py:heat_transfer"]}
{"id": "C26", "title": "Liquid water retention is capped and runoff only follows saturation", "statement": "After a run step with persisting snow 0 <= h2o <= h2o_max, 0 <= h2o_sat <= 1, h2o_vol = h2o_sat*max_h2o_vol; swi > 0 only if the pack is exactly saturated; h2o + swi equals the total liquid water.", "quantifier": "all run steps with snow", "why_tests_cant": "all inputs", "anchors": ["pysnobal/point/snobal.py:runoff"]}
{"id": "C27", "title": "Gravity compaction only densifies", "statement": "For every pack on the ground and every positive step length time_compact completes, leaves packs at or above 550 kg/m3 alone, and otherwise keeps the mass and makes the pack strictly denser and shallower (a pack at or below the smallest threshold is released as liquid water). For packs of at least 2000 kg/m2 the result does not depend on the step length. The new density is the documented law: the settling and overburden rates of Anderson's formula over the step length in hours, as a function of density, mean temperature and mass at the start.", "quantifier": "all snow states and step lengths", "why_tests_cant": "transcendental rates over a continuum", "anchors": ["pysnobal/point/snobal.py:time_compact"]}
{"id": "C28", "title": "Liquid water compaction is monotone and bounded", "statement": "h2o_compact never changes mass, never lowers density, and never raises it to 550 kg/m3 or above; nothing happens for additions below 1e-6. The new density is the documented function of the old density and of the added water relative to the mass (melt plus rain).", "quantifier": "all snow states", "why_tests_cant": "all inputs", "anchors": ["pysnobal/point/snobal.py:h2o_compact"]}
{"id": "C29", "title": "Density is clipped at 600 kg/m3", "statement": "After every run step that starts and ends with snow cover, rho <= 600.", "quantifier": "all run steps", "why_tests_cant": "the clip must be re-established on all paths", "anchors": ["pysnobal/point/snobal.py:adj_snow", "pysnobal/point/snobal.py:mass_balance"]}
{"id": "C30", "title": "Water quantities are non-negative", "statement": "melt, swi, h2o and the step's total liquid water are non-negative at every run step for admissible forcing.", "quantifier": "all runs with admissible forcing and configuration", "why_tests_cant": "invariant over unbounded histories", "anchors": ["pysnobal/point/snobal.py:snowmelt", "pysnobal/point/snobal.py:evap_cond", "pysnobal/point/snobal.py:runoff", "pysnobal/point/snobal.py:precip_event"]}
{"id": "C31", "title": "Non-convergence of the turbulent-flux iteration is never reported", "statement": "hle1 returns status 0 whenever it returns, so do_data_tstep never raises the did-not-converge exception, whatever the configuration, forcing and snow; for every valid calm input with a temperature difference the iteration provably never converges and hle1 still returns status 0, with zero fluxes.", "quantifier": "all calls", "why_tests_cant": "needs a proof that no input can produce the status", "anchors": ["pysnobal/point/libsnobal.py:hle1", "pysnobal/point/snobal.py:h_le"]}
{"id": "C32", "title": "Exactly neutral air is not handled", "statement": "When potential air temperature equals surface temperature hle1 never returns; for every otherwise valid input it raises UnboundLocalError.", "quantifier": "all valid neutral inputs", "why_tests_cant": "a measure-zero input set that random tests never hit", "anchors": ["pysnobal/point/libsnobal.py:hle1"]}
{"id": "C33", "title": "hle1 validates its inputs", "statement": "hle1 raises for non-positive roughness, heights not above roughness, non-Kelvin temperatures, non-positive pressures, vapour pressures not below air pressure, and vapour pressure more than 25 Pa above saturation; it never returns a value for such inputs.", "quantifier": "all calls", "why_tests_cant": "all inputs", "anchors": ["pysnobal/point/libsnobal.py:hle1"]}
{"id": "C34", "title": "Turbulent fluxes are consistent", "statement": "Whenever hle1 returns, the latent heat flux is the mass flux times the latent heat of sublimation (surface at or below freezing) or vaporisation (above), and zero wind gives zero fluxes. For every valid input with wind, heights above 5.9 roughness lengths, potential air temperature above surface temperature and air at least as moist as the surface, hle1 returns, heat and vapour flow towards the surface and neither flux exceeds its neutral-profile value. Whenever the final stability is not unstable, the fluxes have the signs of the temperature and humidity differences. The Obukhov lengths that occur in a simulation are never zero. In stably stratified air with wind, where temperature and humidity are measured at one height and all heights exceed 5.9 roughness lengths, hle1 returns and both fluxes are the differences times one positive exchange coefficient not above that of the neutral profile.", "quantifier": "all calls", "why_tests_cant": "iterative result, all inputs", "anchors": ["pysnobal/point/libsnobal.py:hle1", "pysnobal/point/libsnobal.py:psi", "pysnobal/point/libsnobal.py:spec_hum"]}
{"id": "C35", "title": "Saturation vapour pressure is well behaved", "statement": "sati/satw raise exactly for negative (or zero) temperature, are strictly positive, strictly increasing over (0, 373.15 K], and sati(FREEZE) = 610.71 exactly; from 210 K up to freezing saturation over ice is below saturation over water, and at no temperature does it exceed it by more than 25 Pa (the excess hle1 tolerates). Wherever they return, the decimal logarithm of the result is the published Goff-Gratch equation, over water for satw and for sati above freezing, over ice for sati up to freezing.", "quantifier": "all temperatures", "why_tests_cant": "continuum, transcendental", "anchors": ["pysnobal/point/libsnobal.py:sati", "pysnobal/point/libsnobal.py:satw"]}
{"id": "C36", "title": "Stability functions have the right sign and range", "statement": "psi is non-positive and at least -5.2 in stable air, 0 in neutral, non-negative in unstable air, monotone in zeta; an unknown code is rejected only in unstable air.", "quantifier": "all zeta, all codes", "why_tests_cant": "continuum", "anchors": ["pysnobal/point/libsnobal.py:psi"]}
{"id": "C37", "title": "Conducted heat flows from warm to cold", "statement": "ssxfr has the sign of t2 - t1, is zero iff they are equal, is antisymmetric under swapping layers and bounded by the single-layer flux; efcon never lies below the layer conductivity.", "quantifier": "all positive conductivities and thicknesses", "why_tests_cant": "continuum", "anchors": ["pysnobal/point/libsnobal.py:ssxfr", "pysnobal/point/libsnobal.py:efcon", "pysnobal/point/snobal.py:g_soil", "pysnobal/point/snobal.py:g_snow"]}
{"id": "C38", "title": "Cached vapour pressures and layer counts are never stale", "statement": "Any interleaving of temperature assignments and reads returns the saturation vapour pressure of the current temperature; layer_count reads are current as long as depths change only through calc_layers.", "quantifier": "all operation sequences", "why_tests_cant": "unbounded histories of reads and writes", "anchors": ["pysnobal/point/input.py:InputData.sat_vp", "pysnobal/point/input.py:InputData.e_g", "pysnobal/point/snow_state.py:SnowState.e_s_0", "pysnobal/point/snow_state.py:SnowState.e_s_l", "pysnobal/point/snow_state.py:SnowState.layer_count"]}
{"id": "C39", "title": "Air pressure follows the standard atmosphere", "statement": "hysat as used by Snobal gives sea level pressure at elevation 0, is positive and strictly decreasing with elevation below 44.3 km.", "quantifier": "all elevations", "why_tests_cant": "continuum", "anchors": ["pysnobal/core/functions.py:hysat", "pysnobal/point/snobal.py:Snobal.__init__"]}
{"id": "C40", "title": "Initial snow temperatures are read as Kelvin although documented in Celsius", "statement": "A simulation with two or more records that starts with snow fails in its first data step, and leaves the output file alone, whenever t_s_0 <= 0 (every freezing temperature in the documented unit Celsius, including the default 0), and whenever it starts with two layers and t_s_l (not a documented setting) is missing or not positive.", "quantifier": "all initial conditions with snow", "why_tests_cant": "class of inputs rather than one", "anchors": ["pysnobal/pysnobal.py:PySnobal.run", "pysnobal/point/snobal.py:create_snow_state", "pysnobal/point/snobal.py:init_snow", "pysnobal/point/snobal.py:energy_balance", "pysnobal/pysnobal_core_config.ini:initial_snow_properties"]}
{"id": "C41", "title": "Measurement heights are always taken above the ground", "statement": "The turbulent scheme is always given the configured heights minus the snow depth; the setting relative_heights does not influence a run.", "quantifier": "all configurations and runs", "why_tests_cant": "relational", "anchors": ["pysnobal/pysnobal.py:PySnobal.parse_params", "pysnobal/point/snobal.py:Snobal.__init__", "pysnobal/point/snobal.py:h_le"]}
{"id": "C42", "title": "Time step levels are consistent", "statement": "parse_time_steps gives positive interval counts whose lengths tile the normal step exactly whenever medium divides normal and small divides medium; a medium step longer than the normal one is rejected with ZeroDivisionError at the first data step.", "quantifier": "all integer configurations", "why_tests_cant": "all integers", "anchors": ["pysnobal/pysnobal.py:PySnobal.parse_time_steps", "pysnobal/point/input.py:InputDeltas.calculate"]}
{"id": "C43", "title": "Input window and unit conversion", "statement": "The simulated records are exactly the input rows with start_date <= t <= end_date + dt, in increasing time order, temperatures shifted to Kelvin, and rain never colder than freezing; re-applying the rain rule changes nothing.", "quantifier": "all input tables", "why_tests_cant": "all tables", "anchors": ["pysnobal/pysnobal.py:PySnobal.read_input_data"]}
{"id": "C44", "title": "Output table and all-or-nothing file", "statement": "If any data step raises, no output file is written; otherwise the table has one row per emitted record in time order with the 25 documented columns, temperatures converted to Celsius and flux columns taken from the averages.", "quantifier": "all runs and failure points", "why_tests_cant": "all crash points", "anchors": ["pysnobal/pysnobal.py:PySnobal.run", "pysnobal/pysnobal.py:PySnobal.output_to_file"]}
{"id": "C45", "title": "Bare ground in dry weather is a fixed point", "statement": "Without snow, stored water and precipitation, any number of data steps leaves the snow state unchanged and reports zero melt, swi, E_s and fluxes.", "quantifier": "all histories of dry records", "why_tests_cant": "unbounded histories", "anchors": ["pysnobal/point/snobal.py:do_tstep", "pysnobal/point/snobal.py:mass_balance", "pysnobal/point/snobal.py:energy_balance"]}
{"id": "C46", "title": "What layer transitions do to cold content", "statement": "When a one-layer pack splits, the surface layer keeps the cold content of the whole pack and the new lower layer gets cold content of its own, so that the pack becomes colder by exactly the heat needed to warm the lower layer to freezing; when two layers merge the cold content of the lower layer is dropped; without a change in the number of layers both cold contents are unchanged.", "quantifier": "all layer transitions", "why_tests_cant": "exact accounting", "anchors": ["pysnobal/point/snobal.py:adj_layers"]}
{"id": "C47", "title": "Vapour pressure handed to the turbulent scheme is at most saturation", "statement": "h_le lowers the working vapour pressure to the saturation value over ice at air temperature when above it, leaves it alone otherwise, and never raises it; over snow the excess has no effect on the run step whatsoever (outcome or exception), and hle1's 'vapor pressure exceeds air saturation' error is therefore never raised in a run.", "quantifier": "all run steps with snow", "why_tests_cant": "all inputs", "anchors": ["pysnobal/point/snobal.py:h_le"]}
{"id": "C48", "title": "Where gridded and point layer splits agree", "statement": "With positive thresholds the gridded calc_layers gives the same three depths as the point code in every cell, and the same layer count in every cell with snow; in every cell whose mass is not above the threshold it reports one layer where the point code reports none.", "quantifier": "all cells", "why_tests_cant": "all inputs", "anchors": ["pysnobal/spatial/isnobal.py:calc_layers", "pysnobal/point/snow_state.py:calc_layers"]}
{"id": "C49", "title": "Array and scalar saturation vapour pressures agree", "statement": "sati_np/satw_np give on each element exactly what sati/satw give for a positive temperature.", "quantifier": "all arrays", "why_tests_cant": "all inputs", "anchors": ["pysnobal/point/libsnobal.py:sati_np", "pysnobal/point/libsnobal.py:satw_np", "pysnobal/point/libsnobal.py:sati", "pysnobal/point/libsnobal.py:satw"]}
{"id": "C50", "title": "Advected heat and net radiation have the right direction", "statement": "Rain warmer than the snow surface advects non-negative heat; net radiation strictly decreases with snow surface temperature.", "quantifier": "all forcings with non-negative precipitation amounts, rain below 1900 K and snow above 0 K", "why_tests_cant": "continuum", "anchors": ["pysnobal/point/snobal.py:advec", "pysnobal/point/snobal.py:net_radiation"]}
{"id": "C51", "title": "The mass balance completes", "statement": "For a consistent pack whose ice exceeds the melt and vapour loss of the step, soil whose vapour exchange can be computed, positive retention capacity and admissible precipitation mass_balance completes without exception; with a retention capacity of zero no mass balance of a lasting dry snow cover completes.", "quantifier": "all consistent packs and fluxes", "why_tests_cant": "all paths and inputs", "anchors": ["pysnobal/point/snobal.py:mass_balance"]}
{"id": "C52", "title": "When a run step completes", "statement": "A run step completes, without exception, whenever its turbulent-transfer routine completes, the pack is consistent (positive mass, temperatures above absolute zero and at most freezing, configured retention capacity positive) and its ice exceeds what the fluxes of the step melt and sublimate; the energy balance alone completes exactly when the turbulent-transfer routine does, and that completes in windy, stably stratified air with instruments above 5.9 roughness lengths.", "quantifier": "all configurations, forcings, packs (0, 1 or 2 layers) and step lengths", "why_tests_cant": "absence of ZeroDivisionError, math domain error, sys.exit over a continuum of states and all layer transitions", "anchors": ["pysnobal/point/snobal.py:do_tstep", "pysnobal/point/snobal.py:energy_balance", "pysnobal/point/snobal.py:mass_balance", "pysnobal/point/libsnobal.py:hle1"]}
{"id": "C53", "title": "The retention capacity is the configured fraction of the pore space", "statement": "Whenever snow layers are present after a run step, and in every output record that shows layers, h2o_max equals max_h2o * 1000 * (z_s - (m_s - h2o) / 917): the configured fraction of the depth not taken by ice, times the density of water.", "quantifier": "all configurations and forcing files, every run step and record", "why_tests_cant": "holds after every history of compaction, snowfall, melt and runoff", "anchors": ["pysnobal/core/snow.py:h2o_left", "pysnobal/point/snobal.py:runoff", "pysnobal/point/snobal.py:init_snow"]}
{"id": "C54", "title": "Liquid water is accounted for in every run step", "statement": "In every run step through which the snow cover lasts, retained water plus runoff at the end equals retained water at the start, plus rain, plus the water in new wet snow, plus melt, minus what refreezes (which is exactly what reduces the cold content of the surface layer, and nothing in a lower layer that is neither cold nor losing energy), minus the water's share of the vapour exchange; less than 1e-8 kg/m2 may be rounded away.", "quantifier": "all tiled configurations with an admissible initial pack, all admissible forcings, every run step", "why_tests_cant": "every combination of fluxes, layers and histories", "anchors": ["pysnobal/point/snobal.py:precip_event", "pysnobal/point/snobal.py:snowmelt", "pysnobal/point/snobal.py:evap_cond", "pysnobal/point/snobal.py:runoff"]}
{"id": "C55", "title": "The depth is accounted for in every run step", "statement": "In every run step through which the snow cover lasts, the depth follows from: gravity compaction (less than before below 550 kg/m3, unchanged above), plus the depth of new snow, minus melt divided by the density, plus half the volume of the sublimated or condensed ice, then compaction by the melt and rain water; after each of these the depth is at least mass / 600. The depths after both kinds of compaction are the exact ones of the density laws of C27 and C28.", "quantifier": "all tiled configurations with an admissible initial pack, all admissible forcings, every run step", "why_tests_cant": "every combination of fluxes, layers and histories", "anchors": ["pysnobal/point/snobal.py:time_compact", "pysnobal/point/snobal.py:adj_snow", "pysnobal/point/snobal.py:snowmelt", "pysnobal/point/snobal.py:evap_cond", "pysnobal/point/snobal.py:h2o_compact"]}
{"id": "C56", "title": "The vapour budget of a run step", "statement": "In every run step through which the snow cover lasts, L_v_E is the latent heat of sublimation at the surface temperature times E, and E_s exceeds E times the step length if the soil is warmer than the pack, is less if it is colder, and equals it if soil and pack have the same temperature.", "quantifier": "all configurations with a positive measurement depth in the soil, and all forcings with soil temperature positive and at most boiling; every run step with snow at most at the freezing point", "why_tests_cant": "sign over a continuum of temperatures and pressures, and over all layer transitions inside a step", "anchors": ["pysnobal/point/snobal.py:evap_cond", "pysnobal/point/snobal.py:h_le"]}
{"id": "C57", "title": "A run has exactly one history, which starts from the configured pack and has no gaps", "statement": "A run completes exactly if it has a history of run steps, and then configuration and records determine that history. A completed run executes the run steps of one data step per pair of consecutive records, each from exactly the snow the previous one left, and leaves the object with the snow of the last one. The first starts from the pack the configuration describes (depth, density, temperatures, one or two layers, layer masses, cold contents, liquid water) if that pack is heavier than the smallest mass threshold, and from bare ground otherwise.", "quantifier": "all configurations with a positive active layer depth and all record lists whose run completes", "why_tests_cant": "every history of refinements and re-runs; every initial pack", "anchors": ["pysnobal/point/snobal.py:init_snow", "pysnobal/point/snow_state.py:SnowState", "pysnobal/pysnobal.py:run"]}
{"id": "C58", "title": "The turbulent fluxes solve the Monin-Obukhov profile equations", "statement": "Whenever hle1 returns, its friction velocity, heat flux and vapour flux satisfy the logarithmic profile equations of wind, temperature and humidity with the stability corrections, all at one common stability; that stability comes from the fluxes of the previous pass of at most 50 passes of a fixed-point iteration, and before the 50th pass the iteration only ends when two successive Obukhov lengths agree to 1e-5 absolutely and relatively. The vapour pressure of the air is capped at saturation.", "quantifier": "all inputs for which hle1 returns", "why_tests_cant": "a continuum of inputs and up to 50 passes of a non-linear iteration", "anchors": ["pysnobal/point/libsnobal.py:hle1", "pysnobal/point/libsnobal.py:psi"]}
{"id": "C59", "title": "Humidity, density of moist air and latent heats", "statement": "For vapour pressures below the total pressure specific humidity is the mass of vapour per mass of moist air, lies strictly between 0 and 1 and increases with vapour pressure, and the mixing ratio is the mass of vapour per mass of dry air; the density computed through the virtual temperature is that of the mixture of two ideal gases; below boiling the latent heats are positive and decrease with temperature, and sublimation takes as much as fusion and vaporisation together.", "quantifier": "all vapour pressures, pressures and temperatures in the stated ranges", "why_tests_cant": "identities and monotonicity over a continuum", "anchors": ["pysnobal/point/libsnobal.py:spec_hum", "pysnobal/core/functions.py:virtual_temperature", "pysnobal/core/functions.py:gas_density", "pysnobal/core/functions.py:mix_ratio", "pysnobal/core/functions.py:lh_vap", "pysnobal/core/functions.py:lh_fus", "pysnobal/core/functions.py:lh_sub"]}
{"id": "C60", "title": "Temperatures and cold contents agree after every run step", "statement": "After every run step through which the snow cover lasts, cold content is heat capacity times mass times temperature below freezing, for the surface layer, the lower layer and the whole pack, with the heat capacity of ice at the temperatures the step started with; a two-layer pack without cold content is at freezing throughout; the one layer of a one-layer pack has the temperature of the pack. A pack that fell during the step has the temperature of the precipitation throughout.", "quantifier": "all configurations with a positive active layer depth, all forcings, every run step of a completed run", "why_tests_cant": "every combination of fluxes, layers and histories", "anchors": ["pysnobal/point/snow_state.py:adjust_layer_temps", "pysnobal/core/snow.py:new_tsno", "pysnobal/point/snobal.py:adj_layers"]}
{"id": "C61", "title": "Heat and vapour are exchanged by one coefficient", "statement": "In every run step that starts with snow on the ground, the sensible heat flux and the vapour flux stand in the ratio of the differences in heat and in specific humidity between the air at its measurement height above the snow and the snow surface (Bowen ratio). Without wind both are zero. In wind and stably stratified air, with the instruments more than 5.9 roughness lengths above the snow, both are these differences times one positive exchange coefficient that does not exceed the coefficient of the neutral logarithmic profile: heat and vapour then flow down their gradients.", "quantifier": "all configurations and record lists whose run completes, every run step of the run", "why_tests_cant": "the fluxes are iterates of a non-linear iteration started from the result of the previous step; every history and a continuum of inputs", "anchors": ["pysnobal/point/snobal.py:h_le", "pysnobal/point/libsnobal.py:hle1"]}
{"id": "C62", "title": "The snow cover ends only for lack of snow", "statement": "In every run step that starts with a pack heavier than the smallest mass threshold, the cover lasts if the melt reported for the step is less than the mass of the pack plus the precipitation of the step and the mass left after the vapour exchange reported for the step is above the threshold; and it lasts only then, except that vapour exchange may take the pack below the threshold when the surface sublimates, the soil gives vapour and no liquid water is left. A pack at or below the threshold and less dense than 550 kg/m3 is released at once.", "quantifier": "all tiled configurations with an admissible start, all admissible record lists, every run step of a completed run", "why_tests_cant": "disappearance of the pack depends on the whole history and on exact comparisons over a continuum of inputs", "anchors": ["pysnobal/point/snobal.py:time_compact", "pysnobal/point/snobal.py:snowmelt", "pysnobal/point/snobal.py:evap_cond", "pysnobal/point/snobal.py:h2o_compact", "pysnobal/point/snobal.py:adj_layers", "pysnobal/point/snobal.py:adj_snow"]}
{"id": "C63", "title": "Only time differences and the time order of the records matter", "statement": "Moving start_date, end_date and every date_time of the input table by the same amount gives the same outcome (the same exception, or an output table that is the old one with all its times moved by that amount). Reordering the rows of the input file changes nothing, as long as no two rows share a time and the first two rows are as far apart as before.", "quantifier": "all configurations, input tables, shifts and permutations", "why_tests_cant": "relates two runs on arbitrary inputs of any length", "anchors": ["pysnobal/pysnobal.py:read_input_data", "pysnobal/pysnobal.py:run", "pysnobal/point/snobal.py:do_tstep", "pysnobal/point/snobal.py:output"]}
{"id": "C64", "title": "The second record of a data step only ends it", "statement": "The precipitation of the last record of a run never falls: two runs whose last records differ only in (acceptable) precipitation have the same outcome. If no layer is lighter than the normal threshold when the last data step begins, the outcome does not depend on the last record at all: an undivided data step uses the first record's forcing for the whole step.", "quantifier": "all configurations, all record lists, all pairs of last records", "why_tests_cant": "relates two runs on arbitrary inputs of any length", "anchors": ["pysnobal/point/input.py:InputDeltas.calculate", "pysnobal/point/snobal.py:do_data_tstep", "pysnobal/point/snobal.py:divide_tstep", "pysnobal/point/snobal.py:do_tstep"]}
{"id": "C65", "title": "Formatting the output only rounds it", "statement": "With format_output the run has the same outcome and the table the same rows, times and order; every number differs from the unformatted one by at most half a unit of its last printed digit (3 decimals for fluxes, density, masses and h2o, 5 for temperatures, 6 for depths, 8 for E_s, melt and swi, ten significant digits for cold contents) and never lies on the other side of zero; order within a column is kept; printed layer depths and masses add up to the printed totals but for one unit of the last digit.", "quantifier": "all configurations and input tables; all values", "why_tests_cant": "a continuum of values; sums of rounded numbers", "anchors": ["pysnobal/pysnobal.py:output_to_file"]}
{"id": "C66", "title": "Where the gridded and the point snow state agree", "statement": "The members the gridded snow state overrides give, cell by cell, what those of the point snow state give: dry density, conductivity, averages and totals always; layer temperatures unless the cold contents of two layers cancel without being zero, in which case the point code puts the pack at freezing and the gridded code does not. No run step of a run with admissible data ends in such a pack (unless a step begins with a two-layer pack with mean temperature below 0 K).", "quantifier": "all snow states; all tiled configurations, admissible record lists and run steps", "why_tests_cant": "every state, and every state reachable by any history", "anchors": ["pysnobal/spatial/snow_state.py:SpatialSnowState", "pysnobal/point/snow_state.py:adjust_layer_temps", "pysnobal/point/snow_state.py:isothermal"]}
{"id": "C67", "title": "Turbulent exchange over a surface warmer than the air", "statement": "For every valid input with wind, temperature and humidity measured at one height, instruments more than 5.9 roughness lengths up and air heavier than the air at the surface, hle1 returns as long as the wind is strong enough for the instability: an Obukhov length l that the neutral friction velocity guarantees (half the neutral one) is not small against the heights, (1 + 8z/l)^2 <= (z-d)/z0, and the carried first guesses do not have a shorter one. Then the friction velocity is between one and two times the neutral one and both fluxes are the differences in heat and humidity times one coefficient between one and four times that of the neutral profile: heat and vapour flow down their gradients. The turbulent-transfer routine of a run step completes under the same conditions, and every run step that meets them has these fluxes.", "quantifier": "all inputs of hle1 in the stated regime, every state of the model and every run step of a completed run", "why_tests_cant": "50 passes of a non-linear iteration that starts from the result of the previous step and could cross a zero denominator; a continuum of inputs", "anchors": ["pysnobal/point/libsnobal.py:hle1", "pysnobal/point/libsnobal.py:psi", "pysnobal/point/snobal.py:h_le"]}
{"id": "C68", "title": "Where and why a run fails", "statement": "For a configuration whose time steps subdivide exactly, with an admissible initial pack, and for records the input class accepts (a positive snow density wherever snow falls), the only thing that can raise is the physics of a run step: if a run raises, there is a number k such that the run over the first k+1 records completes and the exception comes from the energy or mass balance of one run step of the data step between records k and k+1, after the earlier run steps of that data step completed; parsing, interpolation, accumulators, output records and the subdivision itself never raise. If moreover the ground is below the boiling point, the retention capacity is positive and the initial pack is between absolute zero and freezing, that run step starts with snow on the ground, and for one of four reasons: the turbulent-transfer routine raises; a layer is at or below absolute zero (or the mean of a two-layer pack was below it earlier); the pack has no positive mass; or the fluxes of the step could melt and sublimate all the ice there is.", "quantifier": "all exactly subdividing configurations, all lists of accepted records, every failing run", "why_tests_cant": "the cause of a failure ranges over every routine reachable from run and over every history leading to it; a test shows one failure at a time", "anchors": ["pysnobal/pysnobal.py:PySnobal.run", "pysnobal/point/snobal.py:do_data_tstep", "pysnobal/point/snobal.py:divide_tstep", "pysnobal/point/snobal.py:do_tstep", "pysnobal/point/snobal.py:energy_balance", "pysnobal/point/snobal.py:mass_balance"]}
{"id": "C69", "title": "Clipped vapour pressure is not made up", "statement": "Vapour pressure above saturation over ice is removed from the working forcing and not made up within the data step: at the start of every run step the working vapour pressure is the interpolated value minus all that was removed before. If the interpolated vapour pressure is never above saturation nothing is removed. A run step with snow on the ground that completes finds more vapour pressure than was removed; so a data step that begins above saturation and whose vapour pressure then falls below the amount removed raises 'press < 0', although both records and all values between them are positive: such a run exists (3000 Pa, then 20 Pa over a subdivided step), while constant vapour pressure of any positive value completes on the same pack.", "quantifier": "all record pairs, snow states and subdivisions of a data step", "why_tests_cant": "the drift depends on the subdivision, the saturation curve and the order of the run steps; a test sees one record pair", "anchors": ["pysnobal/point/snobal.py:h_le", "pysnobal/point/snobal.py:do_tstep", "pysnobal/point/input.py:InputData.add_deltas", "pysnobal/point/libsnobal.py:hle1"]}
{"id": "C70", "title": "The exceptions a run can end with are six, and each occurs", "statement": "For a configuration whose time steps subdivide exactly, with an admissible initial pack, and records the input reader accepts (snowfall carries a positive density), running the point model over the records either completes or ends with exactly one of six exceptions: ZeroDivisionError, math domain error, ValueError for a negative temperature in the saturation vapour pressure, ValueError for instrument heights, ValueError for vapour pressures, or UnboundLocalError from the turbulent-exchange routine. It never ends with 'did not converge', 'temps not K', 'vapor pressure exceeds saturation', AttributeError, IndexError, KeyError, RecursionError, or an overflow of the turbulent scheme. Each of the six does occur, already in a run over two equal records.", "quantifier": "all exactly subdividing configurations with an admissible start, all nonempty record sequences the reader accepts, of any length and with any weather values", "why_tests_cant": "A test shows one exception for one weather series; that no other exception can ever escape is a statement about every pack state reachable from every start under every forcing.", "anchors": ["pysnobal/pysnobal.py:PySnobal.run", "pysnobal/point/snobal.py:do_data_tstep", "pysnobal/point/snobal.py:divide_tstep", "pysnobal/point/snobal.py:do_tstep", "pysnobal/point/snobal.py:energy_balance", "pysnobal/point/snobal.py:mass_balance", "pysnobal/point/libsnobal.py:hle1"]}
{"id": "C71", "title": "The runoff of the step in which the snow disappears counts the liquid water twice", "statement": "With admissible data, in every run step that starts with a pack heavier than the smallest mass threshold and ends without snow cover, the reported runoff is the mass of the pack with the precipitation of the step (after vapour exchange) plus all liquid water at hand (retained, arriving with rain or wet snow, melted, minus refrozen), although that water is already part of the mass. If at least the mass of the pack melts and nothing refreezes, the runoff is at least twice the water there was; and it is unbounded: for every bound there are admissible data with 100 kg/m2 of snow and no precipitation for which the completed run reports more runoff than the bound.", "quantifier": "all configurations, records and run steps that end the snow cover", "why_tests_cant": "the pack may disappear in snowmelt or in the vapour exchange, with any retained water, precipitation and refreezing; a test sees one melt-out", "anchors": ["pysnobal/point/snobal.py:adj_layers", "pysnobal/point/snobal.py:snowmelt", "pysnobal/point/snobal.py:evap_cond", "pysnobal/point/snobal.py:runoff"]}
{"id": "C72", "title": "The fluxes of a run step are the documented functions of the snow it starts with and of the forcing", "statement": "In every run step that starts with a pack of positive mass not above freezing, on soil whose vapour exchange can be computed (air pressure above the vapour pressures, soil not above boiling), the reported fluxes are these functions of the pack at the start of the step and of the forcing of the step: net radiation is S_n plus 0.98 (I_lw minus 5.67032e-8 T^4) of the surface layer; the advected heat is the heat content of rain and snow relative to the surface layer per second; the conducted heats (soil to the layer on the ground, lower to surface layer) are the temperature differences over the thermal resistance between the middles of the layers, with the conductivities of moist sand and of snow of that density each increased by vapour diffusion; and if the cover lasts, E_s is the surface exchange plus Fick diffusion from the soil (density and diffusivity of air at the mean temperature, specific humidity gradient over z_g) to a layer at one of the temperatures of the pack. Heat capacities and latent heats are the documented linear functions. Finding: without vapour diffusion the conductivity of snow computed by the code is below 0.012 W/(m K) at every density up to the 600 kg/m3 the model allows - half that of still air; the coefficient is per cm and is used per m.", "quantifier": "all run steps of all runs that start with snow; all temperatures and densities", "why_tests_cant": "an identity between real functions, for every state and forcing; gold files fix a few values and would freeze a wrong coefficient or unit", "anchors": ["pysnobal/point/snobal.py:net_radiation, advec, heat_transfer, g_soil, g_snow, evap_cond", "pysnobal/point/libsnobal.py:efcon, ssxfr", "pysnobal/point/snow_state.py:kts", "pysnobal/core/functions.py:cp_ice, cp_water, diffusion_coef, mix_ratio, vapor_flux"]}
{"id": "C73", "title": "Only what falls matters, and only snow feels the weather", "statement": "Two runs over records with equal radiation, temperatures, vapour pressure and wind, in which the same precipitation falls, have the same outcome (same exception, or same output file and final snow). The same precipitation falls in two records if neither has any; or if masses and snow fractions are equal, the snow densities are equal where snow falls, the temperatures are equal when raised to freezing where rain falls, and equal when lowered to freezing where only snow falls. So percent_snow, rho_snow and t_pp are irrelevant in records without precipitation, rho_snow without snowfall. A run step that starts without snow on the ground does not depend on radiation, air temperature, vapour pressure and wind.", "quantifier": "all exactly subdividing configurations, all pairs of record lists of the stated kind, of any length; all snow-free states and step lengths", "why_tests_cant": "A statement about pairs of runs for every record list; a test compares finitely many pairs.", "anchors": ["pysnobal/point/input.py: InputData.precipitation_inputs, update_precip_deltas, add_deltas, InputDeltas.calculate", "pysnobal/point/snobal.py: precip_event, advec, h2o_compact, do_tstep, divide_tstep", "pysnobal/pysnobal.py: PySnobal.run"]}
{"id": "C74", "title": "Cold snow refreezes all the water it can", "statement": "In every run step through which the snow cover lasts, the water that refreezes in a layer (the amounts of the water and energy ledgers C54 and C24) is exactly the smaller of what its cold content can freeze and its share of the water at hand (retained, arriving, melted), where water is shared between the layers in proportion to depth. Hence a step that leaves a pack no deeper than the surface layer (new snow included) with cold content leaves no liquid water in it and no runoff; and a dry step without condensation that leaves both layers of a two-layer pack with cold content does so too (unless gravity compacts the pack beyond 600 kg/m3).", "quantifier": "all exactly subdividing configurations with an admissible initial pack, all admissible record lists of any length, all run steps through which the cover lasts", "why_tests_cant": "The amounts depend on every state and flux a run can reach and on which of two limits binds; a test sees finitely many states.", "anchors": ["pysnobal/point/snobal.py: snowmelt, evap_cond, runoff", "pysnobal/core/snow.py: melt", "pysnobal/core/functions.py: lh_fus"]}
{"id": "C75", "title": "More radiation never means less melt", "statement": "Take any run step, and suppose the net solar and incoming thermal radiation had been such that the snow absorbs d >= 0 W/m2 more (all of the net solar and 98 % of the thermal radiation), all else equal, and the step completes in both cases. Then no other flux and no vapour exchange at the surface changes, the reported net radiation and energy balances grow by exactly d, no less snow melts, the additional melt needs no more energy than d times the length of the step, the surface layer is left no colder, and (if the snow cover lasts in both cases and the vapour exchange is the same) no less liquid water is retained or runs off. In particular, for two runs whose records agree up to one that differs in radiation only, if neither the data step that starts with it nor the one before is divided, the output records agree up to the record of that step, which shows as much or more melt, retained water plus runoff, and surface cold content no more negative.", "quantifier": "all exactly subdividing configurations with an admissible initial pack, all admissible record lists of any length, all run steps, all radiation values (steps); all pairs of completed runs that differ in the radiation of one record and in the last record (records)", "why_tests_cant": "a monotonicity claim over pairs of executions with arbitrary pack state, layering, refreezing and length of history; tests compare a few pairs", "anchors": ["pysnobal/point/snobal.py: energy_balance, net_radiation", "pysnobal/point/snobal.py: snowmelt, evap_cond, runoff", "pysnobal/point/snobal.py: do_tstep, do_data_tstep"]}
{"id": "C76", "title": "Heat put into a dry pack is found back, and enough of it ends the snow cover", "statement": "Over any number of consecutive run steps in which nothing falls, no vapour is deposited and the pack lasts with the layers it has, delta_Q times time adds up to the change of the cold content plus 333600 J/kg times the ice (mass minus liquid water) lost, up to the ice that sublimated and 1e-8 kg/m2 per step; over a whole such run the same holds for the delta_Q and E_s columns of the output in mode normal, with the configured pack as the start. Hence, if layers may also merge, a pack that receives more heat than it takes to warm it to freezing and melt all its ice does not last.", "quantifier": "all exactly subdividing configurations with an admissible initial pack, all admissible record lists, all stretches of consecutive run steps of any length", "why_tests_cant": "a conservation law over histories of unbounded length with arbitrary melting, refreezing, compaction and subdivision; tests check a few steps within tolerances", "anchors": ["pysnobal/point/snobal.py: energy_balance, snowmelt, evap_cond, runoff", "pysnobal/point/snobal.py: do_data_tstep, do_tstep, output", "pysnobal/point/snow_state.py: SnowState"]}
{"id": "C77", "title": "Blank cells in the forcing table", "statement": "A blank (NaN) cell of the input table becomes a blank value of the record and of nothing else. A record is rejected (ValueError) exactly if a positive mass of snow is known to fall and its density is blank or not positive; every other blank passes unnoticed. A blank precipitation mass counts as no precipitation for the whole data step. Blank percent_snow, rho_snow and precip_temp in records without precipitation, and a blank precip_temp where snow alone falls (taken as wet snow at freezing), are harmless: the model has every value it reads and the run is that of any complete table saying the same otherwise. A blank rho_snow where rain falls on snow leaves both liquid water variables NaN although no snow fell; a blank precip_temp leaves rain without temperature; a blank percent_snow leaves the masses of rain and snow unknown. With a blank weather value in either of two records the first run step uses the first record's value and all later run steps of the data step have none. On complete tables the program with missing values does what the program on numbers does: same outcome, same error, same file.", "quantifier": "all table rows and records with any pattern of blanks, all pairs of records, all numbers of run steps per data step; all exactly subdividing configurations and all lists of records for the statement about runs", "why_tests_cant": "combinations of blanks, records and subdivisions are unbounded; tests use complete tables", "anchors": ["pysnobal/pysnobal.py: read_input_data, run", "pysnobal/point/input.py: InputData, InputDeltas", "pysnobal/point/snobal.py: precip_event, do_tstep"]}
{"id": "C78", "title": "A missing weather value silently removes the snowcover", "statement": "If a row of the input has a blank cell for wind, air temperature, humidity or ground temperature and no snow falls, then in a run that completes the snow is gone after that row's data step, whatever lay there: every later record shows no layer and zero mass until a row brings snow, also when the later rows are complete. The blank is not reported either: if the run goes through with the cell filled in, then with the cell of a dry row left blank, and any dry rows after it, it goes through as well (interval before the row not subdivided, pack of positive mass and not above freezing, instruments not exactly 5.9 roughness lengths above the snow, vapour pressure below air pressure). In the run step in which it happens the mass either was used up before evaporation was due or is set to zero without leaving as water: the step's water outflow is not a positive number and its evaporation is NaN. A blank radiation cell leaves the snow temperature and cold content blank and ends the cover in the next data step; with a blank snow temperature a pack below the density limit of compaction (550 kg/m\u00b3) leaves entirely as outflow although melt and evaporation are zero. Records before the first blank are those of the run on the complete rows alone.", "quantifier": "all exactly subdividing configurations, all tables with any pattern of blanks, all snow states with snow on the ground", "why_tests_cant": "the pattern of blanks, the state of the snow and the number of later rows are unbounded; tests use complete tables", "anchors": ["pysnobal/point/libsnobal.py: hle1", "pysnobal/point/snobal.py: energy_balance, evap_cond, adj_snow, adj_layers, time_compact", "pysnobal/point/snow_state.py: calc_layers, layer_count", "pysnobal/pysnobal.py: run"]}
{"id": "C79", "title": "After a blank cell the next snowfall makes the run numeric again", "statement": "Whatever cells the rows so far left blank: if no snow lies at the time of a row with snowfall (its own weather cells may be blank), and the rows after it give the values that are read (for example complete rows), then all records from that row on and the final snow state are numbers; nothing of the earlier NaN survives, neither in depths and masses nor through the stored first guess of the turbulent fluxes. The interval with the snowfall always completes, and if the mass of the snow exceeds the small threshold the snow lies with exactly that mass. A first guess that is missing does no harm in hle1: where it completes without a guess it completes with a missing one, reports success and returns numbers; the same numbers if the iteration settles before its last pass or the air is calm.", "quantifier": "all exactly subdividing configurations, all tables with any pattern of blanks, all numbers of rows before and after the snowfall", "why_tests_cant": "histories with blanks and the states they leave are unbounded; tests use complete tables", "anchors": ["pysnobal/point/snobal.py: precip_event, init_snow, energy_balance", "pysnobal/point/libsnobal.py: hle1", "pysnobal/point/snow_state.py: calc_layers", "pysnobal/pysnobal.py: run"]}
{"id": "C80", "title": "The weather is read only where snow lies", "statement": "Two tables with the same precipitation, with or without blank cells, that differ in the weather only in rows at whose time no snow lies and whose preceding interval is not subdivided, give runs with the same outcome: the same exception, or the same records and the same snow. In particular blanks in the weather cells of such rows change nothing against the complete table, and from bare ground a table without snowfall in which every weather cell may be blank always completes, each data step reporting exactly its rain as runoff.", "quantifier": "all exactly subdividing configurations, all pairs of tables of any length with any pattern of blanks", "why_tests_cant": "relates two runs on arbitrary tables of any length", "anchors": ["pysnobal/point/snobal.py: do_tstep, energy_balance, precip_event, do_data_tstep", "pysnobal/point/input.py: InputDeltas.calculate", "pysnobal/pysnobal.py: run"]}
{"id": "C81", "title": "Running out of snow raises only on an exact tie", "statement": "For a consistent pack of positive mass with temperatures between absolute zero and freezing (and for bare ground), whatever the fluxes of a run step melt, evaporate or drain, the mass balance raises if and only if the mass of a pack of positive depth is exactly zero after evaporation, or exactly zero after runoff while a temperature must still be computed from it, and then it raises a division by zero. The run step raises if and only if the turbulent-transfer routine raises that exception or the energy balance completes and such a tie occurs. In a run over admissible data every exception of a run step is one of the turbulent-transfer routine, or the pack is at or below absolute zero, or has no positive mass, or it is such a tie.", "quantifier": "all environments with a positive retention capacity, all forcings, steps and packs in the stated range; all exactly subdividing configurations, all tables of admissible records of any length, all reachable states", "why_tests_cant": "an equivalence over a continuum of states, and a statement about every exception of every run", "anchors": ["pysnobal/point/snobal.py: mass_balance, evap_cond, h2o_compact, runoff", "pysnobal/point/snow_state.py: adjust_layer_temps", "pysnobal/core/snow.py: new_tsno"]}
{"id": "C82", "title": "The turbulent-transfer routine raises only on exact ties, and every cold wind has one", "statement": "For valid input with the instruments more than 5.9 roughness lengths above the surface, hle1 raises only if the air has exactly the potential temperature of the surface (UnboundLocalError), or if one of at most 50 passes of its iteration arrives at a negative Obukhov length at which the profile of wind, temperature or humidity vanishes exactly (division by zero). In a run over admissible records, every exception therefore has one of these causes: an instrument within 5.9 roughness lengths of the snow, a working vapour pressure that is not positive, one of these ties, a layer at or below absolute zero, a pack without positive mass, or a pack used up exactly. The ties are not hypothetical: for every valid input with air heavier than the air at the surface there is a wind speed at which hle1 divides by zero in its first pass, and for every cold air over a ripe pack a wind speed at which the run ends in a division by zero.", "quantifier": "all inputs of hle1; all run steps; all exactly subdividing configurations and tables of admissible records of any length", "why_tests_cant": "a statement about every exception of every run over a continuum of weather; the failing wind speeds are isolated points a sample misses", "anchors": ["pysnobal/point/libsnobal.py: hle1, psi", "pysnobal/point/snobal.py: h_le, energy_balance"]}
{"id": "C83", "title": "In a thaw the pack only warms, and the run cannot fail except on exact ties", "statement": "Suppose no record brings precipitation, air and ground are never below freezing, there is always wind, the sky radiates at least as much as melting snow, and the vapour pressure is never below that over melting snow nor above saturation over ice. Then every run step that starts with snow of positive mass, and with a pack that has so far been no deeper than the active layer, has non-negative net radiation, latent heat and soil heat, positive sensible heat and a positive net gain, and no vapour leaves the surface. If the pack lasts, its cold content does not increase in magnitude; a one-layer pack does not get colder and, while it is still below freezing, not lighter. The pack in place at any run step was therefore there at the start of every earlier one, no warmer and with no less cold content. The only exceptions such a run can end in are divisions by zero in a step that starts with snow, because the pack is used up exactly (C81) or because the density of a pack of negative mass is compacted to exactly zero.", "quantifier": "all exactly subdividing configurations whose pack starts frozen and whose instruments stay 5.9 roughness lengths above the active layer; all tables of thaw records of any length, every run step of every run until the pack is deeper than the active layer", "why_tests_cant": "a monotonicity statement along runs of any length over a continuum of weather, and a statement about every exception such runs can raise", "anchors": ["pysnobal/point/snobal.py: energy_balance, mass_balance, time_compact, do_tstep", "pysnobal/point/libsnobal.py: hle1", "pysnobal/core/snow.py: new_tsno"]}
{"id": "C84", "title": "Resuming a run from its last record", "statement": "Between two data steps the future of a Snobal object (the records it will emit, or the exception it will raise) depends on its pack, its clock and the two first guesses of the turbulence equations, and on nothing else: not on records already emitted, totals and fluxes of past steps or the cover flag. A record that shows a pack heavier than the smallest threshold and split as a starting pack is, or dry bare ground, can be used to start a new object: it gets the layers, depths, masses, density, temperatures and liquid water of the record. Its cold content is that of the recorded mass at the recorded temperature, which is the run's cold content exactly if the last run step left the surface temperature unchanged or at freezing, and lower exactly if the surface warmed without reaching freezing. When the cold contents agree, the object, given the two first guesses (which no record shows), has the same future as the one that ran. When every run step so far began on bare ground, a new run started from the last record at the last input row raises the same exception as the uninterrupted run, or emits exactly the records that the uninterrupted run adds, whatever input follows.", "quantifier": "all exactly subdividing configurations, all runs over tables of any length, their last records, and all continuations of the input of any length", "why_tests_cant": "an equivalence of two runs over every possible continuation of the input, of any length, after any history", "anchors": ["pysnobal/point/snobal.py: Snobal.__init__, create_snow_state, init_snow, do_tstep, do_data_tstep", "pysnobal/point/snow_state.py: SnowState", "pysnobal/pysnobal.py: PySnobal.run"]}
{"id": "C85", "title": "The pack never holds more than was put into it", "statement": "With admissible data the specific mass after a run step is at most the mass before it (counted as zero if negative), plus the precipitation of the step, plus the mass that condensed on the surface in the step (if any did). A step that began on bare ground leaves at most the snow that fell in it: rain falling on bare ground never becomes pack mass. In the last record of any run (and, runs being prefixes of longer runs, in every record) the specific mass is at most the initial mass plus all precipitation of the rows processed plus all condensation of the run steps; when nothing condensed, at most the initial mass plus the precipitation.", "quantifier": "all exactly subdividing configurations with an admissible start, all tables of admissible rows of any length, every run step of every completed run and its last record", "why_tests_cant": "an upper bound over every history of precipitation, melt, runoff, vapour exchange, layer changes and subdivisions; tests sample a few runs", "anchors": ["pysnobal/point/snobal.py: Snobal.precip_event, Snobal.mass_bal, Snobal.evap_cond, Snobal.runoff, Snobal.adj_snow, Snobal.adj_layers", "pysnobal/pysnobal.py: PySnobal.run"]}
{"id": "C86", "title": "Warmer ground never means less melt, except through the freezing point", "statement": "Take any run step of a run with admissible data and suppose the ground had been warmer, the new temperature not below that of the layer on the ground, and not lying across the freezing point from an old one that already was above the temperature of that layer. Then no less heat is conducted from the ground, no other flux of the step changes, the energy balance changes by exactly the difference (the surface balance only if the pack has one layer), no less snow melts and at most as much more as the additional heat can melt, and the surface layer is left no colder if the cover lasts in both cases. The same holds of the last record of two runs that differ in the ground temperature of their last processed row, when neither of the last two data steps is subdivided, all earlier records being equal. The exception is real: under any pack whose base is colder than freezing, all ground temperatures just above the freezing point give off less heat than those just below it, with every other flux the same, so that the energy balance of the pack is lower on the warmer ground.", "quantifier": "all exactly subdividing configurations, all tables of admissible rows of any length, every run step, every pair of ground temperatures; for the exception all packs with a base below freezing and all air pressures above 1100 Pa", "why_tests_cant": "a comparison of two executions over all states and all pairs of temperatures; the exception is an interval around one temperature", "anchors": ["pysnobal/point/snobal.py: Snobal.g_soil, Snobal.heat_transfer, Snobal.energy_balance, Snobal.snowmelt", "pysnobal/point/libsnobal.py: efcon, ssxfr, sati, satw"]}
{"id": "C87", "title": "What the gridded driver prepares for a cell is what the point driver would", "statement": "The records the gridded driver prepares for a cell differ from those the point driver prepares from the same values only in the temperature of rain below freezing, which it leaves as it is, and they differ exactly when there is such rain. This makes no difference to a run: for every configuration and every series without negative precipitation, the point model gives the same result, state for state, record for record and error for error, on either. Without a file of initial conditions, the elevation, initial snow and records of any cell make the same run as the point configuration with the elevation of that cell.", "quantifier": "all configurations, all grids and cells, all series of any length with non-negative precipitation", "why_tests_cant": "an equality of whole runs over all configurations and series; the gridded driver has no enabled test at all", "anchors": ["pysnobal/ipysnobal.py: iPySnobal.read_input_data, iPySnobal.read_initial_conditions, iPySnobal.parse_elevation", "pysnobal/spatial/isnobal.py: iSnobal.__init__", "pysnobal/pysnobal.py: PySnobal.read_input_data", "pysnobal/point/input.py: InputData.precipitation_inputs"]}
{"id": "C88", "title": "Warmer rain never means less melt", "statement": "Take any run step with precipitation of a run with admissible data and suppose the rain had been warmer, up to the boiling point. Then a pack present at the start of the step receives exactly the difference of (4217.7 - 2.55 (t - 273.16)) m (t - T) at the two temperatures more heat from it, at least 3000 J per kg and degree, and its energy balances change by as much; on bare ground no heat is counted. No other flux changes, no less snow melts and at most as much more as the additional heat can melt, the surface layer is left no colder if the cover lasts in both cases, and no less water is retained or runs off if the vapour exchange is the same. The same holds of the last record of two runs that differ in the precipitation temperature of their last processed row (rain below freezing counting as rain at the freezing point), when neither of the last two data steps is subdivided, all earlier records being equal.", "quantifier": "all exactly subdividing configurations, all tables of admissible rows of any length, every run step, every pair of rain temperatures up to boiling", "why_tests_cant": "a comparison of two executions over all states and all pairs of temperatures", "anchors": ["pysnobal/point/snobal.py: Snobal.advec, Snobal.energy_balance, Snobal.snowmelt, Snobal.runoff", "pysnobal/core/functions.py: cp_water", "pysnobal/core/snow.py: heat_stor", "pysnobal/point/input.py: InputData.precipitation_inputs"]}
{"id": "C89", "title": "A larger retention capacity only acts through the runoff", "statement": "Take any run step of a run with admissible data in which no wet snow falls, and suppose the retention capacity (max_h2o) had been configured larger. If the step is then completed as well, no energy flux, melt, vapour exchange, depth, layer, cold content or predicted water is different; no more water runs off, and exactly the water that does not run off stays in the pack, as liquid water and as mass. And if in a whole run from a dry pack no run step loses water from a pack that lasts, or no record reports runoff, then the same run with any larger capacity is completed as well and has the same records, except for the columns that report the capacity itself and the water relative to it.", "quantifier": "all exactly subdividing configurations, all capacities not below the configured one, all tables of admissible rows of any length without wet snow, every run step", "why_tests_cant": "a comparison of two executions over all states, configurations and series", "anchors": ["pysnobal/point/snobal.py: Snobal.runoff, Snobal.precip, Snobal.time_compact, Snobal.h2o_compact, Snobal.init_snow, Snobal.do_tstep", "pysnobal/core/snow.py: h2o_left"]}
{"id": "C90", "title": "The site matters only where snow lies", "statement": "If no run step of a completed run starts with snow on the ground, then the same run at any other site (elevation below 44 km, heights of the wind, temperature and soil measurements, roughness length) is completed as well, with the same records, the same snow and the same clock in the end; in particular up to and including the first snowfall on bare ground.", "quantifier": "all configurations, all sites, all tables of any length in whose run no run step starts with snow", "why_tests_cant": "an equality of whole runs over all pairs of sites and all series", "anchors": ["pysnobal/point/snobal.py: Snobal.__init__, Snobal.energy_balance, Snobal.mass_balance, Snobal.evap_cond, Snobal.precip", "pysnobal/pysnobal.py: PySnobal.run"]}
{"id": "C91", "title": "The finer time steps matter only to thin layers", "statement": "If no snow layer is lighter than norm_threshold whenever a record is processed (equivalently, if no data step is subdivided), then the medium and small time steps, medium_threshold and the output mode make no difference at all: the simulation ends in the same state with the same records, or with the same exception.", "quantifier": "all pairs of exactly subdividing configurations that differ in these parameters only, all tables of any length", "why_tests_cant": "an equality of whole runs, failures included, over all tables and all pairs of subdivisions", "anchors": ["pysnobal/point/snobal.py: Snobal.do_data_tstep, Snobal.divide_tstep, Snobal.do_tstep, Snobal.below_thold, Snobal.output", "pysnobal/point/input.py: InputDeltas.calculate", "pysnobal/pysnobal.py: PySnobal.parse_time_steps"]}
{"id": "C92", "title": "The maximal depth of the surface layer matters only to deeper packs", "statement": "If the initial pack is at most D deep and in no run step of a completed run does the pack become deeper than D (depth before the step plus the depth of the snow falling in it, enlarged by half the volume of the frost it receives, at most D, and its mass with precipitation and frost at most 600 D), then for every max_active of at least D the run is completed as well, with the same records, the same state and the same clock.", "quantifier": "all admissible configurations, all depths D and all pairs of values of max_active of at least D, all admissible tables of any length", "why_tests_cant": "an equality of whole runs over all pairs of parameter values and all series", "anchors": ["pysnobal/point/snow_state.py: SnowState.calc_layers", "pysnobal/point/snobal.py: Snobal.adj_layers, Snobal.adj_snow, Snobal.init_snow, Snobal.mass_balance", "pysnobal/pysnobal.py: PySnobal.run"]}
{"id": "C93", "title": "The small mass threshold matters only to light packs and thin lower layers", "statement": "If in a completed run no pack, no lower layer and no snow fallen on bare ground ever weighs between a and b (packs weigh more than b before and after every run step, snow falling on bare ground weighs at most a or more than b, and the pack is either never deeper than max_active or nowhere denser than 600 kg/m3 and heavier than 600 max_active + b), then for every small_threshold from a to b the run is completed as well, with the same records, the same state and the same clock; in particular the threshold of the smallest time steps plays no part in subdivision.", "quantifier": "all admissible configurations, all masses a and b and all pairs of values of small_threshold between them, all admissible tables of any length", "why_tests_cant": "an equality of whole runs over all pairs of parameter values and all series", "anchors": ["pysnobal/point/snow_state.py: SnowState.calc_layers", "pysnobal/point/snobal.py: Snobal.adj_layers, Snobal.adj_snow, Snobal.init_snow, Snobal.mass_balance, Snobal.divide_tstep, Snobal.below_thold", "pysnobal/pysnobal.py: PySnobal.parse_time_steps, PySnobal.run"]}
{"id": "C94", "title": "The mass thresholds of normal and medium steps only choose the subdivision", "statement": "The history of a completed run - its run steps, records and final object - is also the history of the run with any other norm_threshold and medium_threshold exactly if each data step is subdivided in it as the new thresholds ask: one normal step if no layer is lighter than the new normal threshold when it starts, and otherwise medium intervals, each of which is one medium step if no layer is lighter than the new medium threshold when it starts and otherwise small steps.  In particular the run stays the same whenever old and new thresholds agree on which of the packs met at these places have a layer that is too light.", "quantifier": "all configurations whose time steps divide each other, all pairs of pairs of thresholds, all tables of any length", "why_tests_cant": "an equivalence between whole histories over all pairs of parameter values and all series", "anchors": ["pysnobal/pysnobal.py: PySnobal.parse_time_steps, PySnobal.run", "pysnobal/point/snobal.py: Snobal.do_data_tstep, Snobal.divide_tstep, Snobal.below_thold"]}
{"id": "C95", "title": "Subdividing a data step is the same as interpolating the table", "statement": "If in a completed run (mode 'all') every data step is subdivided and no run step clips the vapour pressure, the run equals - same final snow, same clock, same records - the run on the table refined to the medium time step, with the medium time step and threshold in the place of the normal ones: each data row is replaced by k rows (k = normal / medium step) with weather interpolated linearly to the next row, a k-th of its precipitation each, and its snow fraction, snow density and precipitation temperature. Snow and clock are the same in both modes.", "quantifier": "all configurations (mode 'all' for the records) whose time steps divide each other, all k, all tables of any length with non-negative precipitation whose run is subdivided in every data step and clips no vapour pressure", "why_tests_cant": "an equality between two whole histories over all configurations and series", "anchors": ["pysnobal/point/input.py: InputDeltas.calculate, InputData.add_deltas, InputData.update_precip_deltas", "pysnobal/point/snobal.py: Snobal.do_data_tstep, Snobal.divide_tstep, Snobal.do_tstep", "pysnobal/pysnobal.py: PySnobal.parse_time_steps, PySnobal.run"]}
{"id": "C96", "title": "Without wind the air does not matter", "statement": "If two tables of equal length have no wind in any row and differ at most in air temperatures and vapour pressures, and two configurations differ at most in the heights of the wind and temperature measurements and in the roughness length, then two completed runs produce the same output records, the same clock and the same final snow.", "quantifier": "all configurations (any time steps, thresholds, output mode), all heights and roughness lengths, all tables of any length with wind speed 0, all air temperatures and vapour pressures, all completed runs", "why_tests_cant": "an equality between two whole histories over all configurations and series", "anchors": ["pysnobal/point/snobal.py: Snobal.h_le, Snobal.energy_balance, Snobal.mass_balance, Snobal.do_tstep", "pysnobal/point/libsnobal.py: hle1", "pysnobal/point/input.py: InputData.add_deltas", "pysnobal/pysnobal.py: PySnobal.run"]}
{"id": "C97", "title": "Solar and thermal radiation are interchangeable", "statement": "Of the radiation only the sum of net solar radiation and 98 % of the incoming thermal radiation matters: two runs over tables that agree in that sum in every row and in every other column have the same outcome - the same exception, or the same records, the same snow, the same clock and the same output file.", "quantifier": "all configurations (any time steps, thresholds, output mode), all tables of any length, all splits of the absorbed radiation into solar and thermal, all output file states", "why_tests_cant": "an equality between two whole histories over all configurations and series, for a continuum of splits", "anchors": ["pysnobal/point/snobal.py: Snobal.net_radiation, Snobal.energy_balance, Snobal.do_tstep", "pysnobal/point/input.py: InputData, InputDeltas.calculate, InputData.add_deltas", "pysnobal/pysnobal.py: PySnobal.run"]}
{"id": "C98", "title": "An initial snow cover too light to form a layer is lost", "statement": "If the configured initial snow does not exceed the small mass threshold, the run over any table of at least two rows has the same outcome - the same exception, or the same final state, records and output file - as with any other initial snow that does not exceed it, whatever its depth, density, temperatures and saturation, for instance none: its mass is neither stored nor reported as runoff.", "quantifier": "all configurations whose time steps divide each other, all initial depths, densities, temperatures and saturations with mass up to the threshold, all tables of at least two rows", "why_tests_cant": "an equality between whole histories over all configurations, initial states and series", "anchors": ["pysnobal/point/snobal.py: Snobal.init_snow, Snobal.do_tstep, Snobal.create_snow_state", "pysnobal/point/snow_state.py: SnowState.calc_layers", "pysnobal/pysnobal.py: PySnobal.run"]}
{"id": "C99", "title": "Light snowfall never builds a snow cover", "statement": "From bare ground, whatever the weather is, as long as the snow that falls in each data step does not exceed the small mass threshold, every simulation completes without ever having a snow cover: each record reports exactly the precipitation of its data step, snow included, as runoff and no other exchange, and the final state is bare ground without stored water, however many data steps there are and however much snow falls in all.", "quantifier": "all configurations whose time steps divide each other and that start without a snow layer, all series of any length with light snowfall, whatever the other columns are", "why_tests_cant": "a statement about every series of unbounded length and every weather", "anchors": ["pysnobal/point/snobal.py: Snobal.precip_event, Snobal.init_snow, Snobal.do_tstep, Snobal.do_data_tstep", "pysnobal/point/snow_state.py: SnowState.calc_layers", "pysnobal/pysnobal.py: PySnobal.run"]}
{"id": "C100", "title": "A reversed wind reverses the turbulent exchange", "statement": "The wind speed is not checked. For all arguments, hle1 with the opposite wind speed (and the opposite first guesses, if any) does exactly what it does with the given ones, including every exception, except that the sensible heat, the latent heat, the vapour flux, the friction velocity and the exchange factor come out with the opposite sign; the energy balance of a run step over snow changes by just that. Hence in every run step of every run in stably stratified air (instruments above 5.9 roughness lengths) with a negative wind speed the fluxes are a negative coefficient times the differences between air and snow: the snow loses heat to warmer air.", "quantifier": "all arguments of hle1, all packs and forcings, all run steps of all runs", "why_tests_cant": "an equality of an iteration on all real arguments, and a statement about all run steps", "anchors": ["pysnobal/point/libsnobal.py: hle1, psi", "pysnobal/point/snobal.py: Snobal.h_le, Snobal.energy_balance"]}
{"id": "C101", "title": "Vapour pressure above saturation does not matter in undivided data steps", "statement": "Take a table during whose simulation no snow layer is lighter than the normal mass threshold whenever a record is processed, and change its vapour pressures only above saturation over ice at the air temperature of their row (whatever lies on the ground). The simulation has the same outcome: the same exception, or the same records, final snow, clock and output file. (In subdivided data steps this is false, see C69.)", "quantifier": "all configurations whose time steps divide each other, all tables of any length never subdivided, all changes of vapour pressure above saturation", "why_tests_cant": "an equality between whole histories over all tables and all changes", "anchors": ["pysnobal/point/snobal.py: Snobal.h_le, Snobal.do_data_tstep, Snobal.do_tstep", "pysnobal/point/input.py: InputData.sat_vp, InputDeltas", "pysnobal/pysnobal.py: PySnobal.run"]}
{"id": "C102", "title": "Snow in balance with its surroundings keeps its temperature in one layer, but not in two", "statement": "Take dry snow of one temperature T below freezing, in calm dry air, on ground of temperature T, with as much radiation gained as its surface emits. If it lies in one layer no deeper than the active layer, a run of any length leaves it at rest: every record shows the temperature T, the initial mass and cold content and no liquid water, and no run step melts, evaporates or releases anything; the snow only settles. If it lies in two layers, a run step that leaves it in two layers exchanges nothing either, and the mean temperature stays T, but as the settling snow moves mass into the surface layer (whose depth is fixed) and the cold contents stay behind, the surface layer ends the step warmer than T and the lower layer colder than T, although nothing has heated or cooled either.", "quantifier": "all configurations with positive active depth and water capacity whose time steps divide each other, all temperatures 0 < T < freezing, all tables of any length of balanced rows (whose radiation terms may vary as long as they balance); for the two-layer part all run steps of all simulations", "why_tests_cant": "a statement about every step of runs of every length at every temperature, density and mass", "anchors": ["pysnobal/point/snobal.py: Snobal.do_tstep, Snobal.time_compact, Snobal.adj_layers, Snobal.mass_balance, Snobal.energy_balance", "pysnobal/point/snow_state.py: SnowState.adjust_layer_temps", "pysnobal/pysnobal.py: PySnobal.run"]}
