import Verif.Driver

/-! # `pysnobal/pysnobal.py` and the constructor `Snobal.__init__`

Reading files, `inicheck`, pandas indexing machinery and time zones are outside the model; times are
integers (minutes), tables are lists of rows. -/

namespace Pysnobal

noncomputable section

/-- The configuration values the point model uses (pysnobal_core_config.ini).  Time steps are in
minutes and of type `int`. -/
structure Config where
  elevation : ℝ
  start_date : ℤ
  end_date : ℤ
  z_u : ℝ
  z_t : ℝ
  z_g : ℝ
  relative_heights : Bool
  norm_time_step : ℤ
  medium_time_step : ℤ
  small_time_step : ℤ
  norm_threshold : ℝ
  medium_threshold : ℝ
  small_threshold : ℝ
  max_h2o : ℝ
  max_active : ℝ
  /-- `output_mode == 'all'` -/
  output_all : Bool
  /-- `[initial_snow_properties]`; `t_s_l` is not among the documented keys but is accepted by
  `Snobal` when the caller's dictionary has it (snow_state.py:92–93). -/
  init_z_s : ℝ
  init_rho : ℝ
  init_t_s_0 : ℝ
  init_t_s : ℝ
  init_t_s_l : Option ℝ
  init_h2o_sat : ℝ
  init_z_0 : ℝ

/-- Python `int(a / b)` for integers: `ZeroDivisionError` or truncation towards zero.  (The float
quotient is taken as exact.) -/
def intDiv (a b : ℤ) : Except Err ℤ :=
  if b = 0 then .error .zeroDivision else .ok (a.tdiv b)

/-- pysnobal.py:81–180 (`'output'` is never read and is omitted). -/
def parse_time_steps (g : Config) : Except Err Tsteps := do
  let med ← intDiv g.norm_time_step g.medium_time_step
  let sm ← intDiv g.medium_time_step g.small_time_step
  let smAll ← intDiv g.norm_time_step g.small_time_step
  pure fun lv => match lv with
    | .normal => { threshold := g.norm_threshold, time_step := (min2sec g.norm_time_step : ℤ),
                   timedelta := g.norm_time_step, intervals := 1, intervals_per_timestep := 1 }
    | .medium => { threshold := g.medium_threshold, time_step := (min2sec g.medium_time_step : ℤ),
                   timedelta := g.medium_time_step, intervals := med, intervals_per_timestep := med }
    | .small => { threshold := g.small_threshold, time_step := (min2sec g.small_time_step : ℤ),
                  timedelta := g.small_time_step, intervals := sm, intervals_per_timestep := smAll }

/-- `SnowState()`, snow_state.py:21–75: everything zero. -/
def Snow.zero : Snow :=
  { h2o_sat := 0, rho := 0, t_s := 0, t_s_0 := 0, t_s_l := 0, z_s := 0, z_s_0 := 0, z_s_l := 0,
    cc_s_0 := 0, cc_s_l := 0, m_s := 0, m_s_0 := 0, m_s_l := 0, h2o := 0, h2o_max := 0,
    h2o_total := 0, h2o_vol := 0, en := Energy.zero, melt := 0, E := 0, E_s := 0, swi := 0,
    snowcover := false }

/-- The environment built by `Snobal.__init__` (snobal.py:38–61) and `create_snow_state`
(snobal.py:1202–1224).  `relative_hts` is the constant `False` of snobal.py:61. -/
def mkEnv (g : Config) : Except Err Env := do
  let P_a ← hysat SEA_LEVEL STD_AIRTMP STD_LAPSE (g.elevation / 1000) GRAVITY MOL_AIR
  pure { P_a, z_u := g.z_u, z_t := g.z_t, z_g := g.z_g, relative_hts := false,
         max_z_s_0 := g.max_active, small_threshold := g.small_threshold,
         max_h2o_vol := g.max_h2o, z_0 := g.init_z_0 }

/-- The snow state before `init_snow`: `create_snow_state`, snobal.py:1212–1223. -/
def recordSnow (g : Config) : Snow :=
  { Snow.zero with
    z_s := g.init_z_s, rho := g.init_rho, t_s_0 := g.init_t_s_0, t_s := g.init_t_s,
    h2o_sat := g.init_h2o_sat, t_s_l := g.init_t_s_l.getD 0 }

/-- `Snobal.__init__`, snobal.py:20–70.  `input1` does not exist before the first data step; `i` is a
placeholder that `do_data_tstep` overwrites. -/
def mkModel (g : Config) (c : Env) (i : InputData) : Except Err Model := do
  let s ← init_snow c (recordSnow g)
  pure { phys := { snow := s, input1 := i, init_ustar := none, init_factor := none }
         acc := { acc := { bar := Energy.zero, melt_sum := 0, E_s_sum := 0, swi_sum := none },
                  time_since_out := 0 }
         current_datetime := g.start_date
         output_list := [] }

/-- The loop of `PySnobal.run`, pysnobal.py:298–311. -/
def runSteps (c : Env) (ts : Tsteps) (all : Bool) : InputData → List Rec → Model → Except Err Model
  | _, [], m => .ok m
  | i1, r :: rs, m => do
      let i2 ← InputData.new r
      let m ← do_data_tstep c ts all i1 i2 m
      runSteps c ts all i2 rs m

/-- `PySnobal.run` up to the output, pysnobal.py:285–311; an empty table raises `IndexError`. -/
def simulate (g : Config) (rows : List Rec) : Except Err Model :=
  match rows with
  | [] => .error .index
  | r :: rs => do
      let ts ← parse_time_steps g
      let i1 ← InputData.new r
      let c ← mkEnv g
      let m ← mkModel g c i1
      runSteps c ts g.output_all i1 rs m

/-- A row of the output table with its 25 columns, pysnobal.py:348–354, before number formatting. -/
structure OutRow where
  date_time : ℤ
  R_n : ℝ
  H : ℝ
  L_v_E : ℝ
  G : ℝ
  M : ℝ
  delta_Q : ℝ
  G_0 : ℝ
  delta_Q_0 : ℝ
  cc_s_0 : ℝ
  cc_s_l : ℝ
  cc_s : ℝ
  E_s : ℝ
  melt : ℝ
  swi : ℝ
  z_s_0 : ℝ
  z_s_l : ℝ
  z_s : ℝ
  rho : ℝ
  m_s_0 : ℝ
  m_s_l : ℝ
  m_s : ℝ
  h2o : ℝ
  t_s_0 : ℝ
  t_s_l : ℝ
  t_s : ℝ

/-- pysnobal.py:327–354 on one record -/
def toRow (r : OutRec) : OutRow :=
  { date_time := r.date_time, R_n := r.R_n_bar, H := r.H_bar, L_v_E := r.L_v_E_bar, G := r.G_bar,
    M := r.M_bar, delta_Q := r.delta_Q_bar, G_0 := r.G_0_bar, delta_Q_0 := r.delta_Q_0_bar,
    cc_s_0 := r.cc_s_0, cc_s_l := r.cc_s_l, cc_s := r.cc_s, E_s := r.E_s_sum, melt := r.melt_sum,
    swi := r.swi_sum, z_s_0 := r.z_s_0, z_s_l := r.z_s_l, z_s := r.z_s, rho := r.rho,
    m_s_0 := r.m_s_0, m_s_l := r.m_s_l, m_s := r.m_s, h2o := r.h2o,
    t_s_0 := r.t_s_0 - FREEZE, t_s_l := r.t_s_l - FREEZE, t_s := r.t_s - FREEZE }

/-- pysnobal.py:318–354: build, sort and convert the table (`KeyError` if nothing was emitted). -/
def outputTable (out : List OutRec) : Except Err (List OutRow) :=
  match out with
  | [] => .error .key
  | _ => .ok ((out.mergeSort (fun a b => decide (a.date_time ≤ b.date_time))).map toRow)

/-- `PySnobal.run` with its effect on the output file: `file` is the file's content before the call.
The file is written last (pysnobal.py:314, 390). -/
def run (g : Config) (rows : List Rec) (file : Option (List OutRow)) :
    Except Err Bool × Option (List OutRow) :=
  match simulate g rows with
  | .error e => (.error e, file)
  | .ok m =>
    match outputTable m.output_list with
    | .error e => (.error e, file)
    | .ok t => (.ok true, some t)

/-! ### Input table -/

/-- A row of the input CSV: temperatures in Celsius. -/
structure RawRow where
  date_time : ℤ
  net_solar : ℝ
  incoming_thermal : ℝ
  air_temp : ℝ
  vapor_pressure : ℝ
  wind_speed : ℝ
  soil_temp : ℝ
  precip_mass : ℝ
  percent_snow : ℝ
  rho_snow : ℝ
  precip_temp : ℝ

/-- pysnobal.py:244–252 and 263–276 on one row: Kelvin, rain not below freezing, renaming. -/
def convertRow (r : RawRow) : Rec :=
  let t_pp := r.precip_temp + FREEZE
  let mass_rain := r.precip_mass * (1 - r.percent_snow)
  { S_n := r.net_solar, I_lw := r.incoming_thermal, t_a := r.air_temp + FREEZE,
    e_a := r.vapor_pressure, u := r.wind_speed, t_g := r.soil_temp + FREEZE, m_pp := r.precip_mass,
    percent_snow := r.percent_snow, rho_snow := r.rho_snow,
    t_pp := if mass_rain > 0 ∧ t_pp < FREEZE then FREEZE else t_pp }

/-- pysnobal.py:235: the first difference of the time column, in file order; `IndexError` when there
is none. -/
def firstDelta : List RawRow → Except Err ℤ
  | a :: b :: _ => .ok (b.date_time - a.date_time)
  | _ => .error .index

/-- pysnobal.py:235–241: sort by time and clip. -/
def windowRows (g : Config) (rows : List RawRow) : Except Err (List RawRow) := do
  let d ← firstDelta rows
  let sorted := rows.mergeSort (fun a b => decide (a.date_time ≤ b.date_time))
  pure (sorted.filter fun r => decide (g.start_date ≤ r.date_time ∧ r.date_time ≤ g.end_date + d))

/-- pysnobal.py:218–276 followed by `to_dict('index')`, pysnobal.py:285. -/
def read_input_data (g : Config) (rows : List RawRow) : Except Err (List (ℤ × Rec)) := do
  let w ← windowRows g rows
  if (w.map (·.date_time)).Nodup then pure (w.map fun r => (r.date_time, convertRow r))
  else throw .dupIndex

/-- `PySnobal(config_file)` followed by `.run()` (pysnobal.py:22–48, 218–276, 278–316), from the table to
the output file. -/
def runTable (g : Config) (rows : List RawRow) (file : Option (List OutRow)) :
    Except Err Bool × Option (List OutRow) :=
  match read_input_data g rows with
  | .error e => (.error e, file)
  | .ok l => run g (l.map (·.2)) file

end

end Pysnobal
