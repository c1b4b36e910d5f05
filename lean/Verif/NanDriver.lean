import Verif.NanSnobal

/-! # A run with missing values: the time stepping, `pysnobal/pysnobal.py`

The definitions of `Driver.lean` and `PySnobal.lean` that depend on the number type once more, over `NVal` (see
`NanFunctions.lean`).  The recursion over time step levels is that of `Driver.lean` (`Sim`). -/

namespace Pysnobal

noncomputable section

open Classical

namespace Nan

/-- Energy terms that are all numbers. -/
def Energy.ofReal (e : Pysnobal.Energy) : Energy :=
  { R_n := some e.R_n, H := some e.H, L_v_E := some e.L_v_E, G := some e.G, G_0 := some e.G_0, M := some e.M,
    delta_Q := some e.delta_Q, delta_Q_0 := some e.delta_Q_0 }

/-- A snow state whose values are all numbers. -/
def Snow.ofReal (s : Pysnobal.Snow) : Snow :=
  { h2o_sat := some s.h2o_sat, rho := some s.rho, t_s := some s.t_s, t_s_0 := some s.t_s_0, t_s_l := some s.t_s_l,
    z_s := some s.z_s, z_s_0 := some s.z_s_0, z_s_l := some s.z_s_l, cc_s_0 := some s.cc_s_0, cc_s_l := some s.cc_s_l,
    m_s := some s.m_s, m_s_0 := some s.m_s_0, m_s_l := some s.m_s_l, h2o := some s.h2o, h2o_max := some s.h2o_max,
    h2o_total := some s.h2o_total, h2o_vol := some s.h2o_vol, en := Energy.ofReal s.en, melt := some s.melt,
    E := some s.E, E_s := some s.E_s, swi := some s.swi, snowcover := s.snowcover }

/-- A record appended by `output()`, snobal.py:1251–1256 and 1275–1277. -/
structure OutRec where
  rho : NVal
  t_s_0 : NVal
  t_s_l : NVal
  t_s : NVal
  cc_s_0 : NVal
  cc_s_l : NVal
  cc_s : NVal
  m_s : NVal
  m_s_0 : NVal
  m_s_l : NVal
  z_s : NVal
  z_s_0 : NVal
  z_s_l : NVal
  h2o_sat : NVal
  layer_count : ℕ
  h2o : NVal
  h2o_max : NVal
  h2o_vol : NVal
  h2o_total : NVal
  R_n_bar : NVal
  H_bar : NVal
  L_v_E_bar : NVal
  G_bar : NVal
  G_0_bar : NVal
  M_bar : NVal
  delta_Q_bar : NVal
  delta_Q_0_bar : NVal
  E_s_sum : NVal
  melt_sum : NVal
  swi_sum : NVal
  date_time : ℤ

/-- Accumulators together with `self.time_since_out`. -/
structure AccT where
  acc : Acc
  time_since_out : ℝ

/-- snobal.py:256–262 -/
def accumulate (dt : ℝ) (s : Snow) (a : AccT) : Except Err AccT :=
  if a.time_since_out > 0 then do
    let acc ← Acc.time_average s a.acc a.time_since_out dt
    pure { acc, time_since_out := a.time_since_out + dt }
  else .ok { acc := Acc.value_to_bar s a.acc, time_since_out := dt }

/-- snobal.py:1275–1277; reading the never-assigned `swi_sum` raises `AttributeError`. -/
def snapshot (s : Snow) (a : Acc) (t : ℤ) : Except Err OutRec :=
  match a.swi_sum with
  | none => .error .attribute
  | some x => .ok
      { rho := s.rho, t_s_0 := s.t_s_0, t_s_l := s.t_s_l, t_s := s.t_s, cc_s_0 := s.cc_s_0,
        cc_s_l := s.cc_s_l, cc_s := s.cc_s, m_s := s.m_s, m_s_0 := s.m_s_0, m_s_l := s.m_s_l,
        z_s := s.z_s, z_s_0 := s.z_s_0, z_s_l := s.z_s_l, h2o_sat := s.h2o_sat,
        layer_count := s.layer_count, h2o := s.h2o, h2o_max := s.h2o_max, h2o_vol := s.h2o_vol,
        h2o_total := s.h2o_total, R_n_bar := a.bar.R_n, H_bar := a.bar.H, L_v_E_bar := a.bar.L_v_E,
        G_bar := a.bar.G, G_0_bar := a.bar.G_0, M_bar := a.bar.M, delta_Q_bar := a.bar.delta_Q,
        delta_Q_0_bar := a.bar.delta_Q_0, E_s_sum := a.E_s_sum, melt_sum := a.melt_sum,
        swi_sum := x, date_time := t }

/-- A `Snobal` object. -/
abbrev Model := SimSt Phys AccT OutRec

/-- The time stepping of `Snobal` during one data time step with deltas `dl`. -/
def snobalSim (c : Env) (ts : Tsteps) (all : Bool) (dl : Level → NInput) : Sim Phys AccT OutRec where
  intervals lv := (ts lv).intervals
  timedelta lv := (ts lv).timedelta
  below lv p := below_thold (ts lv).threshold p.snow
  enter lv p :=
    if p.input1.precip_now then { p with input1 := p.input1.update_precip_deltas (dl lv) } else p
  phys lv p := stepPhys c (ts lv).time_step (dl lv) p
  accum lv p a := accumulate (ts lv).time_step p.snow a
  finish lv p := { p with input1 := p.input1.add_deltas (dl lv) }
  snap p a t := snapshot p.snow a.acc t
  reset a := { a with time_since_out := 0 }
  output_divided := all

/-- `InputDeltas(...).calculate()`, input.py:190–213: the deltas of the three levels, in order. -/
def inputDeltas (ts : Tsteps) (i1 i2 : NInput) : Except Err (Level → NInput) := do
  let n ← nDeltaFor i1 i2 (ts .normal)
  let m ← nDeltaFor i1 i2 (ts .medium)
  let s ← nDeltaFor i1 i2 (ts .small)
  pure (fun lv => match lv with | .normal => n | .medium => m | .small => s)

/-- snobal.py:72–134 -/
def do_data_tstep (c : Env) (ts : Tsteps) (all : Bool) (i1 i2 : NInput) (m : Model) :
    Except Err Model := do
  let dl ← inputDeltas ts i1 i2
  (snobalSim c ts all dl).data_tstep { m with phys := { m.phys with input1 := i1 } }

/-- `Snobal.__init__`, snobal.py:20–70, as in `Pysnobal.mkModel`; the configuration is complete. -/
def mkModel (g : Config) (c : Env) (i : NInput) : Except Err Model := do
  let s ← init_snow c (Snow.ofReal (recordSnow g))
  pure { phys := { snow := s, input1 := i, init_ustar := none, init_factor := none }
         acc := { acc := { bar := Energy.zero, melt_sum := 0, E_s_sum := 0, swi_sum := none },
                  time_since_out := 0 }
         current_datetime := g.start_date
         output_list := [] }

/-- The loop of `PySnobal.run`, pysnobal.py:298–311. -/
def runSteps (c : Env) (ts : Tsteps) (all : Bool) : NInput → List NRec → Model → Except Err Model
  | _, [], m => .ok m
  | i1, r :: rs, m => do
      let i2 ← NInput.new r
      let m ← do_data_tstep c ts all i1 i2 m
      runSteps c ts all i2 rs m

/-- `PySnobal.run` up to the output, pysnobal.py:285–311; an empty table raises `IndexError`. -/
def simulate (g : Config) (rows : List NRec) : Except Err Model :=
  match rows with
  | [] => .error .index
  | r :: rs => do
      let ts ← parse_time_steps g
      let i1 ← NInput.new r
      let c ← mkEnv g
      let m ← mkModel g c i1
      runSteps c ts g.output_all i1 rs m

/-- A row of the output table with its 25 columns, pysnobal.py:348–354, before number formatting. -/
structure OutRow where
  date_time : ℤ
  R_n : NVal
  H : NVal
  L_v_E : NVal
  G : NVal
  M : NVal
  delta_Q : NVal
  G_0 : NVal
  delta_Q_0 : NVal
  cc_s_0 : NVal
  cc_s_l : NVal
  cc_s : NVal
  E_s : NVal
  melt : NVal
  swi : NVal
  z_s_0 : NVal
  z_s_l : NVal
  z_s : NVal
  rho : NVal
  m_s_0 : NVal
  m_s_l : NVal
  m_s : NVal
  h2o : NVal
  t_s_0 : NVal
  t_s_l : NVal
  t_s : NVal

/-- pysnobal.py:327–354 on one record -/
def toRow (r : OutRec) : OutRow :=
  { date_time := r.date_time, R_n := r.R_n_bar, H := r.H_bar, L_v_E := r.L_v_E_bar, G := r.G_bar,
    M := r.M_bar, delta_Q := r.delta_Q_bar, G_0 := r.G_0_bar, delta_Q_0 := r.delta_Q_0_bar,
    cc_s_0 := r.cc_s_0, cc_s_l := r.cc_s_l, cc_s := r.cc_s, E_s := r.E_s_sum, melt := r.melt_sum,
    swi := r.swi_sum, z_s_0 := r.z_s_0, z_s_l := r.z_s_l, z_s := r.z_s, rho := r.rho,
    m_s_0 := r.m_s_0, m_s_l := r.m_s_l, m_s := r.m_s, h2o := r.h2o,
    t_s_0 := r.t_s_0 - some FREEZE, t_s_l := r.t_s_l - some FREEZE, t_s := r.t_s - some FREEZE }

/-- pysnobal.py:318–354: build, sort and convert the table (`KeyError` if nothing was emitted). -/
def outputTable (out : List OutRec) : Except Err (List OutRow) :=
  match out with
  | [] => .error .key
  | _ => .ok ((out.mergeSort (fun a b => decide (a.date_time ≤ b.date_time))).map toRow)

/-- `PySnobal.run` with its effect on the output file: `file` is the file's content before the call.
The file is written last (pysnobal.py:314, 390). -/
def run (g : Config) (rows : List NRec) (file : Option (List OutRow)) :
    Except Err Bool × Option (List OutRow) :=
  match simulate g rows with
  | .error e => (.error e, file)
  | .ok m =>
    match outputTable m.output_list with
    | .error e => (.error e, file)
    | .ok t => (.ok true, some t)

/-- pysnobal.py:235: the first difference of the time column, in file order; `IndexError` when there
is none. -/
def firstDelta : List NRow → Except Err ℤ
  | a :: b :: _ => .ok (b.date_time - a.date_time)
  | _ => .error .index

/-- pysnobal.py:235–241: sort by time and clip. -/
def windowRows (g : Config) (rows : List NRow) : Except Err (List NRow) := do
  let d ← firstDelta rows
  let sorted := rows.mergeSort (fun a b => decide (a.date_time ≤ b.date_time))
  pure (sorted.filter fun r => decide (g.start_date ≤ r.date_time ∧ r.date_time ≤ g.end_date + d))

/-- pysnobal.py:218–276 followed by `to_dict('index')`, pysnobal.py:285. -/
def read_input_data (g : Config) (rows : List NRow) : Except Err (List (ℤ × NRec)) := do
  let w ← windowRows g rows
  if (w.map (·.date_time)).Nodup then pure (w.map fun r => (r.date_time, nConvertRow r))
  else throw .dupIndex

/-- `PySnobal(config_file)` followed by `.run()` (pysnobal.py:22–48, 218–276, 278–316), from the table to
the output file. -/
def runTable (g : Config) (rows : List NRow) (file : Option (List OutRow)) :
    Except Err Bool × Option (List OutRow) :=
  match read_input_data g rows with
  | .error e => (.error e, file)
  | .ok l => run g (l.map (·.2)) file

end Nan

end

end Pysnobal
