import Verif.PySnobal

/-! # Missing forcing values

An empty cell of the input table is read by `pandas.read_csv` as NaN and travels through `InputData` and
`InputDeltas` like any other number.  This file models the forcing layer (`pysnobal.py:244–276`,
`pysnobal/point/input.py`) once more, with `none` for NaN: arithmetic with a NaN operand gives NaN, and every comparison
with NaN is false.  The other forcing definitions (`Input.lean`, `PySnobal.lean`) are the special case without `none`
(C77).  What the snow physics does with a NaN it reads is in `NanFunctions.lean`,
`NanSnobal.lean` and `NanDriver.lean`. -/

namespace Pysnobal

noncomputable section

open Classical

/-- A Python float that may be NaN (`none`). -/
abbrev NVal := Option ℝ

/-- `a + b`, `a - b`, `a * b`: NaN if either operand is. -/
def NVal.add (a b : NVal) : NVal := a.bind fun x => b.map fun y => x + y
/-- See `NVal.add`. -/
def NVal.sub (a b : NVal) : NVal := a.bind fun x => b.map fun y => x - y
/-- See `NVal.add`. -/
def NVal.mul (a b : NVal) : NVal := a.bind fun x => b.map fun y => x * y

/-- `a / b`: `ZeroDivisionError` for a zero divisor (whatever the dividend), otherwise NaN if either operand is. -/
def NVal.div (a b : NVal) : Except Err NVal :=
  match b with
  | none => .ok none
  | some y => if y = 0 then .error .zeroDivision else .ok (a.map fun x => x / y)

/-- `a < b`: false if either operand is NaN. -/
def NVal.lt (a b : NVal) : Prop := ∃ x y, a = some x ∧ b = some y ∧ x < y

/-- The dictionary passed to `InputData(data)`, input.py:49–58, with missing values. -/
structure NRec where
  S_n : NVal
  I_lw : NVal
  t_a : NVal
  e_a : NVal
  u : NVal
  t_g : NVal
  m_pp : NVal
  percent_snow : NVal
  rho_snow : NVal
  t_pp : NVal

/-- An `InputData` object (input.py:5–179) with missing values. -/
structure NInput where
  S_n : NVal
  I_lw : NVal
  t_a : NVal
  e_a : NVal
  u : NVal
  t_g : NVal
  m_pp : NVal
  percent_snow : NVal
  rho_snow : NVal
  t_pp : NVal
  m_snow : NVal
  m_rain : NVal
  z_snow : NVal
  h2o_sat_snow : NVal
  t_rain : NVal
  t_snow : NVal
  precip_now : Bool

/-- input.py:116–159, run on a freshly initialised object (derived fields zero). -/
def NInput.precipitation_inputs (d : NInput) : Except Err NInput :=
  let d := { d with precip_now := false }
  if NVal.lt (some 0) d.m_pp then do
    let d := { d with precip_now := true }
    -- input.py:127–134
    let d ←
      if NVal.lt (some 0) d.m_snow then
        if NVal.lt (some 0) d.rho_snow then do
          let z ← NVal.div d.m_snow d.rho_snow
          pure { d with z_snow := z }
        else throw .rhoSnow
      else pure { d with z_snow := some 0 }
    -- input.py:137–138
    let d := if NVal.lt (some 0) d.m_rain ∧ NVal.lt d.t_pp (some FREEZE) then { d with t_pp := some FREEZE } else d
    -- input.py:141–159
    if NVal.lt (some 0) d.m_snow ∧ NVal.lt (some 0) d.m_rain then
      pure { d with t_snow := some FREEZE, h2o_sat_snow := some 1, t_rain := d.t_pp }
    else if NVal.lt (some 0) d.m_snow then
      if NVal.lt d.t_pp (some FREEZE) then pure { d with t_snow := d.t_pp, h2o_sat_snow := some 0 }
      else pure { d with t_snow := some FREEZE, h2o_sat_snow := some 1 }
    else if NVal.lt (some 0) d.m_rain then pure { d with t_rain := d.t_pp }
    else pure d
  else .ok d

/-- `InputData(data)` with the default `input_delta=False`, input.py:47–70. -/
def NInput.new (r : NRec) : Except Err NInput :=
  let m_snow := NVal.mul r.m_pp r.percent_snow
  NInput.precipitation_inputs
    { S_n := r.S_n, I_lw := r.I_lw, t_a := r.t_a, e_a := r.e_a, u := r.u, t_g := r.t_g,
      m_pp := r.m_pp, percent_snow := r.percent_snow, rho_snow := r.rho_snow, t_pp := r.t_pp,
      m_snow := m_snow, m_rain := NVal.sub r.m_pp m_snow,
      z_snow := some 0, h2o_sat_snow := some 0, t_rain := some 0, t_snow := some 0, precip_now := false }

/-- input.py:173–179 -/
def NInput.update_precip_deltas (d dl : NInput) : NInput :=
  { d with m_pp := dl.m_pp, m_snow := dl.m_snow, m_rain := dl.m_rain, z_snow := dl.z_snow }

/-- input.py:161–171 -/
def NInput.add_deltas (d dl : NInput) : NInput :=
  NInput.update_precip_deltas
    { d with S_n := NVal.add d.S_n dl.S_n, I_lw := NVal.add d.I_lw dl.I_lw, t_a := NVal.add d.t_a dl.t_a,
             e_a := NVal.add d.e_a dl.e_a, u := NVal.add d.u dl.u, t_g := NVal.add d.t_g dl.t_g } dl

/-- The body of the loop in `InputDeltas.calculate`, input.py:195–211, for one time step level. -/
def nDeltaFor (i1 i2 : NInput) (ts : TstepInfo) : Except Err NInput := do
  let n : NVal := some ts.intervals_per_timestep
  let S_n ← NVal.div (NVal.sub i2.S_n i1.S_n) n
  let I_lw ← NVal.div (NVal.sub i2.I_lw i1.I_lw) n
  let t_a ← NVal.div (NVal.sub i2.t_a i1.t_a) n
  let e_a ← NVal.div (NVal.sub i2.e_a i1.e_a) n
  let u ← NVal.div (NVal.sub i2.u i1.u) n
  let t_g ← NVal.div (NVal.sub i2.t_g i1.t_g) n
  let m_pp ← NVal.div i1.m_pp n
  NInput.new { S_n, I_lw, t_a, e_a, u, t_g, m_pp,
               percent_snow := i1.percent_snow, rho_snow := i1.rho_snow, t_pp := i1.t_pp }

/-- A row of the input CSV with empty cells; the time stamp is the index and is present. -/
structure NRow where
  date_time : ℤ
  net_solar : NVal
  incoming_thermal : NVal
  air_temp : NVal
  vapor_pressure : NVal
  wind_speed : NVal
  soil_temp : NVal
  precip_mass : NVal
  percent_snow : NVal
  rho_snow : NVal
  precip_temp : NVal

/-- pysnobal.py:244–252 and 263–276 on one row: Kelvin, rain not below freezing, renaming. -/
def nConvertRow (r : NRow) : NRec :=
  let t_pp := NVal.add r.precip_temp (some FREEZE)
  let mass_rain := NVal.mul r.precip_mass (NVal.sub (some 1) r.percent_snow)
  { S_n := r.net_solar, I_lw := r.incoming_thermal, t_a := NVal.add r.air_temp (some FREEZE),
    e_a := r.vapor_pressure, u := r.wind_speed, t_g := NVal.add r.soil_temp (some FREEZE), m_pp := r.precip_mass,
    percent_snow := r.percent_snow, rho_snow := r.rho_snow,
    t_pp := if NVal.lt (some 0) mass_rain ∧ NVal.lt t_pp (some FREEZE) then some FREEZE else t_pp }

/-- The forcing of the model after `n` run steps of one level within a data step (snobal.py:235–279): before each run
step the precipitation of the level is set if there is any (snobal.py:239–241), after it the deltas are added
(snobal.py:277). -/
def NInput.working (i1 dl : NInput) : ℕ → NInput
  | 0 => i1
  | n + 1 =>
    let d := NInput.working i1 dl n
    NInput.add_deltas (if d.precip_now then d.update_precip_deltas dl else d) dl

/-- `h2o_left`, core/snow.py:5–16 -/
def nH2oLeft (d rhos sat : NVal) : NVal :=
  (NVal.mul (NVal.mul (NVal.mul sat d) (some RHO_W0)) (NVal.sub (some RHO_ICE) rhos)).map fun x => x / RHO_ICE

/-- The liquid water `(h2o, h2o_total)` after a precipitation event on an existing snowcover, snobal.py:616–620 and
635–636, given the water before it. -/
def nPrecipWater (max_h2o_vol : ℝ) (i : NInput) (h2o h2o_total : NVal) : NVal × NVal :=
  let h2o_vol_snow := NVal.mul i.h2o_sat_snow (some max_h2o_vol)
  let h2o := NVal.add h2o (nH2oLeft i.z_snow i.rho_snow h2o_vol_snow)
  (h2o, NVal.add h2o_total (NVal.add h2o i.m_rain))

end

end Pysnobal
