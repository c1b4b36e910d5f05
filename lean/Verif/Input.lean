import Verif.Libsnobal

/-! # `pysnobal/point/input.py` -/

namespace Pysnobal

noncomputable section

/-- The dictionary passed to `InputData(data)`: the ten keys read in input.py:49–58. -/
structure Rec where
  S_n : ℝ
  I_lw : ℝ
  t_a : ℝ
  e_a : ℝ
  u : ℝ
  t_g : ℝ
  m_pp : ℝ
  percent_snow : ℝ
  rho_snow : ℝ
  t_pp : ℝ

/-- An `InputData` object (input.py:5–179).  `sat_vp` and `e_g` are computed on demand (their caching
is modelled in `Cache.lean`). -/
structure InputData where
  S_n : ℝ
  I_lw : ℝ
  t_a : ℝ
  e_a : ℝ
  u : ℝ
  t_g : ℝ
  m_pp : ℝ
  percent_snow : ℝ
  rho_snow : ℝ
  t_pp : ℝ
  m_snow : ℝ
  m_rain : ℝ
  z_snow : ℝ
  h2o_sat_snow : ℝ
  t_rain : ℝ
  t_snow : ℝ
  precip_now : Bool

/-- input.py:116–159, run on a freshly initialised object (derived fields zero). -/
def InputData.precipitation_inputs (d : InputData) : Except Err InputData :=
  let d := { d with precip_now := false }
  if d.m_pp > 0 then do
    let d := { d with precip_now := true }
    -- input.py:127–134
    let d ←
      if d.m_snow > 0 then
        if d.rho_snow > 0 then do
          let z ← pdiv d.m_snow d.rho_snow
          pure { d with z_snow := z }
        else throw .rhoSnow
      else pure { d with z_snow := 0 }
    -- input.py:137–138
    let d := if d.m_rain > 0 ∧ d.t_pp < FREEZE then { d with t_pp := FREEZE } else d
    -- input.py:141–159
    if d.m_snow > 0 ∧ d.m_rain > 0 then
      pure { d with t_snow := FREEZE, h2o_sat_snow := 1, t_rain := d.t_pp }
    else if d.m_snow > 0 then
      if d.t_pp < FREEZE then pure { d with t_snow := d.t_pp, h2o_sat_snow := 0 }
      else pure { d with t_snow := FREEZE, h2o_sat_snow := 1 }
    else if d.m_rain > 0 then pure { d with t_rain := d.t_pp }
    else pure d
  else .ok d

/-- `InputData(data)` with the default `input_delta=False`, input.py:47–70. -/
def InputData.new (r : Rec) : Except Err InputData :=
  let m_snow := r.m_pp * r.percent_snow
  InputData.precipitation_inputs
    { S_n := r.S_n, I_lw := r.I_lw, t_a := r.t_a, e_a := r.e_a, u := r.u, t_g := r.t_g,
      m_pp := r.m_pp, percent_snow := r.percent_snow, rho_snow := r.rho_snow, t_pp := r.t_pp,
      m_snow := m_snow, m_rain := r.m_pp - m_snow,
      z_snow := 0, h2o_sat_snow := 0, t_rain := 0, t_snow := 0, precip_now := false }

/-- input.py:82–92 -/
def InputData.sat_vp (d : InputData) : Except Err ℝ := sati d.t_a

/-- input.py:104–114 -/
def InputData.e_g (d : InputData) : Except Err ℝ := sati d.t_g

/-- input.py:173–179 -/
def InputData.update_precip_deltas (d dl : InputData) : InputData :=
  { d with m_pp := dl.m_pp, m_snow := dl.m_snow, m_rain := dl.m_rain, z_snow := dl.z_snow }

/-- input.py:161–171 -/
def InputData.add_deltas (d dl : InputData) : InputData :=
  InputData.update_precip_deltas
    { d with S_n := d.S_n + dl.S_n, I_lw := d.I_lw + dl.I_lw, t_a := d.t_a + dl.t_a,
             e_a := d.e_a + dl.e_a, u := d.u + dl.u, t_g := d.t_g + dl.t_g } dl

/-- One entry of `tstep_info` (pysnobal.py:133–168).  `'level'` is the position in the list and
`'output'` is never read, so both are omitted.  `time_step` is in seconds, `timedelta` in minutes. -/
structure TstepInfo where
  threshold : ℝ
  time_step : ℝ
  timedelta : ℤ
  intervals : ℤ
  intervals_per_timestep : ℤ

/-- The body of the loop in `InputDeltas.calculate`, input.py:195–211, for one time step level.  The
precipitation quantities other than `m_pp` are recomputed by the `InputData` constructor. -/
def deltaFor (i1 i2 : InputData) (ts : TstepInfo) : Except Err InputData := do
  let n : ℝ := ts.intervals_per_timestep
  let S_n ← pdiv (i2.S_n - i1.S_n) n
  let I_lw ← pdiv (i2.I_lw - i1.I_lw) n
  let t_a ← pdiv (i2.t_a - i1.t_a) n
  let e_a ← pdiv (i2.e_a - i1.e_a) n
  let u ← pdiv (i2.u - i1.u) n
  let t_g ← pdiv (i2.t_g - i1.t_g) n
  let m_pp ← pdiv i1.m_pp n
  InputData.new { S_n, I_lw, t_a, e_a, u, t_g, m_pp,
                  percent_snow := i1.percent_snow, rho_snow := i1.rho_snow, t_pp := i1.t_pp }

end

end Pysnobal
