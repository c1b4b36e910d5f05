import Verif.PySnobal

/-! # Array versions

`spatial/isnobal.py: calc_layers` and `libsnobal.py: satw_np, sati_np`.  Both act element by element,
so an array is a function from cells (or a list of elements).  (`iSnobal.calc_layers` assigns
`snow_state.layer_count`, which the point `SnowState` only offers as a read-only property; the model
treats it as a plain field, as the gridded code intends.) -/

namespace Pysnobal

noncomputable section

/-- The per-cell variables `calc_layers` reads and writes. -/
structure Cell where
  m_s : ℝ
  rho : ℝ
  z_s : ℝ
  z_s_0 : ℝ
  z_s_l : ℝ
  layer_count : ℕ

/-- spatial/isnobal.py:84–134 on one cell -/
def Cell.calc_layers (max_z_s_0 threshold : ℝ) (x : Cell) : Cell :=
  -- isnobal.py:99–104
  let x := if x.m_s ≤ threshold then { x with layer_count := 0, z_s := 0, z_s_0 := 0, z_s_l := 0 } else x
  -- isnobal.py:106–113
  let x := if x.z_s < max_z_s_0 then { x with layer_count := 1, z_s_0 := x.z_s, z_s_l := 0 } else x
  -- isnobal.py:116–121
  let x := if x.z_s ≥ max_z_s_0 then { x with layer_count := 2, z_s_0 := max_z_s_0 } else x
  -- isnobal.py:123
  let x := { x with z_s_l := x.z_s - x.z_s_0 }
  -- isnobal.py:126–134
  if x.z_s_l * x.rho < threshold then { x with layer_count := 1, z_s_0 := x.z_s, z_s_l := 0 } else x

/-- libsnobal.py:30–50 on one element; `none` is NaN.  For a zero element numpy divides by zero and
produces non-finite intermediates; the model returns NaN there and no theorem uses that case. -/
def satw_np (tk : ℝ) : Option ℝ :=
  if tk < 0 ∨ tk = 0 then none
  else
    let btk := BOIL / tk
    some ((10 : ℝ) ^ (-7.90298 * (btk - 1) + 5.02808 * Real.log btk / LOG_10 -
      1.3816e-7 * ((10 : ℝ) ^ (11.344 * (1 - tk / BOIL)) - 1) +
      8.1328e-3 * ((10 : ℝ) ^ (-3.49149 * (btk - 1)) - 1) +
      LOG_SEA_LEVEL / LOG_10))

/-- libsnobal.py:53–79 on one element -/
def sati_np (tk : ℝ) : Option ℝ :=
  if tk < 0 ∨ tk = 0 then none
  else if tk > FREEZE then satw_np tk
  else some (100 * (10 : ℝ) ^ (-9.09718 * ((FREEZE / tk) - 1) -
      3.56654 * Real.log (FREEZE / tk) / LOG_10 +
      0.876793 * (1 - (tk / FREEZE)) + Real.log 6.1071 / LOG_10))

/-! ### `spatial/snow_state.py`

`SpatialSnowState` overrides eight members of `SnowState`.  They are modelled for one cell (a scalar); on an array of more
than one cell the `if` statements of `isothermal` and `adjust_layer_temps` raise in numpy, and nothing in the package
calls them with one. -/

/-- spatial/snow_state.py:15–26 -/
def Snow.grid_isothermal (s : Snow) : Prop :=
  if s.layer_count = 2 ∧ s.cc_s_0 = 0 ∧ s.cc_s_l = 0 then True
  else if s.layer_count = 1 ∧ s.cc_s_0 = 0 then True
  else False

/-- spatial/snow_state.py:56–77 -/
def grid_new_tsno (spm t0 ccon : ℝ) : Except Err ℝ := do
  let cp := cp_ice t0
  let tdif ← pdiv ccon (spm * cp)
  pure (tdif + FREEZE)

open Classical in
/-- spatial/snow_state.py:28–54 -/
def Snow.grid_adjust_layer_temps (s : Snow) : Except Err Snow :=
  if s.layer_count = 1 then do
    let t ← grid_new_tsno s.m_s_0 s.t_s_0 s.cc_s_0
    pure { s with t_s_0 := t, t_s := t }
  else if s.layer_count = 2 then
    if s.grid_isothermal then
      pure { s with t_s := FREEZE, t_s_l := FREEZE, t_s_0 := FREEZE }
    else do
      let t0 ← grid_new_tsno s.m_s_0 s.t_s_0 s.cc_s_0
      let tl ← grid_new_tsno s.m_s_l s.t_s_l s.cc_s_l
      let t ← grid_new_tsno s.m_s s.t_s s.cc_s
      pure { s with t_s_0 := t0, t_s_l := tl, t_s := t }
  else .ok s

/-- spatial/snow_state.py:79–92 -/
def Snow.grid_dry_snow_density (s : Snow) : Except Err ℝ :=
  pdiv (s.rho - s.h2o_vol * RHO_W0) (1 - s.h2o_vol * RHO_W0 / RHO_ICE)

/-- spatial/snow_state.py:94–105 -/
def Snow.grid_kts (s : Snow) : ℝ := CAL_TO_J * 0.0077 * (s.rho / 1000) * (s.rho / 1000)

/-- spatial/snow_state.py:107–116 -/
def Acc.grid_value_to_bar (s : Snow) (_ : Acc) : Acc :=
  { bar := s.en, melt_sum := s.melt, E_s_sum := s.E_s, swi_sum := some s.swi }

/-- spatial/snow_state.py:118–136 (the loop over the terms is `Energy.average`, as in the point code) -/
def Acc.grid_time_average (s : Snow) (a : Acc) (time_since_out time_step : ℝ) : Except Err Acc := do
  let bar ← Energy.average a.bar s.en time_since_out time_step
  match a.swi_sum with
  | none => throw .attribute
  | some x =>
    pure { bar, E_s_sum := a.E_s_sum + s.E_s, melt_sum := a.melt_sum + s.melt,
           swi_sum := some (x + s.swi) }

/-! ### `ipysnobal.py`: what the gridded driver prepares for a cell

A grid is a function from cells `ι`; a data set holds a series of records per cell.  `iPySnobal.run` then builds an `iSnobal`, whose
constructor calls `init_snow` with an argument it does not take (isnobal.py:52), so no gridded run gets any further: what is modelled is what
has been prepared by then. -/

/-- ipysnobal.py:58–61 on one record of one cell: the temperatures in Kelvin, and, unlike pysnobal.py:249–252, nothing about rain -/
def gridRow (r : RawRow) : Rec :=
  { S_n := r.net_solar, I_lw := r.incoming_thermal, t_a := r.air_temp + FREEZE, e_a := r.vapor_pressure, u := r.wind_speed,
    t_g := r.soil_temp + FREEZE, m_pp := r.precip_mass, percent_snow := r.percent_snow, rho_snow := r.rho_snow,
    t_pp := r.precip_temp + FREEZE }

/-- The initial snow of a grid (ipysnobal.py:23–30). -/
structure GridInit (ι : Type) where
  z_0 : ι → ℝ
  z_s : ι → ℝ
  rho : ι → ℝ
  t_s_0 : ι → ℝ
  t_s : ι → ℝ
  h2o_sat : ι → ℝ

/-- ipysnobal.py:63–81: the fields of the file, if there is one, else the constants of the configuration times an array of ones -/
def read_initial_conditions {ι : Type} (g : Config) (file : Option (GridInit ι)) : GridInit ι :=
  match file with
  | some f => f
  | none =>
    { z_0 := fun _ => g.init_z_0 * 1, z_s := fun _ => g.init_z_s * 1, rho := fun _ => g.init_rho * 1,
      t_s_0 := fun _ => g.init_t_s_0 * 1, t_s := fun _ => g.init_t_s * 1, h2o_sat := fun _ => g.init_h2o_sat * 1 }

/-- isnobal.py:34–49 on one cell: the configuration of the cell, with its elevation (ipysnobal.py:41–46) and its initial snow.  Its air
pressure is then that of `mkEnv`: the call to `hysat` (isnobal.py:40–46) is the same as that of
snobal.py:46–52.  Only data steps are output (isnobal.py:38). -/
def gridConfig {ι : Type} (g : Config) (elevation : ι → ℝ) (x : GridInit ι) (j : ι) : Config :=
  { g with elevation := elevation j, init_z_0 := x.z_0 j, init_z_s := x.z_s j, init_rho := x.rho j, init_t_s_0 := x.t_s_0 j,
           init_t_s := x.t_s j, init_t_s_l := none, init_h2o_sat := x.h2o_sat j, output_all := false }

end

end Pysnobal
