import Verif.NanFunctions

/-! # The physics with missing values: `point/snow_state.py`, `point/snobal.py`

The definitions of `SnowState.lean` and `Snobal.lean` once more, over `NVal` (see `NanFunctions.lean`).  The configuration
(`Env`), the length of a step and the thresholds are numbers. -/

namespace Pysnobal

noncomputable section

open Classical

namespace Nan

/-! ### `point/snow_state.py` -/

/-- The eight time-averaged energy terms, snow_state.py:10–19.  The same structure holds the current
values and the `_bar` averages. -/
structure Energy where
  R_n : NVal
  H : NVal
  L_v_E : NVal
  G : NVal
  G_0 : NVal
  M : NVal
  delta_Q : NVal
  delta_Q_0 : NVal

/-- snow_state.py:51–52: every term is initialised to 0. -/
def Energy.zero : Energy := ⟨0, 0, 0, 0, 0, 0, 0, 0⟩

/-- The state variables of `SnowState` that the physics reads and writes (snow_state.py:27–68), plus
`snowcover`, which is the attribute `Snobal.snowcover` (snobal.py:246, 862).  The averages and sums
since the last output are in `Acc`; constants (`max_z_s_0`, `small_threshold`, `max_h2o_vol`, `z_0`)
are in `Env`.  `layer_count` and `cc_s` are computed. -/
structure Snow where
  h2o_sat : NVal
  rho : NVal
  t_s : NVal
  t_s_0 : NVal
  t_s_l : NVal
  z_s : NVal
  z_s_0 : NVal
  z_s_l : NVal
  cc_s_0 : NVal
  cc_s_l : NVal
  m_s : NVal
  m_s_0 : NVal
  m_s_l : NVal
  h2o : NVal
  h2o_max : NVal
  h2o_total : NVal
  h2o_vol : NVal
  en : Energy
  melt : NVal
  E : NVal
  E_s : NVal
  swi : NVal
  snowcover : Bool

/-- `*_bar` averages and `*_sum` totals since the last output (snow_state.py:54–55, 70–72, 217–245).
`swi_sum` does not exist before the first `value_to_bar` (snow_state.py:71–72 forgets it). -/
structure Acc where
  bar : Energy
  melt_sum : NVal
  E_s_sum : NVal
  swi_sum : Option NVal

/-- snow_state.py:151–157 (without the cache, see `Cache.lean`) -/
def Snow.layer_count (s : Snow) : ℕ :=
  (if s.z_s_0 >ₙ 0 then 1 else 0) + (if s.z_s_l >ₙ 0 then 1 else 0)

/-- snow_state.py:147–149 -/
def Snow.cc_s (s : Snow) : NVal := s.cc_s_0 + s.cc_s_l

/-- snow_state.py:139–141 -/
def Snow.isothermal (s : Snow) : Prop := s.cc_s =ₙ 0

/-- snow_state.py:247–255 -/
def Snow.layer_mass (s : Snow) : Snow :=
  { s with m_s_0 := s.rho * s.z_s_0, m_s_l := s.rho * s.z_s_l }

/-- snow_state.py:257–291 -/
def Snow.calc_layers (c : Env) (s : Snow) : Snow :=
  if s.m_s ≤ₙ c.small_threshold then
    { s with z_s := 0 + 0, z_s_0 := 0, z_s_l := 0 }
  else
    let zl := s.z_s - c.max_z_s_0
    let z0 : NVal := if zl >ₙ 0 then c.max_z_s_0 else s.z_s
    let zl := if zl >ₙ 0 then zl else 0
    let z0' := if zl * s.rho <ₙ c.small_threshold then s.z_s else z0
    let zl' := if zl * s.rho <ₙ c.small_threshold then 0 else zl
    { s with z_s := z0' + zl', z_s_0 := z0', z_s_l := zl' }

/-- snow_state.py:189–202 (for the given `h2o_vol`) -/
def Snow.dry_snow_density (s : Snow) : Except Err NVal :=
  pdiv (s.rho - s.h2o_vol * RHO_W0) (1 - s.h2o_vol * RHO_W0 / RHO_ICE)

/-- snow_state.py:204–215 -/
def Snow.kts (s : Snow) : NVal := CAL_TO_J * 0.0077 * (s.rho / 1000) * (s.rho / 1000)

/-- snow_state.py:104–115: saturation vapour pressure at the surface layer's temperature -/
def Snow.e_s_0 (s : Snow) : Except Err NVal := sati s.t_s_0

/-- snow_state.py:126–137 -/
def Snow.e_s_l (s : Snow) : Except Err NVal := sati s.t_s_l

/-- snow_state.py:159–187 -/
def Snow.adjust_layer_temps (s : Snow) : Except Err Snow :=
  if s.layer_count = 1 then do
    let t ← new_tsno s.m_s_0 s.t_s_0 s.cc_s_0
    pure { s with t_s_0 := t, t_s := t }
  else if s.layer_count = 2 then
    if s.isothermal then
      pure { s with t_s := FREEZE, t_s_l := FREEZE, t_s_0 := FREEZE }
    else do
      let t0 ← new_tsno s.m_s_0 s.t_s_0 s.cc_s_0
      let tl ← new_tsno s.m_s_l s.t_s_l s.cc_s_l
      let t ← new_tsno s.m_s s.t_s s.cc_s
      pure { s with t_s_0 := t0, t_s_l := tl, t_s := t }
  else .ok s

/-- snow_state.py:217–226 -/
def Acc.value_to_bar (s : Snow) (_ : Acc) : Acc :=
  { bar := s.en, melt_sum := s.melt, E_s_sum := s.E_s, swi_sum := some s.swi }

/-- The loop in snow_state.py:236–241 over the eight energy terms. -/
def Energy.average (b v : Energy) (t dt : ℝ) : Except Err Energy := do
  let R_n ← time_average b.R_n t v.R_n dt
  let H ← time_average b.H t v.H dt
  let L_v_E ← time_average b.L_v_E t v.L_v_E dt
  let G ← time_average b.G t v.G dt
  let G_0 ← time_average b.G_0 t v.G_0 dt
  let M ← time_average b.M t v.M dt
  let delta_Q ← time_average b.delta_Q t v.delta_Q dt
  let delta_Q_0 ← time_average b.delta_Q_0 t v.delta_Q_0 dt
  pure { R_n, H, L_v_E, G, G_0, M, delta_Q, delta_Q_0 }

/-- snow_state.py:228–245 -/
def Acc.time_average (s : Snow) (a : Acc) (time_since_out time_step : ℝ) : Except Err Acc := do
  let bar ← Energy.average a.bar s.en time_since_out time_step
  match a.swi_sum with
  | none => throw .attribute
  | some x =>
    pure { bar, E_s_sum := a.E_s_sum + s.E_s, melt_sum := a.melt_sum + s.melt,
           swi_sum := some (x + s.swi) }

/-! ### `point/snobal.py` -/

/-- snobal.py:1226–1243 -/
def cold_content (temp mass : NVal) : NVal :=
  if temp <ₙ FREEZE then heat_stor (cp_ice temp) mass (temp - FREEZE) else 0

/-- snobal.py:804–877 -/
def adj_layers (c : Env) (s : Snow) : Snow :=
  let prev := s.layer_count
  let s := s.calc_layers c
  if s.layer_count = 0 then
    -- snobal.py:838–843
    let s := { s with rho := 0, h2o_total := if s.m_s >ₙ 0 then s.h2o_total + s.m_s else s.h2o_total }
    -- snobal.py:846–855
    let s := { s with h2o_vol := 0, h2o := 0, h2o_max := 0, h2o_sat := 0, m_s := 0, m_s_0 := 0,
                      cc_s_0 := 0, t_s := MIN_SNOW_TEMP + FREEZE, t_s_0 := MIN_SNOW_TEMP + FREEZE }
    -- snobal.py:857–860
    let s := if prev = 2 then
        { s with m_s_l := 0, cc_s_l := 0, t_s_l := MIN_SNOW_TEMP + FREEZE } else s
    -- snobal.py:862
    { s with snowcover := false }
  else
    let s := s.layer_mass
    if prev = 1 ∧ s.layer_count = 2 then
      -- snobal.py:867–871
      { s with t_s_l := s.t_s, cc_s_l := cold_content s.t_s s.m_s_l }
    else if prev = 2 ∧ s.layer_count = 1 then
      -- snobal.py:873–877
      { s with t_s_l := MIN_SNOW_TEMP + FREEZE, cc_s_l := 0 }
    else s

/-- snobal.py:643–683 -/
def adj_snow (c : Env) (delta_z_s delta_m_s : NVal) (s : Snow) : Snow :=
  let s := { s with z_s := s.z_s + delta_z_s, m_s := s.m_s + delta_m_s }
  let s := { s with rho := if ¬s.z_s =ₙ 0 then s.m_s / s.z_s else 0 }
  if s.rho >ₙ MAX_SNOW_DENSITY then
    adj_layers c { s with rho := MAX_SNOW_DENSITY, z_s := s.m_s / MAX_SNOW_DENSITY }
  else if ¬delta_z_s =ₙ 0 then adj_layers c s
  else s.layer_mass

/-- snobal.py:1155–1171: no layer, bare ground -/
def initBare (s : Snow) : Snow :=
  { s with h2o_total := if s.m_s >ₙ 0 then s.h2o_total + s.m_s else s.h2o_total,
           rho := 0, m_s := 0, m_s_0 := 0, cc_s_0 := 0, m_s_l := 0, cc_s_l := 0, h2o_vol := 0,
           h2o := 0, h2o_max := 0, h2o_sat := 0, t_s := MIN_SNOW_TEMP + FREEZE,
           t_s_0 := MIN_SNOW_TEMP + FREEZE, t_s_l := MIN_SNOW_TEMP + FREEZE }

/-- snobal.py:1173–1186: layer masses and cold contents -/
def initCold (s : Snow) : Snow :=
  { s with m_s_0 := s.rho * s.z_s_0, m_s_l := s.rho * s.z_s_l,
           cc_s_0 := cold_content s.t_s_0 (s.rho * s.z_s_0),
           t_s_l := if s.layer_count = 2 then s.t_s_l else MIN_SNOW_TEMP + FREEZE,
           cc_s_l := if s.layer_count = 2 then cold_content s.t_s_l (s.rho * s.z_s_l) else 0 }

/-- snobal.py:1188–1200: liquid water -/
def initWater (c : Env) (s : Snow) : Except Err Snow := do
  let s := { s with h2o_vol := s.h2o_sat * c.max_h2o_vol }
  let d ← s.dry_snow_density
  pure { s with h2o_max := h2o_left s.z_s d c.max_h2o_vol,
                h2o := s.h2o_sat * h2o_left s.z_s d c.max_h2o_vol }

/-- snobal.py:1152–1200: after the layers are known -/
def initLayers (c : Env) (s : Snow) : Except Err Snow :=
  if s.layer_count = 0 then .ok (initBare s) else initWater c (initCold s)

/-- snobal.py:1122–1200 -/
def init_snow (c : Env) (s : Snow) : Except Err Snow :=
  initLayers c (Snow.calc_layers c { s with m_s := s.rho * s.z_s })

/-- The compaction rate of `time_compact`, snobal.py:776–780. -/
def compactRate (dt : ℝ) (s : Snow) : Except Err NVal :=
  if s.m_s ≥ₙ SWE_MAX then .ok 1
  else pdiv (R1 * ncos (Real.pi * s.m_s / SWE_MAX) + R2) (dt / 3600)

/-- snobal.py:685–802 -/
def time_compact (c : Env) (dt : ℝ) (s : Snow) : Except Err Snow :=
  if s.snowcover = false ∨ s.rho ≥ₙ RHO_MAX then .ok s
  else do
    let rate ← compactRate dt s
    let K := if s.rho <ₙ 100 then 1 else nexp (-0.046 * (s.rho - 100))
    let d_rho_m ← pdiv (0.01 * K * nexp (-0.04 * (FREEZE - s.t_s))) rate
    let d_rho_c ← pdiv (0.026 * nexp (-0.08 * (FREEZE - s.t_s)) * s.m_s *
      nexp (-21 * (s.rho / RHO_W0))) rate
    let s := { s with rho := s.rho + (d_rho_m + d_rho_c) * s.rho }
    let z ← pdiv s.m_s s.rho
    pure (adj_layers c { s with z_s := z })

/-- snobal.py:598–640 -/
def precip_event (c : Env) (i : NInput) (s : Snow) : Except Err Snow :=
  if i.precip_now then do
    let s ←
      if s.snowcover then
        -- snobal.py:607–620
        let s := adj_snow c i.z_snow i.m_pp s
        let h2o_vol_snow := i.h2o_sat_snow * c.max_h2o_vol
        pure { s with h2o := s.h2o + h2o_left i.z_snow i.rho_snow h2o_vol_snow }
      else if i.m_snow >ₙ 0 then
        -- snobal.py:622–632
        init_snow c { s with z_s := i.z_snow, rho := i.rho_snow, t_s := i.t_snow, t_s_0 := i.t_snow,
                             t_s_l := i.t_snow, h2o_sat := i.h2o_sat_snow }
      else pure s
    -- snobal.py:635–636
    pure { s with h2o_total := s.h2o_total + (s.h2o + i.m_rain) }
  else
    -- snobal.py:640
    .ok { s with h2o_total := s.h2o_total + s.h2o }

/-- Energy available for melt in the surface layer, snobal.py:511–512. -/
def meltQ0 (dt : ℝ) (s : Snow) : NVal := s.en.delta_Q_0 * dt + s.cc_s_0

/-- Energy available for melt in the lower layer, snobal.py:525–539. -/
def meltQl (dt : ℝ) (s : Snow) : NVal :=
  if s.layer_count = 2 then (s.en.G - s.en.G_0) * dt + s.cc_s_l else 0

/-- Surface and lower layer melt, snobal.py:514–541. -/
def meltLayers (dt : ℝ) (s : Snow) : Snow :=
  let Q_0 := meltQ0 dt s
  let Q_l := meltQl dt s
  let s :=
    if Q_0 >ₙ 0 then { s with melt := melt Q_0, cc_s_0 := 0 }
    else if Q_0 =ₙ 0 then { s with melt := 0, cc_s_0 := 0 }
    else { s with melt := 0, cc_s_0 := Q_0 }
  let s :=
    if s.layer_count = 2 then
      if Q_l >ₙ 0 then { s with melt := s.melt + melt Q_l, cc_s_l := 0 }
      else if Q_l =ₙ 0 then { s with cc_s_l := 0 }
      else { s with cc_s_l := Q_l }
    else s
  { s with h2o_total := s.h2o_total + s.melt }

/-- Re-freezing in the surface layer, snobal.py:545–563; returns the refrozen mass as well. -/
def refreezeSurf (Q_0 : NVal) (s : Snow) : Except Err (Snow × NVal) :=
  if s.cc_s_0 <ₙ 0 ∧ s.h2o_total >ₙ 0 then do
    let f ← pdiv s.z_s_0 s.z_s
    let Q_freeze := s.h2o_total * f * lh_fus FREEZE
    let Q_left := Q_0 + Q_freeze
    if Q_left ≤ₙ 0 then pure ({ s with cc_s_0 := Q_left }, s.h2o_total * f)
    else pure ({ s with cc_s_0 := 0 }, s.h2o_total * f - melt Q_left)
  else .ok (s, 0)

/-- Re-freezing in the lower layer, snobal.py:566–584; adds to the refrozen mass. -/
def refreezeLower (Q_l : NVal) (s : Snow) (refrozen : NVal) : Except Err (Snow × NVal) :=
  if (s.layer_count = 2 ∧ s.cc_s_l <ₙ 0) ∧ s.h2o_total >ₙ 0 then do
    let f ← pdiv s.z_s_l s.z_s
    let Q_freeze := s.h2o_total * f * lh_fus FREEZE
    let Q_left := Q_l + Q_freeze
    if Q_left ≤ₙ 0 then pure ({ s with cc_s_l := Q_left }, refrozen + s.h2o_total * f)
    else pure ({ s with cc_s_l := 0 }, refrozen + (s.h2o_total * f - melt Q_left))
  else .ok (s, refrozen)

/-- snobal.py:586–592 -/
def refreezeSnap (s : Snow) (refrozen : NVal) : Snow :=
  if nabs (s.h2o_total - refrozen) ≤ₙ 1e-8 then { s with h2o_total := 0 }
  else { s with h2o_total := s.h2o_total - refrozen }

/-- snobal.py:490–596 -/
def snowmelt (c : Env) (dt : ℝ) (s : Snow) : Except Err Snow :=
  if s.snowcover = false then .ok { s with melt := 0 }
  else do
    let Q_0 := meltQ0 dt s
    let Q_l := meltQl dt s
    let s := meltLayers dt s
    let (s, r) ← refreezeSurf Q_0 s
    let (s, r) ← refreezeLower Q_l s r
    let s := refreezeSnap s r
    -- snobal.py:595–596
    if s.melt >ₙ 0 then do
      let q ← pdiv ((-1) * s.melt) s.rho
      pure (adj_snow c q 0 s)
    else pure s

/-- The rule of snobal.py:446–449 and 476–479: liquid water takes its share of evaporation or
condensation, floored at zero. -/
def evapH2o (h2o_total e : NVal) : NVal :=
  if h2o_total >ₙ 0 then
    let h := h2o_total + e * VAP_SUB
    if h ≤ₙ 0 then 0 else h
  else h2o_total

/-- Evaporation/condensation at the soil over the step (`E_s_l`), snobal.py:455–473. -/
def soilEvap (c : Env) (i : NInput) (dt : ℝ) (s : Snow) : Except Err NVal := do
  let e_s ← if s.layer_count = 2 then s.e_s_l else s.e_s_0
  let t_bar := if s.layer_count = 2 then (i.t_g + s.t_s_l) / 2 else (i.t_g + s.t_s_0) / 2
  let q_s_l ← spec_hum e_s c.P_a
  let e_g ← sati i.t_g
  let q_g ← spec_hum e_g c.P_a
  let rho_air ← gas_density c.P_a MOL_AIR t_bar
  let k ← diffusion_coef c.P_a t_bar
  let E_l ← vapor_flux rho_air k (q_g - q_s_l) c.z_g
  pure (E_l * dt)

/-- snobal.py:409–488 -/
def evap_cond (c : Env) (i : NInput) (dt : ℝ) (s : Snow) : Except Err Snow :=
  if s.snowcover = false then .ok { s with E_s := 0 }
  else do
    let E_s_0 := s.E * dt
    let prev_h2o_tot := s.h2o_total
    let s := { s with h2o_total := evapH2o s.h2o_total E_s_0 }
    let (s, E_s_l) ←
      if s.layer_count = 0 then pure (s, 0)
      else do
        let E_s_l ← soilEvap c i dt s
        pure ({ s with h2o_total := evapH2o s.h2o_total E_s_l }, E_s_l)
    let s := { s with E_s := E_s_0 + E_s_l }
    -- snobal.py:484–488
    if s.layer_count > 0 then do
      let q ← pdiv (s.E_s + prev_h2o_tot - s.h2o_total) s.rho
      pure (adj_snow c (q / 2) s.E_s s)
    else pure s

/-- Mass of liquid water added relative to the pack, snobal.py:394–399. -/
def h2oAdded (i : NInput) (s : Snow) : Except Err NVal :=
  if i.precip_now then pdiv (s.melt + i.m_rain) s.m_s else pdiv s.melt s.m_s

/-- snobal.py:349–406 -/
def h2o_compact (c : Env) (i : NInput) (s : Snow) : Except Err Snow :=
  if s.snowcover = false ∨ s.rho >ₙ 550 then .ok s
  else do
    let A := 550 - s.rho
    let h2o_added ← h2oAdded i s
    if h2o_added >ₙ 0.000001 then do
      let b ← pdiv 0.4 h2o_added
      let q ← pdiv A (1 + b)
      let s := { s with rho := s.rho + q }
      let z ← pdiv s.m_s s.rho
      pure (adj_layers c { s with z_s := z })
    else pure s

/-- snobal.py:311–347 -/
def runoff (c : Env) (s : Snow) : Except Err Snow :=
  if s.snowcover = false ∨ s.layer_count = 0 then .ok { s with swi := s.h2o_total }
  else do
    let m_s_dry := s.m_s - s.h2o_total
    let rho_dry ← pdiv m_s_dry s.z_s
    let s := { s with h2o_max := h2o_left s.z_s rho_dry c.max_h2o_vol }
    if s.h2o_total >ₙ s.h2o_max then
      let s := { s with swi := s.h2o_total - s.h2o_max, h2o := s.h2o_max, h2o_sat := 1,
                        h2o_vol := c.max_h2o_vol }
      pure (adj_snow c 0 (-s.swi) s)
    else do
      let s := { s with swi := 0, h2o := s.h2o_total }
      let sat ← pdiv s.h2o s.h2o_max
      pure { s with h2o_sat := sat, h2o_vol := sat * c.max_h2o_vol }

/-- snobal.py:282–309 -/
def mass_balance (c : Env) (i : NInput) (dt : ℝ) (s : Snow) : Except Err Snow := do
  let s ← time_compact c dt s
  let s ← precip_event c i s
  let s ← snowmelt c dt s
  let s ← evap_cond c i dt s
  let s ← h2o_compact c i s
  let s ← runoff c s
  if s.snowcover then s.adjust_layer_temps else pure s

/-! ### Energy balance -/

/-- snobal.py:922–929 -/
def net_radiation (i : NInput) (s : Snow) : NVal :=
  i.S_n + SNOW_EMISSIVITY * (i.I_lw - STEF_BOLTZ * s.t_s_0 ^ 4)

/-- snobal.py:943–963 -/
def advec (i : NInput) (dt : ℝ) (s : Snow) : Except Err NVal :=
  if i.precip_now then
    pdiv (heat_stor (cp_water i.t_rain) i.m_rain (i.t_rain - s.t_s_0) +
          heat_stor (cp_ice i.t_snow) i.m_snow (i.t_snow - s.t_s_0)) dt
  else .ok 0

/-- snobal.py:965–1007; `surface` is `layer == 'surface'`.  The warning is not modelled. -/
def g_soil (c : Env) (i : NInput) (surface : Bool) (s : Snow) : Except Err NVal := do
  let tsno := if surface then s.t_s_0 else s.t_s_l
  let ds := if surface then s.z_s_0 else s.z_s_l
  let es_layer ← if surface then s.e_s_0 else s.e_s_l
  let tsno : NVal := if tsno >ₙ FREEZE then FREEZE else tsno
  let e_g ← sati i.t_g
  let k_g ← efcon KT_MOISTSAND i.t_g c.P_a (some e_g)
  let k_s ← efcon s.kts tsno c.P_a (some es_layer)
  ssxfr k_s k_g tsno i.t_g ds c.z_g

/-- snobal.py:1009–1040 -/
def g_snow (c : Env) (s : Snow) : Except Err NVal :=
  if s.t_s_0 =ₙ s.t_s_l then .ok 0
  else do
    let e0 ← s.e_s_0
    let k_s1 ← efcon s.kts s.t_s_0 c.P_a (some e0)
    let el ← s.e_s_l
    let k_s2 ← efcon s.kts s.t_s_l c.P_a (some el)
    ssxfr k_s1 k_s2 s.t_s_0 s.t_s_l s.z_s_0 s.z_s_l

/-- snobal.py:931–941; returns `(G, G_0)` -/
def heat_transfer (c : Env) (i : NInput) (s : Snow) : Except Err (NVal × NVal) :=
  if s.layer_count = 1 then do
    let g ← g_soil c i true s
    pure (g, g)
  else do
    let g ← g_soil c i false s
    let g0 ← g_snow c s
    pure (g, g0)

/-- The part of a `Snobal` object that the physics of a run step reads and writes:
`snow_state`, `input1` and `_hle1_init` (snobal.py:67–70). -/
structure Phys where
  snow : Snow
  input1 : NInput
  init_ustar : Option NVal
  init_factor : Option NVal

/-- snobal.py:1043–1098; returns the fluxes together with the updated forcing and first guesses. -/
def h_le (c : Env) (p : Phys) : Except Err (HleOut × Phys) := do
  let sat_vp ← sati p.input1.t_a
  let i := if p.input1.e_a >ₙ sat_vp then { p.input1 with e_a := sat_vp } else p.input1
  let rel_z_T : NVal := if c.relative_hts then c.z_t else c.z_t - p.snow.z_s
  let rel_z_u : NVal := if c.relative_hts then c.z_u else c.z_u - p.snow.z_s
  let es ← p.snow.e_s_0
  let r ← hle1 { press := c.P_a, air_temp := i.t_a, surface_temp := p.snow.t_s_0, za := rel_z_T,
                 ea := i.e_a, es := es, zq := rel_z_T, wind_speed := i.u, zu := rel_z_u,
                 z0 := c.z_0, init_ustar := p.init_ustar, init_factor := p.init_factor }
  if r.status ≠ 0 then throw .noConverge
  pure (r, { p with input1 := i, init_ustar := some r.ustar, init_factor := some r.factor })

/-- snobal.py:880–920 -/
def energy_balance (c : Env) (dt : ℝ) (p : Phys) : Except Err Phys :=
  if p.snow.layer_count > 0 then do
    let R_n := net_radiation p.input1 p.snow
    let (r, p) ← h_le c p
    let (G, G_0) ← heat_transfer c p.input1 p.snow
    let M ← advec p.input1 dt p.snow
    let delta_Q_0 := R_n + r.h + r.le + G_0 + M
    pure { p with snow := { p.snow with
            E := r.e
            en := { R_n, H := r.h, L_v_E := r.le, G, G_0, M, delta_Q_0,
                    delta_Q := delta_Q_0 + G - G_0 } } }
  else .ok { p with snow := { p.snow with E := 0, en := Energy.zero } }

/-- snobal.py:235–252: the physics of `do_tstep`.  `dl` is `self.input_deltas[level]`. -/
def stepPhys (c : Env) (dt : ℝ) (dl : NInput) (p : Phys) : Except Err Phys := do
  let p := if p.input1.precip_now then { p with input1 := p.input1.update_precip_deltas dl } else p
  let p := { p with snow := { p.snow with h2o_total := 0 } }
  let p := { p with snow := { p.snow with snowcover := decide (p.snow.layer_count > 0) } }
  let p ← energy_balance c dt p
  let s ← mass_balance c p.input1 dt p.snow
  pure { p with snow := s }

/-- snobal.py:1100–1120 -/
def below_thold (threshold : ℝ) (s : Snow) : Bool :=
  if s.layer_count = 0 then false
  else if s.layer_count = 1 then decide (s.m_s <ₙ threshold)
  else decide (s.m_s_0 <ₙ threshold) || decide (s.m_s_l <ₙ threshold)

end Nan

end

end Pysnobal
