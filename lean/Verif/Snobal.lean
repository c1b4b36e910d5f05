import Verif.SnowState

/-! # `pysnobal/point/snobal.py`: the physics of one run step

Every function takes the environment `c`, the current forcing `i` (`self.input1`), the step length `dt`
(`self.time_step`) where needed, and the snow state; methods that assign attributes return the new state. -/

namespace Pysnobal

noncomputable section

/-- snobal.py:1226–1243 -/
def cold_content (temp mass : ℝ) : ℝ :=
  if temp < FREEZE then heat_stor (cp_ice temp) mass (temp - FREEZE) else 0

/-- snobal.py:804–877 -/
def adj_layers (c : Env) (s : Snow) : Snow :=
  let prev := s.layer_count
  let s := s.calc_layers c
  if s.layer_count = 0 then
    -- snobal.py:838–843
    let s := { s with rho := 0, h2o_total := if s.m_s > 0 then s.h2o_total + s.m_s else s.h2o_total }
    -- snobal.py:846–855
    let s := { s with h2o_vol := 0, h2o := 0, h2o_max := 0, h2o_sat := 0, m_s := 0, m_s_0 := 0,
                      cc_s_0 := 0, t_s := MIN_SNOW_TEMP + FREEZE, t_s_0 := MIN_SNOW_TEMP + FREEZE }
    -- snobal.py:857–860
    let s := if prev = 2 then
        { s with m_s_l := 0, cc_s_l := 0, t_s_l := MIN_SNOW_TEMP + FREEZE } else s
    -- snobal.py:862
    { s with snowcover := false }
  else
    let s := s.layer_mass
    if prev = 1 ∧ s.layer_count = 2 then
      -- snobal.py:867–871
      { s with t_s_l := s.t_s, cc_s_l := cold_content s.t_s s.m_s_l }
    else if prev = 2 ∧ s.layer_count = 1 then
      -- snobal.py:873–877
      { s with t_s_l := MIN_SNOW_TEMP + FREEZE, cc_s_l := 0 }
    else s

/-- snobal.py:643–683 -/
def adj_snow (c : Env) (delta_z_s delta_m_s : ℝ) (s : Snow) : Snow :=
  let s := { s with z_s := s.z_s + delta_z_s, m_s := s.m_s + delta_m_s }
  let s := { s with rho := if s.z_s ≠ 0 then s.m_s / s.z_s else 0 }
  if s.rho > MAX_SNOW_DENSITY then
    adj_layers c { s with rho := MAX_SNOW_DENSITY, z_s := s.m_s / MAX_SNOW_DENSITY }
  else if delta_z_s ≠ 0 then adj_layers c s
  else s.layer_mass

/-- snobal.py:1155–1171: no layer, bare ground -/
def initBare (s : Snow) : Snow :=
  { s with h2o_total := if s.m_s > 0 then s.h2o_total + s.m_s else s.h2o_total,
           rho := 0, m_s := 0, m_s_0 := 0, cc_s_0 := 0, m_s_l := 0, cc_s_l := 0, h2o_vol := 0,
           h2o := 0, h2o_max := 0, h2o_sat := 0, t_s := MIN_SNOW_TEMP + FREEZE,
           t_s_0 := MIN_SNOW_TEMP + FREEZE, t_s_l := MIN_SNOW_TEMP + FREEZE }

/-- snobal.py:1173–1186: layer masses and cold contents -/
def initCold (s : Snow) : Snow :=
  { s with m_s_0 := s.rho * s.z_s_0, m_s_l := s.rho * s.z_s_l,
           cc_s_0 := cold_content s.t_s_0 (s.rho * s.z_s_0),
           t_s_l := if s.layer_count = 2 then s.t_s_l else MIN_SNOW_TEMP + FREEZE,
           cc_s_l := if s.layer_count = 2 then cold_content s.t_s_l (s.rho * s.z_s_l) else 0 }

/-- snobal.py:1188–1200: liquid water -/
def initWater (c : Env) (s : Snow) : Except Err Snow := do
  let s := { s with h2o_vol := s.h2o_sat * c.max_h2o_vol }
  let d ← s.dry_snow_density
  pure { s with h2o_max := h2o_left s.z_s d c.max_h2o_vol,
                h2o := s.h2o_sat * h2o_left s.z_s d c.max_h2o_vol }

/-- snobal.py:1152–1200: after the layers are known -/
def initLayers (c : Env) (s : Snow) : Except Err Snow :=
  if s.layer_count = 0 then .ok (initBare s) else initWater c (initCold s)

/-- snobal.py:1122–1200 -/
def init_snow (c : Env) (s : Snow) : Except Err Snow :=
  initLayers c (Snow.calc_layers c { s with m_s := s.rho * s.z_s })

/-- The compaction rate of `time_compact`, snobal.py:776–780. -/
def compactRate (dt : ℝ) (s : Snow) : Except Err ℝ :=
  if s.m_s ≥ SWE_MAX then .ok 1
  else pdiv (R1 * Real.cos (Real.pi * s.m_s / SWE_MAX) + R2) (dt / 3600)

/-- snobal.py:685–802 -/
def time_compact (c : Env) (dt : ℝ) (s : Snow) : Except Err Snow :=
  if s.snowcover = false ∨ s.rho ≥ RHO_MAX then .ok s
  else do
    let rate ← compactRate dt s
    let K := if s.rho < 100 then 1 else Real.exp (-0.046 * (s.rho - 100))
    let d_rho_m ← pdiv (0.01 * K * Real.exp (-0.04 * (FREEZE - s.t_s))) rate
    let d_rho_c ← pdiv (0.026 * Real.exp (-0.08 * (FREEZE - s.t_s)) * s.m_s *
      Real.exp (-21 * (s.rho / RHO_W0))) rate
    let s := { s with rho := s.rho + (d_rho_m + d_rho_c) * s.rho }
    let z ← pdiv s.m_s s.rho
    pure (adj_layers c { s with z_s := z })

/-- snobal.py:598–640 -/
def precip_event (c : Env) (i : InputData) (s : Snow) : Except Err Snow :=
  if i.precip_now then do
    let s ←
      if s.snowcover then
        -- snobal.py:607–620
        let s := adj_snow c i.z_snow i.m_pp s
        let h2o_vol_snow := i.h2o_sat_snow * c.max_h2o_vol
        pure { s with h2o := s.h2o + h2o_left i.z_snow i.rho_snow h2o_vol_snow }
      else if i.m_snow > 0 then
        -- snobal.py:622–632
        init_snow c { s with z_s := i.z_snow, rho := i.rho_snow, t_s := i.t_snow, t_s_0 := i.t_snow,
                             t_s_l := i.t_snow, h2o_sat := i.h2o_sat_snow }
      else pure s
    -- snobal.py:635–636
    pure { s with h2o_total := s.h2o_total + (s.h2o + i.m_rain) }
  else
    -- snobal.py:640
    .ok { s with h2o_total := s.h2o_total + s.h2o }

/-- Energy available for melt in the surface layer, snobal.py:511–512. -/
def meltQ0 (dt : ℝ) (s : Snow) : ℝ := s.en.delta_Q_0 * dt + s.cc_s_0

/-- Energy available for melt in the lower layer, snobal.py:525–539. -/
def meltQl (dt : ℝ) (s : Snow) : ℝ :=
  if s.layer_count = 2 then (s.en.G - s.en.G_0) * dt + s.cc_s_l else 0

/-- Surface and lower layer melt, snobal.py:514–541. -/
def meltLayers (dt : ℝ) (s : Snow) : Snow :=
  let Q_0 := meltQ0 dt s
  let Q_l := meltQl dt s
  let s :=
    if Q_0 > 0 then { s with melt := melt Q_0, cc_s_0 := 0 }
    else if Q_0 = 0 then { s with melt := 0, cc_s_0 := 0 }
    else { s with melt := 0, cc_s_0 := Q_0 }
  let s :=
    if s.layer_count = 2 then
      if Q_l > 0 then { s with melt := s.melt + melt Q_l, cc_s_l := 0 }
      else if Q_l = 0 then { s with cc_s_l := 0 }
      else { s with cc_s_l := Q_l }
    else s
  { s with h2o_total := s.h2o_total + s.melt }

/-- Re-freezing in the surface layer, snobal.py:545–563; returns the refrozen mass as well. -/
def refreezeSurf (Q_0 : ℝ) (s : Snow) : Except Err (Snow × ℝ) :=
  if s.cc_s_0 < 0 ∧ s.h2o_total > 0 then do
    let f ← pdiv s.z_s_0 s.z_s
    let Q_freeze := s.h2o_total * f * lh_fus FREEZE
    let Q_left := Q_0 + Q_freeze
    if Q_left ≤ 0 then pure ({ s with cc_s_0 := Q_left }, s.h2o_total * f)
    else pure ({ s with cc_s_0 := 0 }, s.h2o_total * f - melt Q_left)
  else .ok (s, 0)

/-- Re-freezing in the lower layer, snobal.py:566–584; adds to the refrozen mass. -/
def refreezeLower (Q_l : ℝ) (s : Snow) (refrozen : ℝ) : Except Err (Snow × ℝ) :=
  if (s.layer_count = 2 ∧ s.cc_s_l < 0) ∧ s.h2o_total > 0 then do
    let f ← pdiv s.z_s_l s.z_s
    let Q_freeze := s.h2o_total * f * lh_fus FREEZE
    let Q_left := Q_l + Q_freeze
    if Q_left ≤ 0 then pure ({ s with cc_s_l := Q_left }, refrozen + s.h2o_total * f)
    else pure ({ s with cc_s_l := 0 }, refrozen + (s.h2o_total * f - melt Q_left))
  else .ok (s, refrozen)

/-- snobal.py:586–592 -/
def refreezeSnap (s : Snow) (refrozen : ℝ) : Snow :=
  if |s.h2o_total - refrozen| ≤ 1e-8 then { s with h2o_total := 0 }
  else { s with h2o_total := s.h2o_total - refrozen }

/-- snobal.py:490–596 -/
def snowmelt (c : Env) (dt : ℝ) (s : Snow) : Except Err Snow :=
  if s.snowcover = false then .ok { s with melt := 0 }
  else do
    let Q_0 := meltQ0 dt s
    let Q_l := meltQl dt s
    let s := meltLayers dt s
    let (s, r) ← refreezeSurf Q_0 s
    let (s, r) ← refreezeLower Q_l s r
    let s := refreezeSnap s r
    -- snobal.py:595–596
    if s.melt > 0 then do
      let q ← pdiv ((-1) * s.melt) s.rho
      pure (adj_snow c q 0 s)
    else pure s

/-- The rule of snobal.py:446–449 and 476–479: liquid water takes its share of evaporation or
condensation, floored at zero. -/
def evapH2o (h2o_total e : ℝ) : ℝ :=
  if h2o_total > 0 then
    let h := h2o_total + e * VAP_SUB
    if h ≤ 0 then 0 else h
  else h2o_total

/-- Evaporation/condensation at the soil over the step (`E_s_l`), snobal.py:455–473. -/
def soilEvap (c : Env) (i : InputData) (dt : ℝ) (s : Snow) : Except Err ℝ := do
  let e_s ← if s.layer_count = 2 then s.e_s_l else s.e_s_0
  let t_bar := if s.layer_count = 2 then (i.t_g + s.t_s_l) / 2 else (i.t_g + s.t_s_0) / 2
  let q_s_l ← spec_hum e_s c.P_a
  let e_g ← i.e_g
  let q_g ← spec_hum e_g c.P_a
  let rho_air ← gas_density c.P_a MOL_AIR t_bar
  let k ← diffusion_coef c.P_a t_bar
  let E_l ← vapor_flux rho_air k (q_g - q_s_l) c.z_g
  pure (E_l * dt)

/-- snobal.py:409–488 -/
def evap_cond (c : Env) (i : InputData) (dt : ℝ) (s : Snow) : Except Err Snow :=
  if s.snowcover = false then .ok { s with E_s := 0 }
  else do
    let E_s_0 := s.E * dt
    let prev_h2o_tot := s.h2o_total
    let s := { s with h2o_total := evapH2o s.h2o_total E_s_0 }
    let (s, E_s_l) ←
      if s.layer_count = 0 then pure (s, 0)
      else do
        let E_s_l ← soilEvap c i dt s
        pure ({ s with h2o_total := evapH2o s.h2o_total E_s_l }, E_s_l)
    let s := { s with E_s := E_s_0 + E_s_l }
    -- snobal.py:484–488
    if s.layer_count > 0 then do
      let q ← pdiv (s.E_s + prev_h2o_tot - s.h2o_total) s.rho
      pure (adj_snow c (q / 2) s.E_s s)
    else pure s

/-- Mass of liquid water added relative to the pack, snobal.py:394–399. -/
def h2oAdded (i : InputData) (s : Snow) : Except Err ℝ :=
  if i.precip_now then pdiv (s.melt + i.m_rain) s.m_s else pdiv s.melt s.m_s

/-- snobal.py:349–406 -/
def h2o_compact (c : Env) (i : InputData) (s : Snow) : Except Err Snow :=
  if s.snowcover = false ∨ s.rho > 550 then .ok s
  else do
    let A := 550 - s.rho
    let h2o_added ← h2oAdded i s
    if h2o_added > 0.000001 then do
      let b ← pdiv 0.4 h2o_added
      let q ← pdiv A (1 + b)
      let s := { s with rho := s.rho + q }
      let z ← pdiv s.m_s s.rho
      pure (adj_layers c { s with z_s := z })
    else pure s

/-- snobal.py:311–347 -/
def runoff (c : Env) (s : Snow) : Except Err Snow :=
  if s.snowcover = false ∨ s.layer_count = 0 then .ok { s with swi := s.h2o_total }
  else do
    let m_s_dry := s.m_s - s.h2o_total
    let rho_dry ← pdiv m_s_dry s.z_s
    let s := { s with h2o_max := h2o_left s.z_s rho_dry c.max_h2o_vol }
    if s.h2o_total > s.h2o_max then
      let s := { s with swi := s.h2o_total - s.h2o_max, h2o := s.h2o_max, h2o_sat := 1,
                        h2o_vol := c.max_h2o_vol }
      pure (adj_snow c 0 (-s.swi) s)
    else do
      let s := { s with swi := 0, h2o := s.h2o_total }
      let sat ← pdiv s.h2o s.h2o_max
      pure { s with h2o_sat := sat, h2o_vol := sat * c.max_h2o_vol }

/-- snobal.py:282–309 -/
def mass_balance (c : Env) (i : InputData) (dt : ℝ) (s : Snow) : Except Err Snow := do
  let s ← time_compact c dt s
  let s ← precip_event c i s
  let s ← snowmelt c dt s
  let s ← evap_cond c i dt s
  let s ← h2o_compact c i s
  let s ← runoff c s
  if s.snowcover then s.adjust_layer_temps else pure s

/-! ### Energy balance -/

/-- snobal.py:922–929 -/
def net_radiation (i : InputData) (s : Snow) : ℝ :=
  i.S_n + SNOW_EMISSIVITY * (i.I_lw - STEF_BOLTZ * s.t_s_0 ^ 4)

/-- snobal.py:943–963 -/
def advec (i : InputData) (dt : ℝ) (s : Snow) : Except Err ℝ :=
  if i.precip_now then
    pdiv (heat_stor (cp_water i.t_rain) i.m_rain (i.t_rain - s.t_s_0) +
          heat_stor (cp_ice i.t_snow) i.m_snow (i.t_snow - s.t_s_0)) dt
  else .ok 0

/-- snobal.py:965–1007; `surface` is `layer == 'surface'`.  The warning is not modelled. -/
def g_soil (c : Env) (i : InputData) (surface : Bool) (s : Snow) : Except Err ℝ := do
  let tsno := if surface then s.t_s_0 else s.t_s_l
  let ds := if surface then s.z_s_0 else s.z_s_l
  let es_layer ← if surface then s.e_s_0 else s.e_s_l
  let tsno := if tsno > FREEZE then FREEZE else tsno
  let e_g ← i.e_g
  let k_g ← efcon KT_MOISTSAND i.t_g c.P_a (some e_g)
  let k_s ← efcon s.kts tsno c.P_a (some es_layer)
  ssxfr k_s k_g tsno i.t_g ds c.z_g

/-- snobal.py:1009–1040 -/
def g_snow (c : Env) (s : Snow) : Except Err ℝ :=
  if s.t_s_0 = s.t_s_l then .ok 0
  else do
    let e0 ← s.e_s_0
    let k_s1 ← efcon s.kts s.t_s_0 c.P_a (some e0)
    let el ← s.e_s_l
    let k_s2 ← efcon s.kts s.t_s_l c.P_a (some el)
    ssxfr k_s1 k_s2 s.t_s_0 s.t_s_l s.z_s_0 s.z_s_l

/-- snobal.py:931–941; returns `(G, G_0)` -/
def heat_transfer (c : Env) (i : InputData) (s : Snow) : Except Err (ℝ × ℝ) :=
  if s.layer_count = 1 then do
    let g ← g_soil c i true s
    pure (g, g)
  else do
    let g ← g_soil c i false s
    let g0 ← g_snow c s
    pure (g, g0)

/-- The part of a `Snobal` object that the physics of a run step reads and writes:
`snow_state`, `input1` and `_hle1_init` (snobal.py:67–70). -/
structure Phys where
  snow : Snow
  input1 : InputData
  init_ustar : Option ℝ
  init_factor : Option ℝ

/-- snobal.py:1043–1098; returns the fluxes together with the updated forcing and first guesses. -/
def h_le (c : Env) (p : Phys) : Except Err (HleOut × Phys) := do
  let sat_vp ← p.input1.sat_vp
  let i := if p.input1.e_a > sat_vp then { p.input1 with e_a := sat_vp } else p.input1
  let rel_z_T := if c.relative_hts then c.z_t else c.z_t - p.snow.z_s
  let rel_z_u := if c.relative_hts then c.z_u else c.z_u - p.snow.z_s
  let es ← p.snow.e_s_0
  let r ← hle1 { press := c.P_a, air_temp := i.t_a, surface_temp := p.snow.t_s_0, za := rel_z_T,
                 ea := i.e_a, es := es, zq := rel_z_T, wind_speed := i.u, zu := rel_z_u,
                 z0 := c.z_0, init_ustar := p.init_ustar, init_factor := p.init_factor }
  if r.status ≠ 0 then throw .noConverge
  pure (r, { p with input1 := i, init_ustar := some r.ustar, init_factor := some r.factor })

/-- snobal.py:880–920 -/
def energy_balance (c : Env) (dt : ℝ) (p : Phys) : Except Err Phys :=
  if p.snow.layer_count > 0 then do
    let R_n := net_radiation p.input1 p.snow
    let (r, p) ← h_le c p
    let (G, G_0) ← heat_transfer c p.input1 p.snow
    let M ← advec p.input1 dt p.snow
    let delta_Q_0 := R_n + r.h + r.le + G_0 + M
    pure { p with snow := { p.snow with
            E := r.e
            en := { R_n, H := r.h, L_v_E := r.le, G, G_0, M, delta_Q_0,
                    delta_Q := delta_Q_0 + G - G_0 } } }
  else .ok { p with snow := { p.snow with E := 0, en := Energy.zero } }

/-- snobal.py:235–252: the physics of `do_tstep`.  `dl` is `self.input_deltas[level]`. -/
def stepPhys (c : Env) (dt : ℝ) (dl : InputData) (p : Phys) : Except Err Phys := do
  let p := if p.input1.precip_now then { p with input1 := p.input1.update_precip_deltas dl } else p
  let p := { p with snow := { p.snow with h2o_total := 0 } }
  let p := { p with snow := { p.snow with snowcover := decide (p.snow.layer_count > 0) } }
  let p ← energy_balance c dt p
  let s ← mass_balance c p.input1 dt p.snow
  pure { p with snow := s }

/-- snobal.py:1100–1120 -/
def below_thold (threshold : ℝ) (s : Snow) : Bool :=
  if s.layer_count = 0 then false
  else if s.layer_count = 1 then decide (s.m_s < threshold)
  else decide (s.m_s_0 < threshold) || decide (s.m_s_l < threshold)

end

end Pysnobal
