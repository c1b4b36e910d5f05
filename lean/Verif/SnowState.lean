import Verif.Input

/-! # `pysnobal/point/snow_state.py` -/

namespace Pysnobal

noncomputable section

/-- The eight time-averaged energy terms, snow_state.py:10–19.  The same structure holds the current
values and the `_bar` averages. -/
structure Energy where
  R_n : ℝ
  H : ℝ
  L_v_E : ℝ
  G : ℝ
  G_0 : ℝ
  M : ℝ
  delta_Q : ℝ
  delta_Q_0 : ℝ

/-- snow_state.py:51–52: every term is initialised to 0. -/
def Energy.zero : Energy := ⟨0, 0, 0, 0, 0, 0, 0, 0⟩

/-- The state variables of `SnowState` that the physics reads and writes (snow_state.py:27–68), plus
`snowcover`, which is the attribute `Snobal.snowcover` (snobal.py:246, 862).  The averages and sums
since the last output are in `Acc`; constants (`max_z_s_0`, `small_threshold`, `max_h2o_vol`, `z_0`)
are in `Env`.  `layer_count` and `cc_s` are computed. -/
structure Snow where
  h2o_sat : ℝ
  rho : ℝ
  t_s : ℝ
  t_s_0 : ℝ
  t_s_l : ℝ
  z_s : ℝ
  z_s_0 : ℝ
  z_s_l : ℝ
  cc_s_0 : ℝ
  cc_s_l : ℝ
  m_s : ℝ
  m_s_0 : ℝ
  m_s_l : ℝ
  h2o : ℝ
  h2o_max : ℝ
  h2o_total : ℝ
  h2o_vol : ℝ
  en : Energy
  melt : ℝ
  E : ℝ
  E_s : ℝ
  swi : ℝ
  snowcover : Bool

/-- `*_bar` averages and `*_sum` totals since the last output (snow_state.py:54–55, 70–72, 217–245).
`swi_sum` does not exist before the first `value_to_bar` (snow_state.py:71–72 forgets it). -/
structure Acc where
  bar : Energy
  melt_sum : ℝ
  E_s_sum : ℝ
  swi_sum : Option ℝ

/-- Parameters that are set once in `Snobal.__init__` and never assigned again
(snobal.py:46–61, 1212–1223; snow_state.py:24–25, 74). -/
structure Env where
  P_a : ℝ
  z_u : ℝ
  z_t : ℝ
  z_g : ℝ
  relative_hts : Bool
  max_z_s_0 : ℝ
  small_threshold : ℝ
  max_h2o_vol : ℝ
  z_0 : ℝ

/-- snow_state.py:151–157 (without the cache, see `Cache.lean`) -/
def Snow.layer_count (s : Snow) : ℕ :=
  (if s.z_s_0 > 0 then 1 else 0) + (if s.z_s_l > 0 then 1 else 0)

/-- snow_state.py:147–149 -/
def Snow.cc_s (s : Snow) : ℝ := s.cc_s_0 + s.cc_s_l

/-- snow_state.py:139–141 -/
def Snow.isothermal (s : Snow) : Prop := s.cc_s = 0

instance (s : Snow) : Decidable s.isothermal := inferInstanceAs (Decidable (s.cc_s = 0))

/-- snow_state.py:247–255 -/
def Snow.layer_mass (s : Snow) : Snow :=
  { s with m_s_0 := s.rho * s.z_s_0, m_s_l := s.rho * s.z_s_l }

/-- snow_state.py:257–291 -/
def Snow.calc_layers (c : Env) (s : Snow) : Snow :=
  if s.m_s ≤ c.small_threshold then
    { s with z_s := 0 + 0, z_s_0 := 0, z_s_l := 0 }
  else
    let zl := s.z_s - c.max_z_s_0
    let z0 := if zl > 0 then c.max_z_s_0 else s.z_s
    let zl := if zl > 0 then zl else 0
    let z0' := if zl * s.rho < c.small_threshold then s.z_s else z0
    let zl' := if zl * s.rho < c.small_threshold then 0 else zl
    { s with z_s := z0' + zl', z_s_0 := z0', z_s_l := zl' }

/-- snow_state.py:189–202 (for the given `h2o_vol`) -/
def Snow.dry_snow_density (s : Snow) : Except Err ℝ :=
  pdiv (s.rho - s.h2o_vol * RHO_W0) (1 - s.h2o_vol * RHO_W0 / RHO_ICE)

/-- snow_state.py:204–215 -/
def Snow.kts (s : Snow) : ℝ := CAL_TO_J * 0.0077 * (s.rho / 1000) * (s.rho / 1000)

/-- snow_state.py:104–115: saturation vapour pressure at the surface layer's temperature -/
def Snow.e_s_0 (s : Snow) : Except Err ℝ := sati s.t_s_0

/-- snow_state.py:126–137 -/
def Snow.e_s_l (s : Snow) : Except Err ℝ := sati s.t_s_l

/-- snow_state.py:159–187 -/
def Snow.adjust_layer_temps (s : Snow) : Except Err Snow :=
  if s.layer_count = 1 then do
    let t ← new_tsno s.m_s_0 s.t_s_0 s.cc_s_0
    pure { s with t_s_0 := t, t_s := t }
  else if s.layer_count = 2 then
    if s.isothermal then
      pure { s with t_s := FREEZE, t_s_l := FREEZE, t_s_0 := FREEZE }
    else do
      let t0 ← new_tsno s.m_s_0 s.t_s_0 s.cc_s_0
      let tl ← new_tsno s.m_s_l s.t_s_l s.cc_s_l
      let t ← new_tsno s.m_s s.t_s s.cc_s
      pure { s with t_s_0 := t0, t_s_l := tl, t_s := t }
  else .ok s

/-- snow_state.py:217–226 -/
def Acc.value_to_bar (s : Snow) (_ : Acc) : Acc :=
  { bar := s.en, melt_sum := s.melt, E_s_sum := s.E_s, swi_sum := some s.swi }

/-- The loop in snow_state.py:236–241 over the eight energy terms. -/
def Energy.average (b v : Energy) (t dt : ℝ) : Except Err Energy := do
  let R_n ← time_average b.R_n t v.R_n dt
  let H ← time_average b.H t v.H dt
  let L_v_E ← time_average b.L_v_E t v.L_v_E dt
  let G ← time_average b.G t v.G dt
  let G_0 ← time_average b.G_0 t v.G_0 dt
  let M ← time_average b.M t v.M dt
  let delta_Q ← time_average b.delta_Q t v.delta_Q dt
  let delta_Q_0 ← time_average b.delta_Q_0 t v.delta_Q_0 dt
  pure { R_n, H, L_v_E, G, G_0, M, delta_Q, delta_Q_0 }

/-- snow_state.py:228–245 -/
def Acc.time_average (s : Snow) (a : Acc) (time_since_out time_step : ℝ) : Except Err Acc := do
  let bar ← Energy.average a.bar s.en time_since_out time_step
  match a.swi_sum with
  | none => throw .attribute
  | some x =>
    pure { bar, E_s_sum := a.E_s_sum + s.E_s, melt_sum := a.melt_sum + s.melt,
           swi_sum := some (x + s.swi) }

end

end Pysnobal
