import Verif.Lemmas.Witness
import Verif.Props.Clock
import Verif.Props.Water

/-! # Concrete runs in calm weather, of any length -/

namespace Pysnobal

noncomputable section

/-- A data step from a state that is not below the normal threshold, with its trace. -/
theorem executed_normal {c : Env} {ts : Tsteps} (ht : TileOK ts) {all : Bool} {r1 : Rec}
    {i1 i2 : InputData} (n1 : InputData.new r1 = .ok i1) {m : Model} (h0 : m.acc.time_since_out = 0)
    (hb : below_thold (ts .normal).threshold m.phys.snow = false) {p' : Phys}
    (hp : stepPhys c (ts .normal).time_step (deltaRec i1 i2 1).toInput { m.phys with input1 := i1 } = .ok p') :
    ∃ m1, do_data_tstep c ts all i1 i2 m = .ok m1 ∧
      Executed c ts all i1 i2 m [⟨.normal, { m.phys with input1 := i1 }, p'⟩] m1 ∧
      m1.acc.time_since_out = 0 ∧
      m1.phys = { p' with input1 := p'.input1.add_deltas (deltaRec i1 i2 1).toInput } ∧
      m1.output_list = m.output_list ++ [recordOf p'.snow (m.current_datetime + (ts .normal).timedelta)] := by
  have hd := do_data_normal (all := all) ht n1 h0 hb hp
  refine ⟨_, hd, ?_, rfl, rfl, rfl⟩
  obtain ⟨l, hex⟩ := do_data_executed hd
  obtain ⟨dl, e1, ex⟩ := hex
  have hdl : dl .normal = (deltaRec i1 i2 1).toInput := by
    rw [inputDeltas_total ht n1 i2] at e1
    have := Except.ok.inj e1
    rw [← this]
    simp only [ht.ipt_normal, Int.cast_one]
  have hp' : (snobalSim c ts all dl).phys .normal { m.phys with input1 := i1 } = .ok p' := by
    show stepPhys c (ts .normal).time_step (dl .normal) _ = _
    rw [hdl]; exact hp
  have hb' : (snobalSim c ts all dl).below .normal { m.phys with input1 := i1 } = false := hb
  have hn : ((ts .normal).intervals).toNat = 1 := by rw [ht.n_normal]; rfl
  have hd' := hd
  unfold do_data_tstep at hd'
  rw [e1, bind_ok] at hd'
  exact ⟨dl, e1, Sim.Executes.one hn hb' hd' hp'⟩

/-- Default time steps and thresholds with a ripe initial pack. -/
def calmCfg (thr vol z rho sat : ℝ) : Config :=
  { defaultSteps with norm_threshold := thr, max_h2o := vol, init_z_s := z, init_rho := rho
                      init_t_s_0 := FREEZE, init_t_s := FREEZE, init_h2o_sat := sat }

theorem calmCfg_tiled (thr vol z rho sat : ℝ) : (calmCfg thr vol z rho sat).Tiled := defaultSteps_tiled

theorem calmCfg_env (thr vol z rho sat : ℝ) : mkEnv (calmCfg thr vol z rho sat) = .ok (calmEnv vol) := by
  unfold mkEnv hysat
  rw [if_neg (by norm_num [STD_LAPSE])]
  simp only [calmCfg, defaultSteps, zero_div, mul_zero, add_zero]
  rw [pdiv_of_ne (by norm_num [STD_AIRTMP]), bind_ok, pdiv_of_ne (by norm_num [RGAS, STD_LAPSE]), bind_ok]
  have : STD_AIRTMP / STD_AIRTMP = 1 := div_self (by norm_num [STD_AIRTMP])
  rw [this, if_neg (by norm_num)]
  simp [calmEnv]

/-- A record of calm weather at the freezing point with long-wave balance zero. -/
def calmRec (S_n m_pp ps rho_snow : ℝ) : Rec :=
  { S_n := S_n, I_lw := STEF_BOLTZ * FREEZE ^ 4, t_a := FREEZE, e_a := 20, u := 0, t_g := FREEZE
    m_pp := m_pp, percent_snow := ps, rho_snow := rho_snow, t_pp := FREEZE }

theorem calmRec_calm (S m ps r : ℝ) : CalmInput (calmRec S m ps r).toInput :=
  ⟨rfl, rfl, rfl, by norm_num [calmRec, Rec.toInput]⟩

theorem calmRec_net (S m ps r : ℝ) {s : Snow} (h : s.t_s_0 = FREEZE) (dl : InputData) :
    net_radiation (calmRec S m ps r).toInput s = S ∧
    net_radiation ((calmRec S m ps r).toInput.update_precip_deltas dl) s = S := by
  unfold net_radiation
  rw [h]
  simp [InputData.update_precip_deltas, Rec.toInput, calmRec]

/-- The initial pack of `calmCfg`. -/
theorem init_calm {thr vol z rho sat d : ℝ} (hz : 0 < z) (hz' : z ≤ 0.25) (hm : 1 < rho * z)
    (hd : 1 - sat * vol * RHO_W0 / RHO_ICE ≠ 0)
    (ed : d = (rho - sat * vol * RHO_W0) / (1 - sat * vol * RHO_W0 / RHO_ICE)) :
    init_snow (calmEnv vol) (recordSnow (calmCfg thr vol z rho sat)) = .ok
      { Snow.zero with
        z_s := z, rho := rho, t_s_0 := FREEZE, t_s := FREEZE, h2o_sat := sat, t_s_l := MIN_SNOW_TEMP + FREEZE
        m_s := rho * z, z_s_0 := z, m_s_0 := rho * z, h2o_vol := sat * vol
        h2o_max := h2o_left z d vol, h2o := sat * h2o_left z d vol } := by
  unfold init_snow
  have hc : Snow.calc_layers (calmEnv vol) { recordSnow (calmCfg thr vol z rho sat) with
      m_s := (recordSnow (calmCfg thr vol z rho sat)).rho * (recordSnow (calmCfg thr vol z rho sat)).z_s } =
      { Snow.zero with
        z_s := z, rho := rho, t_s_0 := FREEZE, t_s := FREEZE, h2o_sat := sat, t_s_l := 0
        m_s := rho * z, z_s_0 := z } := by
    unfold Snow.calc_layers
    have h1 : ¬ rho * z ≤ (calmEnv vol).small_threshold := not_le.mpr hm
    have h2 : ¬ z - (calmEnv vol).max_z_s_0 > 0 := by
      show ¬ z - 0.25 > 0
      linarith
    have h0 : 0 * rho < (calmEnv vol).small_threshold := by rw [zero_mul]; exact zero_lt_one
    show (if rho * z ≤ (calmEnv vol).small_threshold then _ else _) = _
    rw [if_neg h1]
    simp only [recordSnow, calmCfg, defaultSteps, Snow.zero, Option.getD]
    simp only [h2, if_false, h0, if_true, add_zero]
  rw [hc]
  have hl : ({ Snow.zero with
        z_s := z, rho := rho, t_s_0 := FREEZE, t_s := FREEZE, h2o_sat := sat, t_s_l := 0
        m_s := rho * z, z_s_0 := z } : Snow).layer_count = 1 := by
    unfold Snow.layer_count
    simp [Snow.zero, hz]
  unfold initLayers
  rw [if_neg (by rw [hl]; norm_num)]
  unfold initWater initCold Snow.dry_snow_density cold_content
  have ev : (calmEnv vol).max_h2o_vol = vol := rfl
  simp only [hl, OfNat.one_ne_ofNat, if_false, lt_irrefl, ev]
  rw [pdiv_of_ne hd, bind_ok, pure_ok, ← ed]
  simp [Snow.zero]

/-- The snow after the energy balance of a calm step with net radiation `R`. -/
def radiated (R : ℝ) (s : Snow) : Snow :=
  { s with h2o_total := 0, snowcover := true, E := 0, en := ⟨R, 0, 0, 0, 0, 0, R, R⟩ }

/-- A calm step over ripe snow: no compaction, then precipitation, melt and drainage. -/
theorem stepPhys_calm {vol dt R : ℝ} {dl i : InputData} {p : Phys} (hs : RipeSnow p.snow)
    (ei : (if p.input1.precip_now then p.input1.update_precip_deltas dl else p.input1) = i)
    (hc : CalmInput i) (hr : 550 ≤ p.snow.rho) (hR : net_radiation i p.snow = R)
    (hi : (p.init_ustar = none ∧ p.init_factor = none) ∨ (p.init_ustar = some 0 ∧ p.init_factor = some 0))
    (hM : advec i dt p.snow = .ok 0) {s' : Snow}
    (h : (precip_event (calmEnv vol) i (radiated R p.snow) >>= afterPrecip (calmEnv vol) i dt) = .ok s') :
    stepPhys (calmEnv vol) dt dl p = .ok
      { snow := s', input1 := i, init_ustar := some 0, init_factor := some 0 } := by
  unfold stepPhys
  have e1 : (if p.input1.precip_now then { p with input1 := p.input1.update_precip_deltas dl } else p) =
      { p with input1 := i } := by
    rw [← ei]; split <;> rfl
  rw [e1]
  dsimp only
  have e2 : decide (({ p.snow with h2o_total := 0 } : Snow).layer_count > 0) = true := by
    have : ({ p.snow with h2o_total := 0 } : Snow).layer_count = 1 := hs.lc
    rw [this]; decide
  rw [e2]
  have hs' : RipeSnow { p.snow with h2o_total := 0, snowcover := true } :=
    ⟨hs.z0, hs.zl, hs.z, hs.z_le, hs.rho, hs.t0, hs.t, hs.cc0, hs.ccl, hs.m, hs.m0, hs.ml⟩
  have eb := energy_calm (vol := vol) (dt := dt)
    (p := { p with snow := { p.snow with h2o_total := 0, snowcover := true }, input1 := i }) hs' hc hi hM
  have hR' : net_radiation i { p.snow with h2o_total := 0, snowcover := true } = R := hR
  simp only [hR'] at eb
  rw [eb, bind_ok]
  unfold mass_balance
  have tc : time_compact (calmEnv vol) dt (radiated R p.snow) = .ok (radiated R p.snow) := by
    unfold time_compact
    rw [if_pos (.inr hr)]
  have key : (do
      let s ← time_compact (calmEnv vol) dt (radiated R p.snow)
      let s ← precip_event (calmEnv vol) i s
      afterPrecip (calmEnv vol) i dt s) = .ok s' := by
    rw [tc, bind_ok]; exact h
  unfold afterPrecip radiated at key
  dsimp only at key ⊢
  rw [key, bind_ok]
  rfl

/-- A pack at rest: ripe, saturated, dense. -/
structure Settled (vol m : ℝ) (p : Phys) : Prop where
  ripe : RipeSnow p.snow
  rho : 550 < p.snow.rho ∧ p.snow.rho ≤ 600
  m : p.snow.m_s = m
  cap : p.snow.h2o = h2o_left p.snow.z_s_0 ((p.snow.m_s - p.snow.h2o) / p.snow.z_s_0) vol
  wet : 1e-8 < p.snow.h2o
  start : (p.init_ustar = none ∧ p.init_factor = none) ∨ (p.init_ustar = some 0 ∧ p.init_factor = some 0)

/-- In calm weather without precipitation and net radiation a pack at rest stays at rest. -/
theorem settled_step_humid {vol m dt : ℝ} {dl : InputData} {p : Phys} (h : Settled vol m p) {ps r v : ℝ}
    (ei : p.input1 = { (calmRec 0 0 ps r).toInput with e_a := v }) (hv0 : 0 < v) (hv : v ≤ 610.71) :
    ∃ p', stepPhys (calmEnv vol) dt dl p = .ok p' ∧ Settled vol m p' ∧ p'.snow.snowcover = true ∧
      p'.snow.melt = 0 ∧ p'.snow.E = 0 ∧ p'.snow.E_s = 0 ∧ p'.snow.swi = 0 ∧ p'.snow.h2o = p.snow.h2o ∧
      p'.input1 = p.input1 := by
  have hnp : p.input1.precip_now = false := by rw [ei]; simp [Rec.toInput, calmRec]
  have hpe : precip_event (calmEnv vol) p.input1 (radiated 0 p.snow) =
      .ok { radiated 0 p.snow with h2o_total := p.snow.h2o } := by
    unfold precip_event
    rw [if_neg (by rw [hnp]; simp)]
    simp [radiated]
  have hs := h.ripe
  have hr : RipeSnow { radiated 0 p.snow with h2o_total := p.snow.h2o } :=
    ⟨hs.z0, hs.zl, hs.z, hs.z_le, hs.rho, hs.t0, hs.t, hs.cc0, hs.ccl, hs.m, hs.m0, hs.ml⟩
  have hq := afterPrecip_quiet (vol := vol) (dt := dt) (i := p.input1) hr rfl (by rw [ei]; rfl) rfl
    (.inr h.wet) rfl h.rho.1 h.rho.2 h.cap (le_refl _) (by have := h.wet; linarith)
  have hcalm : CalmInput p.input1 := by rw [ei]; exact ⟨rfl, rfl, rfl, hv0, hv⟩
  have hnet : net_radiation p.input1 p.snow = 0 := by rw [ei]; exact (calmRec_net 0 0 ps r hs.t0 dl).1
  have hadv : advec p.input1 dt p.snow = .ok 0 := by unfold advec; rw [if_neg (by rw [hnp]; simp)]
  have hfin := stepPhys_calm (vol := vol) (dt := dt) (dl := dl) (i := p.input1) hs
    (by rw [if_neg (by rw [hnp]; simp)]) hcalm h.rho.1.le hnet h.start hadv (by rw [hpe, bind_ok]; exact hq)
  refine ⟨_, hfin, ⟨?_, h.rho, h.m, h.cap, h.wet, .inr ⟨rfl, rfl⟩⟩, rfl, rfl, rfl, rfl, rfl, rfl, rfl⟩
  exact ⟨hs.z0, hs.zl, hs.z, hs.z_le, hs.rho, hs.t0, hs.t, hs.cc0, hs.ccl, hs.m, hs.m0, hs.ml⟩

/-- In calm weather without precipitation and net radiation a pack at rest stays at rest. -/
theorem settled_step {vol m dt : ℝ} {dl : InputData} {p : Phys} (h : Settled vol m p) {ps r : ℝ}
    (ei : p.input1 = (calmRec 0 0 ps r).toInput) :
    ∃ p', stepPhys (calmEnv vol) dt dl p = .ok p' ∧ Settled vol m p' ∧ p'.snow.snowcover = true ∧
      p'.snow.melt = 0 ∧ p'.snow.E = 0 ∧ p'.snow.E_s = 0 ∧ p'.snow.swi = 0 ∧ p'.snow.h2o = p.snow.h2o ∧
      p'.input1 = p.input1 :=
  settled_step_humid h (v := 20) (by rw [ei]; rfl) (by norm_num) (by norm_num)

/-- Any number of quiet data steps. -/
theorem settled_run {vol m0 : ℝ} {ts : Tsteps} (ht : TileOK ts) {all : Bool} {ps r : ℝ}
    (hthr : (ts .normal).threshold ≤ m0) (n : ℕ) (m : Model) (h : Settled vol m0 m.phys)
    (h0 : m.acc.time_since_out = 0) :
    ∃ ls m', DataSteps (calmEnv vol) ts all (calmRec 0 0 ps r).toInput
        (List.replicate n (calmRec 0 0 ps r)) m ls m' ∧ Settled vol m0 m'.phys ∧ ls.length = n ∧
      ∀ l ∈ ls, ∀ x ∈ l, x.lv = .normal ∧ Settled vol m0 x.pre ∧ Settled vol m0 x.post ∧
        x.pre.snow.h2o = m.phys.snow.h2o ∧
        x.post.snow.snowcover = true ∧ x.post.snow.melt = 0 ∧ x.post.snow.E = 0 ∧ x.post.snow.E_s = 0 ∧
        x.post.snow.swi = 0 ∧ x.post.input1.precip_now = false := by
  have hn : InputData.new (calmRec 0 0 ps r) = .ok (calmRec 0 0 ps r).toInput := by
    rw [new_eq, if_neg]
    rintro ⟨h, _⟩
    exact lt_irrefl _ h
  induction n generalizing m with
  | zero => exact ⟨[], m, .nil _ _, h, rfl, by simp⟩
  | succ n ih =>
    have hS : Settled vol m0 { m.phys with input1 := (calmRec 0 0 ps r).toInput } :=
      ⟨h.ripe, h.rho, h.m, h.cap, h.wet, h.start⟩
    obtain ⟨p', k1, k2, k3, k4, k5, k6, k7, k8, k9⟩ := settled_step (dt := (ts .normal).time_step)
      (dl := (deltaRec (calmRec 0 0 ps r).toInput (calmRec 0 0 ps r).toInput 1).toInput) hS rfl
    obtain ⟨m1, q1, q2, q3, q4, _⟩ := executed_normal (all := all) ht hn h0 (by
      unfold below_thold
      rw [if_neg (by rw [h.ripe.lc]; norm_num), if_pos h.ripe.lc, h.m]
      simpa using hthr) k1
    have e1 : m1.phys.snow = p'.snow := by rw [q4]
    obtain ⟨ls, m', w1, w2, w3, w4⟩ := ih m1 (by
      rw [q4]
      exact ⟨k2.ripe, k2.rho, k2.m, k2.cap, k2.wet, k2.start⟩) q3
    refine ⟨_, m', .cons hn q1 q2 w1, w2, by simp [w3], ?_⟩
    intro l hl x hx
    rcases List.mem_cons.mp hl with rfl | hl
    · rw [List.mem_singleton] at hx
      subst hx
      refine ⟨rfl, hS, k2, rfl, k3, k4, k5, k6, k7, ?_⟩
      show p'.input1.precip_now = false
      rw [k9]
      simp [Rec.toInput, calmRec]
    · obtain ⟨a1, a2, a3, a4, a5⟩ := w4 l hl x hx
      refine ⟨a1, a2, a3, ?_, a5⟩
      rw [a4, e1, k8]

end

end Pysnobal
