import Verif.Props.Ties
import Verif.Props.MeltOut

/-! # C81: a run that uses up its snow exactly

100 kg/m² of ripe snow receive 50 kg/m² of rain in an hour with just the energy that melts all of the ice and as much
more as the drained pack retains, so that the code drains exactly the mass of the pack. -/

namespace Pysnobal

noncomputable section

/-- A run whose first step is one normal step, which raises. -/
theorem first_normal_raises {g : Config} (hg : g.Tiled) {c : Env} (hc : mkEnv g = .ok c) {s0 : Snow}
    (hs : init_snow c (recordSnow g) = .ok s0) {r1 r2 : Rec} {i1 i2 : InputData}
    (n1 : InputData.new r1 = .ok i1) (n2 : InputData.new r2 = .ok i2)
    (hb : below_thold g.norm_threshold s0 = false) {e : Err}
    (hp : stepPhys c ((g.norm_time_step * 60 : ℤ) : ℝ) (deltaRec i1 i2 1).toInput ⟨s0, i1, none, none⟩ = .error e) :
    simulate g [r1, r2] = .error e := by
  obtain ⟨ts, hts⟩ := parse_of_ne (g := g) hg.2.1.ne' hg.2.2.1.ne'
  have ht := parse_tile hg hts
  obtain ⟨m0, hm⟩ : ∃ m0, mkModel g c i1 = .ok m0 := by
    unfold mkModel
    rw [hs, bind_ok]
    exact ⟨_, rfl⟩
  have hph : m0.phys = ⟨s0, i1, none, none⟩ := by
    unfold mkModel at hm
    rw [hs, bind_ok, pure_ok] at hm
    rw [← Except.ok.inj hm]
  have hsim : simulate g [r1, r2] = do_data_tstep c ts g.output_all i1 i2 m0 := by
    unfold simulate
    dsimp only
    rw [hts, bind_ok, n1, bind_ok, hc, bind_ok, hm, bind_ok]
    unfold runSteps
    rw [n2, bind_ok]
    unfold runSteps
    cases do_data_tstep c ts g.output_all i1 i2 m0 <;> rfl
  rw [hsim]
  obtain ⟨_, _, e1, _, _⟩ := parse_ok hts
  unfold do_data_tstep
  rw [inputDeltas_total ht n1 i2, bind_ok, data_tstep_eq]
  unfold Sim.normalBlock
  have hn : ((ts .normal).intervals).toNat = 1 := by rw [ht.n_normal]; rfl
  have hd : (((ts .normal).intervals_per_timestep : ℤ) : ℝ) = 1 := by rw [ht.ipt_normal]; norm_num
  have hp' : stepPhys c (ts .normal).time_step (deltaRec i1 i2 1).toInput ⟨s0, i1, none, none⟩ = .error e := by
    rw [e1]; exact hp
  have hb' : below_thold (ts .normal).threshold s0 = false := by rw [e1]; exact hb
  simp [snobalSim, hn, iterM, hb', Sim.do_tstep, hd, hp', hph]

/-- The pack of the example when it starts: 100 kg/m² of ripe snow at 600 kg/m³. -/
def tiePack : Snow :=
  { Snow.zero with
    z_s := 1 / 6, rho := 600, t_s_0 := FREEZE, t_s := FREEZE, t_s_l := MIN_SNOW_TEMP + FREEZE, m_s := 600 * (1 / 6)
    z_s_0 := 1 / 6, m_s_0 := 600 * (1 / 6), h2o_max := h2o_left (1 / 6) 600 0.01, h2o := 0 * h2o_left (1 / 6) 600 0.01 }

/-- Water retained by the pack in the end. -/
def tieCap : ℝ := 2.499675 * 917 / 907.0013

/-- The net radiation that melts all the ice and `tieCap` more in an hour. -/
def tieSun : ℝ := (100 + tieCap) * 333600 / 3600

/-- 50 kg/m² of rain in an hour. -/
def tieRec : Rec := calmRec tieSun 50 0 300

theorem tie_init : init_snow (calmEnv 0.01) (recordSnow stormCfg) = .ok tiePack := by
  have h := init_calm (thr := 60) (vol := 0.01) (z := 1 / 6) (rho := 600) (sat := 0) (d := 600)
    (by norm_num) (by norm_num) (by norm_num) (by norm_num) (by norm_num)
  have e : (0 : ℝ) * 0.01 = 0 := zero_mul _
  simp only [e] at h
  exact h

theorem tie_ripe : RipeSnow tiePack := by
  refine ⟨?_, rfl, rfl, ?_, ?_, rfl, rfl, rfl, rfl, rfl, rfl, rfl⟩ <;> norm_num [tiePack]

theorem tie_inv : Inv (calmEnv 0.01) tiePack := by
  refine ⟨?_, ?_, ?_, ?_, ?_, ?_, ?_⟩
  · simp [tiePack, Snow.zero]
  · simp [tiePack, Snow.zero]
  · intro h; simp [tiePack, Snow.zero] at h
  · intro _; exact ⟨rfl, rfl, rfl⟩
  · intro h; norm_num [tiePack] at h
  · intro _; norm_num [tiePack, Snow.zero]
  · intro _; norm_num [tiePack]

theorem adjust_zero {s : Snow} (h1 : s.layer_count = 1) (h0 : s.m_s_0 = 0) :
    s.adjust_layer_temps = .error .zeroDivision := by
  unfold Snow.adjust_layer_temps
  rw [if_pos h1, h0, new_tsno_zero, bind_error]

/-- The mass balance of that hour divides by zero. -/
theorem tie_mass : mass_balance (calmEnv 0.01) tieRec.toInput 3600 (radiated tieSun tiePack) = .error .zeroDivision := by
  have hr : RipeSnow (radiated tieSun tiePack) := by
    have f1 := tie_ripe
    exact ⟨f1.z0, f1.zl, f1.z, f1.z_le, f1.rho, f1.t0, f1.t, f1.cc0, f1.ccl, f1.m, f1.m0, f1.ml⟩
  have k1 : time_compact (calmEnv 0.01) 3600 (radiated tieSun tiePack) = .ok (radiated tieSun tiePack) := by
    unfold time_compact
    rw [if_pos (.inr (by norm_num [radiated, tiePack, RHO_MAX]))]
  have hm0 : (radiated tieSun tiePack).m_s = 100 := by norm_num [radiated, tiePack]
  have hz0 : (radiated tieSun tiePack).z_s = 1 / 6 := rfl
  have hpp : tieRec.toInput.m_pp = 50 := rfl
  have hzs : tieRec.toInput.z_snow = 0 := by norm_num [tieRec, calmRec, Rec.toInput]
  have hra : tieRec.toInput.m_rain = 50 := by norm_num [tieRec, calmRec, Rec.toInput]
  obtain ⟨q, k2, g1, g2, g3, g4, g5, g6⟩ : ∃ q, precip_event (calmEnv 0.01) tieRec.toInput (radiated tieSun tiePack) = .ok q ∧
      RipeSnow q ∧ q.m_s = 150 ∧ q.rho = 600 ∧ q.h2o_total = 50 ∧ q.snowcover = true ∧
      q.en.delta_Q_0 = tieSun ∧ q.E = 0 := by
    have hnow : tieRec.toInput.precip_now = true := calm_now (by norm_num)
    have hadj : adj_snow (calmEnv 0.01) 0 50 (radiated tieSun tiePack) =
        { radiated tieSun tiePack with z_s := 1 / 4, m_s := 150, rho := 600, z_s_0 := 1 / 4, z_s_l := 0
                                       m_s_0 := 150, m_s_l := 0 } := by
      rw [adj_snow_clip (by
        unfold adjRho
        rw [hm0, hz0]; norm_num), hm0]
      have e1 : ({ radiated tieSun tiePack with z_s := (100 + 50) / 600, m_s := 100 + 50, rho := 600 } : Snow).layer_count = 1 := hr.lc
      rw [adj_layers_one e1 (by norm_num) (by norm_num) (by norm_num)]
      norm_num
    unfold precip_event
    rw [if_pos hnow, if_pos (show (radiated tieSun tiePack).snowcover = true from rfl), hzs, hpp, hadj, hra]
    refine ⟨_, rfl, ⟨?_, rfl, rfl, ?_, ?_, rfl, rfl, rfl, rfl, ?_, ?_, rfl⟩, rfl, rfl, ?_, rfl, rfl, rfl⟩
    all_goals norm_num [radiated, tiePack, h2o_left]
  have hcap : 2.52 < tieCap ∧ tieCap < 2.53 := by constructor <;> norm_num [tieCap]
  have hq : q.en.delta_Q_0 * 3600 = 333600 * (100 + tieCap) := by rw [g6.1, tieSun]; ring
  have k3' := snowmelt_ripe (vol := 0.01) (dt := 3600) g1 g5 (by rw [g4]; norm_num) hq (by linarith) (by rw [g2]; linarith)
    (by rw [g2]; norm_num) (by rw [g2]) (by rw [g2, g3]; linarith)
  obtain ⟨t, k3, t1, t2, t3, t4, t5, t6, t7⟩ : ∃ t, snowmelt (calmEnv 0.01) 3600 q = .ok t ∧ RipeSnow t ∧ t.m_s = 150 ∧
      t.rho = 600 ∧ t.z_s_0 = 1 / 4 ∧ t.h2o_total = 150 + tieCap ∧ t.snowcover = true ∧ t.E = 0 := by
    refine ⟨_, k3', ⟨?_, g1.zl, rfl, ?_, ?_, g1.t0, g1.t, g1.cc0, g1.ccl, ?_, ?_, g1.ml⟩, g2, rfl, ?_, ?_, g5, g6.2⟩
    · show 0 < q.m_s / 600
      rw [g2]; norm_num
    · show q.m_s / 600 ≤ 0.25
      rw [g2]; norm_num
    · show (0:ℝ) < 600
      norm_num
    · show q.m_s = 600 * (q.m_s / 600)
      ring
    · show q.m_s = 600 * (q.m_s / 600)
      ring
    · show q.m_s / 600 = 1 / 4
      rw [g2]; norm_num
    · show q.h2o_total + (100 + tieCap) = 150 + tieCap
      rw [g4]; ring
  have k4 := evap_ripe (vol := 0.01) (dt := 3600) (i := tieRec.toInput) t1 t6 rfl t7 t3.le (by rw [t5]; linarith)
  obtain ⟨u, hu⟩ : ∃ u, u = { t with E_s := 0 } := ⟨_, rfl⟩
  rw [← hu] at k4
  have ru : RipeSnow u := by
    rw [hu]
    exact ⟨t1.z0, t1.zl, t1.z, t1.z_le, t1.rho, t1.t0, t1.t, t1.cc0, t1.ccl, t1.m, t1.m0, t1.ml⟩
  have u2 : u.m_s = 150 := by rw [hu]; exact t2
  have u3 : u.rho = 600 := by rw [hu]; exact t3
  have u4 : u.z_s_0 = 1 / 4 := by rw [hu]; exact t4
  have u5 : u.h2o_total = 150 + tieCap := by rw [hu]; exact t5
  have u6 : u.snowcover = true := by rw [hu]; exact t6
  have k5 : h2o_compact (calmEnv 0.01) tieRec.toInput u = .ok u := by
    unfold h2o_compact
    rw [if_pos (.inr (by rw [u3]; norm_num))]
  have k6 := runoff_ripe (vol := 0.01) (cap := tieCap) ru u6 (by
    rw [u2, u4, u5]; unfold h2o_left tieCap RHO_W0 RHO_ICE; norm_num) (by rw [u5]; linarith) u3.le
  unfold mass_balance
  rw [k1, bind_ok, k2, bind_ok, k3, bind_ok, k4, bind_ok, k5, bind_ok, k6, bind_ok]
  rw [if_pos (show _ = true from u6)]
  refine adjust_zero ru.lc ?_
  show u.m_s - (u.h2o_total - tieCap) = 0
  rw [u2, u5]; ring

/-- The hour before that: the energy balance completes. -/
theorem tie_energy : energy_balance (calmEnv 0.01) 3600 (stepStart (deltaRec tieRec.toInput quietRec.toInput 1).toInput
      ⟨tiePack, tieRec.toInput, none, none⟩) =
    .ok ⟨radiated tieSun tiePack, tieRec.toInput, some 0, some 0⟩ := by
  have ei : applied (deltaRec tieRec.toInput quietRec.toInput 1).toInput tieRec.toInput = tieRec.toInput := calm_update _
  unfold stepStart
  have f1 := tie_ripe
  have hl : decide (0 < tiePack.layer_count) = true := by rw [f1.lc]; rfl
  have hr : RipeSnow { tiePack with h2o_total := 0, snowcover := true } :=
    ⟨f1.z0, f1.zl, f1.z, f1.z_le, f1.rho, f1.t0, f1.t, f1.cc0, f1.ccl, f1.m, f1.m0, f1.ml⟩
  have h := energy_calm (vol := 0.01) (dt := 3600)
    (p := ⟨{ tiePack with h2o_total := 0, snowcover := true }, tieRec.toInput, none, none⟩) hr
    (calmRec_calm _ _ _ _) (.inl ⟨rfl, rfl⟩) (calm_advec (by norm_num) (by norm_num) (by norm_num) hr.t0)
  have hn : net_radiation tieRec.toInput { tiePack with h2o_total := 0, snowcover := true } = tieSun :=
    (calmRec_net _ _ _ _ hr.t0 tieRec.toInput).1
  simp only [hn] at h
  rw [ei]
  simp only [gt_iff_lt, hl]
  exact h

theorem tie_applied : applied (deltaRec tieRec.toInput quietRec.toInput 1).toInput tieRec.toInput = tieRec.toInput :=
  calm_update _

/-- The run step of that hour divides by zero. -/
theorem tie_step : stepPhys (calmEnv 0.01) 3600 (deltaRec tieRec.toInput quietRec.toInput 1).toInput
    ⟨tiePack, tieRec.toInput, none, none⟩ = .error .zeroDivision := by
  rw [stepPhys_eq, tie_energy, bind_ok, tie_mass, bind_error]

/-- So does the run. -/
theorem tie_run : simulate stormCfg [tieRec, quietRec] = .error .zeroDivision := by
  have e36 : ((stormCfg.norm_time_step * 60 : ℤ) : ℝ) = 3600 := by norm_num [stormCfg, calmCfg, defaultSteps]
  refine first_normal_raises (g := stormCfg) (calmCfg_tiled _ _ _ _ _) (calmCfg_env _ _ _ _ _) tie_init (i1 := tieRec.toInput) (i2 := quietRec.toInput)
    (calmRec_new (by norm_num)) (calmRec_new (by norm_num)) ?_ (by rw [e36]; exact tie_step)
  unfold below_thold
  rw [if_neg (by rw [tie_ripe.lc]; norm_num), if_pos tie_ripe.lc]
  show decide ((600:ℝ) * (1 / 6) < 60) = false
  norm_num

theorem tie_forcing : StepForcing tieRec.toInput := by
  refine toInput_forcing (fun _ => ⟨?_, ?_, ?_⟩) ?_ (fun _ h => ?_)
  all_goals first
    | norm_num [tieRec, calmRec, FREEZE, RHO_ICE]
    | (norm_num [tieRec, calmRec] at h)

theorem tie_frozen : tiePack.Frozen := ⟨⟨freeze_pos, le_refl _⟩, ⟨freeze_pos, le_refl _⟩, t_none_ok⟩

/-- C81, mass balance: the pack meets the hypotheses, is used up exactly, and the mass balance raises. -/
example : (calmEnv 0.01).OK ∧ 0 < (calmEnv 0.01).max_h2o_vol ∧ SoilOK (calmEnv 0.01) tieRec.toInput ∧
    StepForcing tieRec.toInput ∧ PackStart (calmEnv 0.01) (radiated tieSun tiePack) ∧
    UsedUp (calmEnv 0.01) tieRec.toInput 3600 (radiated tieSun tiePack) ∧
    mass_balance (calmEnv 0.01) tieRec.toInput 3600 (radiated tieSun tiePack) = .error .zeroDivision := by
  have hp : PackStart (calmEnv 0.01) (radiated tieSun tiePack) := by
    refine ⟨?_, ?_, rfl, ?_, ?_, fun _ => ⟨tie_frozen.surf, tie_frozen.mean, tie_frozen.lower⟩⟩
    · have i := tie_inv
      exact ⟨i.sum, i.zl, i.full, i.one, i.bare, i.pack, fun _ => by norm_num [radiated, tiePack]⟩
    · show true = decide (0 < tiePack.layer_count)
      rw [tie_ripe.lc]; rfl
    · norm_num [radiated, tiePack]
    · intro _; norm_num [radiated, tiePack]
  have hv : (0:ℝ) < (calmEnv 0.01).max_h2o_vol := by norm_num [calmEnv]
  exact ⟨calmEnv_ok, hv, calm_soil _ rfl, tie_forcing, hp,
    ((C81_mass_balance_raises _ calmEnv_ok hv _ 3600 (by norm_num) (calm_soil _ rfl) (fun _ => tie_forcing) _ hp _).mp tie_mass).2,
    tie_mass⟩

/-- C81, run step: the start of the step meets the hypotheses, its energy balance completes, and it raises. -/
example : EnergyStart (calmEnv 0.01) (applied (deltaRec tieRec.toInput quietRec.toInput 1).toInput tieRec.toInput) tiePack ∧
    0 ≤ tiePack.h2o ∧
    StepForcing (applied (deltaRec tieRec.toInput quietRec.toInput 1).toInput tieRec.toInput) ∧
    stepPhys (calmEnv 0.01) 3600 (deltaRec tieRec.toInput quietRec.toInput 1).toInput
      ⟨tiePack, tieRec.toInput, none, none⟩ = .error .zeroDivision ∧
    ∃ p1, energy_balance (calmEnv 0.01) 3600 (stepStart (deltaRec tieRec.toInput quietRec.toInput 1).toInput
      ⟨tiePack, tieRec.toInput, none, none⟩) = .ok p1 ∧ UsedUp (calmEnv 0.01) p1.input1 3600 p1.snow := by
  have h1 : EnergyStart (calmEnv 0.01) (applied (deltaRec tieRec.toInput quietRec.toInput 1).toInput tieRec.toInput) tiePack := by
    rw [tie_applied]
    exact ⟨tie_inv, calm_soil _ rfl, by norm_num [calmEnv], boil_gt.le, fun _ => by norm_num [tiePack], fun _ => tie_frozen⟩
  have h2 : 0 ≤ tiePack.h2o := by norm_num [tiePack]
  have h3 : StepForcing (applied (deltaRec tieRec.toInput quietRec.toInput 1).toInput tieRec.toInput) := by
    rw [tie_applied]; exact tie_forcing
  refine ⟨h1, h2, h3, tie_step, ?_⟩
  rcases (C81_step_raises _ calmEnv_ok (by norm_num [calmEnv]) 3600 (by norm_num) _ ⟨tiePack, tieRec.toInput, none, none⟩ h1 h2
    (fun _ => h3) _).mp tie_step with q | q
  · exfalso
    have he := tie_energy
    unfold energy_balance at he
    rw [if_pos (show (stepStart (deltaRec tieRec.toInput quietRec.toInput 1).toInput ⟨tiePack, tieRec.toInput, none, none⟩).snow.layer_count > 0 from q.1)] at he
    dsimp only at he
    rw [q.2, bind_error] at he
    cases he
  · exact q.2

theorem tie_rows : ∀ r ∈ [tieRec, quietRec], r.Accepted ∧ r.Admissible ∧ r.GroundOK (calmEnv 0.01).P_a := by
  intro r hr
  rcases List.mem_cons.mp hr with rfl | hr
  · refine ⟨fun _ _ => by norm_num [tieRec, calmRec], fun _ => ⟨?_, ?_, ?_⟩, freeze_pos, boil_gt.le, fun e he => ?_⟩
    · norm_num [tieRec, calmRec]
    · norm_num [tieRec, calmRec]
    · norm_num [tieRec, calmRec, FREEZE, RHO_ICE]
    · have : sati (calmRec tieSun 50 0 300).t_g = .ok 610.71 := sati_freeze
      change sati (calmRec tieSun 50 0 300).t_g = .ok e at he
      rw [this] at he
      cases he
      norm_num [calmEnv, SEA_LEVEL]
  · rw [List.mem_singleton] at hr
    subst hr
    exact storm_accepted 0 quietRec (by simp)

/-- C81, run: the run meets all hypotheses and raises. -/
example : stormCfg.Tiled ∧ stormCfg.AdmissibleStart ∧ stormCfg.ColdStart ∧ 0 < stormCfg.max_h2o ∧ 0 < stormCfg.z_g ∧
    mkEnv stormCfg = .ok (calmEnv 0.01) ∧ simulate stormCfg [tieRec, quietRec] = .error .zeroDivision ∧
    ∃ (ts : Tsteps) (k : ℕ) (m : Model) (ls : List (List (RStep Phys))) (i1 i2 : InputData) (l : List (RStep Phys)) (mid : Model) (lv : Level) (d : InputData)
      (rest : List Level), RunTrace stormCfg ([tieRec, quietRec].take (k + 1)) ls m ∧
      StepRaises (calmEnv 0.01) ts stormCfg.output_all i1 i2 m l mid lv d rest .zeroDivision := by
  have h2 : stormCfg.AdmissibleStart := stormCfg_ok.2.1
  have h3 : stormCfg.ColdStart := by
    refine ⟨⟨?_, ?_⟩, ?_, ?_⟩
    all_goals try norm_num [stormCfg, calmCfg, defaultSteps, FREEZE]
    all_goals (intro t h; cases h)
  have h6 : mkEnv stormCfg = .ok (calmEnv 0.01) := calmCfg_env _ _ _ _ _
  obtain ⟨ts, k, hk, m, i1, i2, l, mid, lv, d, rest, k1, k2, k3, k4, _, k5⟩ := C68_failure_located stormCfg (calmCfg_tiled _ _ _ _ _) h2 _ h6 _
    (by simp) (fun r hx => (tie_rows r hx).1) _ tie_run
  obtain ⟨ls, htr⟩ := simulate_trace k2
  exact ⟨calmCfg_tiled _ _ _ _ _, h2, h3, by norm_num [stormCfg, calmCfg], by norm_num [stormCfg, calmCfg, defaultSteps], h6, tie_run,
    ts, k, m, ls, i1, i2, l, mid, lv, d, rest, htr, k5⟩

/-- C81: melting more than that is no failure.  The same pack in a dry hour that has the energy to melt at least all of
it: the run completes with bare ground, although C51's condition that the ice suffices fails. -/
example {μ : ℝ} (hμ : 100 ≤ μ) : ∃ m, simulate stormCfg [calmRec (μ * 333600 / 3600) 0 1 300, quietRec] = .ok m := by
  obtain ⟨x, m, h, _⟩ := meltOut_run hμ
  exact ⟨m, h.simulate⟩

end

end Pysnobal
