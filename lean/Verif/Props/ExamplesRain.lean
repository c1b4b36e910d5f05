import Verif.Props.Rain
import Verif.Props.ExamplesGround

/-! # Example for C88: 10 mm of rain, at the freezing point and ten degrees warmer, on 100 kg/m² of ripe snow -/

namespace Pysnobal

noncomputable section

/-- Ten millimetres of rain at the freezing point. -/
def rainRec : Rec := calmRec 0 10 0 300

theorem rain_hour {s : Snow} (hs : RipeSnow s) (hi : Inv (calmEnv 0.01) s) (hm : s.m_s = 100) (hh : s.h2o = 0) (hl : s.t_s_l = T_NONE) {t : ℝ}
    (h1 : FREEZE ≤ t) (h2 : t ≤ FREEZE + 10) {dl : InputData} (hdl : dl.m_pp = 10 ∧ dl.m_snow = 0 ∧ dl.m_rain = 10 ∧ dl.z_snow = 0) :
    ∃ p', stepPhys (calmEnv 0.01) 3600 dl ⟨s, rainRec.toInput.rained t t, none, none⟩ = .ok p' := by
  have hpn : rainRec.toInput.precip_now = true := by simp [rainRec, calmRec, Rec.toInput]
  have hap : applied dl rainRec.toInput = rainRec.toInput.update_precip_deltas dl := by unfold applied; rw [if_pos hpn]
  have htr : rainRec.toInput.t_rain = FREEZE := by simp [rainRec, calmRec, Rec.toInput]
  have hts : rainRec.toInput.t_snow = 0 := by simp [rainRec, calmRec, Rec.toInput]
  obtain ⟨d1, d2, d3, d4⟩ := hdl
  have hcalm := energy_calm (vol := 0.01) (dt := 3600) (p := stepStart dl ⟨s, rainRec.toInput, none, none⟩)
    ⟨hs.z0, hs.zl, hs.z, hs.z_le, hs.rho, hs.t0, hs.t, hs.cc0, hs.ccl, hs.m, hs.m0, hs.ml⟩
    (by
      show CalmInput (applied dl rainRec.toInput)
      rw [hap]
      obtain ⟨a, b, c, d⟩ := calmRec_calm 0 10 0 300
      exact ⟨a, b, c, d⟩) (.inl ⟨rfl, rfl⟩)
    (by
      show advec (applied dl rainRec.toInput) _ _ = _
      rw [hap]
      unfold advec
      rw [if_pos (show (rainRec.toInput.update_precip_deltas dl).precip_now = true from hpn), pdiv_of_ne (by norm_num)]
      unfold InputData.update_precip_deltas stepStart
      dsimp only
      rw [htr, d2, hs.t0]
      unfold heat_stor
      simp)
  have hl0 : 0 < (stepStart dl ⟨s, rainRec.toInput, none, none⟩).snow.layer_count := by show 0 < s.layer_count; rw [hs.lc]; norm_num
  have hturb : ∃ r, h_le (calmEnv 0.01) (stepStart dl ⟨s, rainRec.toInput, none, none⟩) = .ok r := by
    rcases energy_balance_ok hcalm with ⟨_, r, p1, _, _, _, h1, _⟩ | ⟨h0, _⟩
    · exact ⟨_, h1⟩
    · omega
  have hstart : stepStart dl ⟨s, rainRec.toInput.rained t t, none, none⟩ =
      { stepStart dl ⟨s, rainRec.toInput, none, none⟩ with input1 := (stepStart dl ⟨s, rainRec.toInput, none, none⟩).input1.rained t t } := by
    unfold stepStart
    dsimp only
    rw [applied_rained]
  have fr : s.Frozen := ⟨by rw [hs.t0]; exact ⟨freeze_pos, le_refl _⟩, by rw [hs.t]; exact ⟨freeze_pos, le_refl _⟩, by rw [hl]; exact t_none_ok⟩
  have hsoil : SoilOK (calmEnv 0.01) (applied dl (rainRec.toInput.rained t t)) := by
    rw [applied_rained, hap]
    exact calm_soil 0.01 (by rfl)
  have hE : EnergyStart (calmEnv 0.01) (applied dl (rainRec.toInput.rained t t)) s := by
    refine ⟨hi, hsoil, by norm_num [calmEnv], ?_, fun _ => by rw [hm]; norm_num, fun _ => fr⟩
    rw [applied_rained, hap]
    exact boil_gt.le
  refine C52_step_completes (calmEnv 0.01) calmEnv_ok (by norm_num [calmEnv]) 3600 (by norm_num) dl ⟨s, rainRec.toInput.rained t t, none, none⟩ hE
    (by show 0 ≤ s.h2o; rw [hh]) (by show s.cc_s_l ≤ 0; rw [hs.ccl]) (fun h => ?_) (fun _ => ?_) (fun _ p1 k1 T hT v hv => ?_)
  · rw [applied_rained, hap]
    unfold InputData.rained InputData.update_precip_deltas
    refine ⟨?_, ?_, ?_, ?_, ?_, fun _ => ?_, fun h => ?_, ?_⟩ <;> dsimp only
    · rw [d1, d2, d3]; norm_num
    · rw [d2]
    · rw [d3]; norm_num
    · rw [d4]
    · rw [d4, d2]; norm_num
    · exact d4
    · rw [d2] at h; exact absurd h (lt_irrefl _)
    · simp [rainRec, calmRec, Rec.toInput]
  · rw [hstart, h_le_rained]
    obtain ⟨r, hr⟩ := hturb
    rw [hr]
    exact ⟨_, rfl⟩
  · rw [hstart] at k1
    obtain ⟨δ, hδ⟩ : ∃ δ, δ = rainHeat 10 t FREEZE / 3600 := ⟨_, rfl⟩
    have hb := energy_balance_rained (calmEnv 0.01) 3600 t (tr := t) (δ := δ) (by norm_num) (stepStart dl ⟨s, rainRec.toInput, none, none⟩) (fun _ => by
      show _ = if (applied dl rainRec.toInput).precip_now = true then rainHeat (applied dl rainRec.toInput).m_rain t s.t_s_0 - rainHeat (applied dl rainRec.toInput).m_rain (applied dl rainRec.toInput).t_rain s.t_s_0 else 0
      rw [hap, if_pos (show (rainRec.toInput.update_precip_deltas dl).precip_now = true from hpn)]
      unfold InputData.update_precip_deltas
      dsimp only
      rw [d3, htr, hs.t0, hδ]
      have : rainHeat 10 FREEZE FREEZE = 0 := by unfold rainHeat; ring
      rw [this]; ring)
    rw [hcalm] at hb
    rw [hb] at k1
    have k1 := Except.ok.inj k1
    have hl1 : (stepStart dl ⟨s, rainRec.toInput, none, none⟩).snow.layer_count > 0 := hl0
    simp only [hl1, if_true] at k1
    have hnet : net_radiation (stepStart dl ⟨s, rainRec.toInput, none, none⟩).input1 (stepStart dl ⟨s, rainRec.toInput, none, none⟩).snow = 0 := by
      show net_radiation (applied dl rainRec.toInput) _ = 0
      rw [hap]
      exact (calmRec_net 0 10 0 300 (s := (stepStart dl ⟨s, rainRec.toInput, none, none⟩).snow) hs.t0 dl).2
    have hin' : p1.input1 = (rainRec.toInput.update_precip_deltas dl).rained t t := by
      rw [← k1]
      show (applied dl rainRec.toInput).rained t t = _
      rw [hap]
    have dq : p1.snow.en.delta_Q_0 = δ ∧ p1.snow.en.G - p1.snow.en.G_0 = 0 := by
      rw [← k1]
      show net_radiation _ _ + δ = δ ∧ (0:ℝ) - 0 = 0
      rw [hnet]
      constructor <;> ring
    have hE0 : p1.snow.E = 0 := by rw [← k1]; rfl
    have hcc : p1.snow.cc_s_0 = 0 := by rw [← k1]; exact hs.cc0
    have hT' : 0 < T ∧ T ≤ FREEZE := by
      simp only [soilTemps, List.mem_cons, List.not_mem_nil, or_false] at hT
      rcases hT with e | e | e | e <;> rw [e]
      · exact fr.surf
      · exact fr.mean
      · exact fr.lower
      · exact t_none_ok
    have htg : p1.input1.t_g = FREEZE := by rw [hin']; rfl
    have hn := soilExchange_nonneg (calm_soil 0.01 htg) (by norm_num [calmEnv]) (by norm_num) hT'.1 hT'.2 (by rw [htg]; exact hT'.2) (by rw [htg]; exact boil_gt.le) hv
    have hw : p1.input1.m_snow - wetWater (calmEnv 0.01) p1.input1 = 0 := by
      rw [hin']
      unfold wetWater InputData.rained InputData.update_precip_deltas h2o_left
      dsimp only
      rw [d2, d4]; ring
    rw [max_eq_left (by linarith : -v ≤ 0), hE0, hw]
    unfold meltCap
    rw [dq.1, dq.2, hcc, lf_eq]
    have : Snow.ice s = 100 := by unfold Snow.ice; rw [hm, hh]; norm_num
    show _ < s.ice + _
    have hδ0 : 0 ≤ δ ∧ δ * 3600 ≤ 500000 := by
      have e : rainHeat 10 t FREEZE = (4217.7 - 2.55 * (t - FREEZE)) * 10 * (t - FREEZE) := rfl
      rw [hδ, e]
      obtain ⟨u, hu⟩ : ∃ u, u = t - FREEZE := ⟨_, rfl⟩
      rw [← hu]
      have u0 : 0 ≤ u := by linarith
      have u1 : u ≤ 10 := by linarith
      constructor
      · have : 0 ≤ 4217.7 - 2.55 * u := by norm_num; linarith
        positivity
      · have : (4217.7 - 2.55 * u) * 10 * u ≤ 4217.7 * 10 * 10 := by nlinarith
        linarith
    rw [this, zero_mul, neg_zero, max_self, max_eq_right (by have := hδ0.1; positivity : (0:ℝ) ≤ δ * 3600 + 0)]
    have := hδ0.2
    rw [ite_self]
    norm_num
    linarith

/-- C88: the two runs differ only in the last record, in which the warmer rain shows 116.45 W/m² more. -/
example : ∃ m m' out o o', simulate stormCfg [rainRec, quietRec] = .ok m ∧
    simulate stormCfg [{ rainRec with t_pp := FREEZE + 10 }, quietRec] = .ok m' ∧
    m.output_list = out ++ [o] ∧ m'.output_list = out ++ [o'] ∧
    WarmerRainRecord 3600 116.45 True (m.phys.snow.snowcover = true ∧ m'.phys.snow.snowcover = true) o o' := by
  obtain ⟨hg, ha, hmax, _, _⟩ := stormCfg_ok
  obtain ⟨s0, hs0, f1, f2, f3, f4, f5, f6, f7⟩ := storm_init
  have hc : mkEnv stormCfg = .ok (calmEnv 0.01) := calmCfg_env _ _ _ _ _
  have hthr : s0.NoThinLayer stormCfg.norm_threshold := by
    refine ⟨fun _ => ?_, fun h => ?_⟩
    · rw [f3]; norm_num [stormCfg, calmCfg, defaultSteps]
    · rw [f1.lc] at h; norm_num at h
  have hdt : ((stormCfg.norm_time_step * 60 : ℤ) : ℝ) = 3600 := by norm_num [stormCfg, calmCfg, defaultSteps]
  have nq : InputData.new quietRec = .ok quietRec.toInput := by
    rw [new_eq, if_neg]
    rintro ⟨h, _⟩
    exact absurd h (by norm_num [quietRec, calmRec])
  have nr : ∀ t, FREEZE ≤ t → InputData.new { rainRec with t_pp := t } = .ok (rainRec.toInput.rained t t) := fun t ht => by
    rw [new_eq, if_neg]
    · simp [Rec.toInput, rainRec, calmRec, InputData.rained, not_lt.mpr ht]
    · rintro ⟨_, h, _⟩
      exact absurd h (by norm_num [rainRec, calmRec])
  have run : ∀ t, FREEZE ≤ t → t ≤ FREEZE + 10 → ∃ m, simulate stormCfg [{ rainRec with t_pp := t }, quietRec] = .ok m := by
    intro t a1 a2
    obtain ⟨p1, d1⟩ := rain_hour f1 f7 f3 f5 f6 a1 a2 (dl := (deltaRec (rainRec.toInput.rained t t) quietRec.toInput 1).toInput)
      (by simp [deltaRec, Rec.toInput, rainRec, calmRec, InputData.rained])
    obtain ⟨ls, m, h1, h2⟩ := first_trace hg hc hs0 (nr t a1) nq (rs := []) (below_of_noThin hthr) (p' := p1) (by rw [hdt]; exact d1)
      (P := fun ls m => True)
      (fun ts m1 _ e1 _ e2 => ⟨[], m1, .nil _ _, trivial⟩)
    exact ⟨m, h1.simulate⟩
  obtain ⟨m, hq⟩ := run FREEZE (le_refl _) (by linarith)
  obtain ⟨m', hq'⟩ := run (FREEZE + 10) (by linarith) (le_refl _)
  have hq : simulate stormCfg ([] ++ [rainRec, quietRec]) = .ok m := hq
  obtain ⟨c, ts, ia, ib, m1, ls, l, q1, q2, q3, q4, q5, q6, q7, q8⟩ := simulate_last hq
  have hm1 : m1.phys.snow = s0 := by
    obtain ⟨_, _, c', m0, _, _, e3, e4, e5⟩ := simulate_ok (r := rainRec) (rs := []) q5
    simp only [runSteps, Except.ok.injEq] at e5
    rw [hc] at e3; cases e3
    have := (mkModel_ok e4).2.2.2.1
    rw [hs0] at this
    rw [← e5]
    exact (Except.ok.inj this).symm
  obtain ⟨out, o, o', δ, k1, k2, k3, k4⟩ := C88_warmer_rain_record stormCfg hg ha [] rainRec quietRec quietRec (FREEZE + 10)
    (by
      intro r hr
      simp only [List.nil_append, List.mem_cons, List.not_mem_nil, or_false] at hr
      rcases hr with rfl | rfl
      · exact fun _ => ⟨le_refl _, zero_le_one, fun h => absurd h (lt_irrefl _)⟩
      · exact fun h => absurd h (lt_irrefl _)) (by norm_num [rainRec, calmRec]) (by norm_num [rainRec, calmRec])
    (by show FREEZE ≤ _; linarith) (by norm_num [FREEZE, BOIL]) (.inl rfl) m1 q5 (by rw [hm1]; exact hthr) m m' hq hq'
  have hlc : m1.phys.snow.layer_count > 0 := by rw [hm1, f1.lc]; norm_num
  have h36 : ((stormCfg.norm_time_step : ℝ) * 60 : ℝ) = 3600 := by have h := hdt; push_cast at h; exact h
  have hδ : δ = 116.45 := by
    have := (k4 hlc).1
    rw [h36, hm1, f1.t0] at this
    have e1 : rainRec.m_pp * (1 - rainRec.percent_snow) = 10 := by norm_num [rainRec, calmRec]
    have e2 : max (FREEZE + 10) (273.16 : ℝ) = 283.16 := by norm_num [FREEZE]
    have e3 : max rainRec.t_pp (273.16 : ℝ) = 273.16 := by show max FREEZE (273.16:ℝ) = _; norm_num [FREEZE]
    rw [e1, e2, e3] at this
    unfold rainHeat FREEZE at this
    norm_num at this ⊢
    linarith
  refine ⟨m, m', out, o, o', hq, hq', k1, k2, ?_⟩
  rw [h36, hδ] at k3
  rw [show True = (m1.phys.snow.layer_count > 0) from (eq_true hlc).symm]
  exact k3

end
end Pysnobal
