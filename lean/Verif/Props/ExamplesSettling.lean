import Verif.Props.Settling
import Verif.Lemmas.WitnessWind
import Verif.Props.Examples2

/-! # Examples for C102: snow at −10 °C on ground at −10 °C on a calm night, in one layer and in two -/

namespace Pysnobal

noncomputable section

open Classical

/-- A calm record in balance with snow at −10 °C. -/
def stillRec : Rec := { windRec with u := 0 }

theorem still_balanced : stillRec.Balanced (FREEZE - 10) := by
  refine ⟨rfl, le_refl _, rfl, ?_⟩
  show (0 : ℝ) + 0.98 * (STEF_BOLTZ * (FREEZE - 10) ^ 4 - STEF_BOLTZ * (FREEZE - 10) ^ 4) = 0
  ring

theorem still_new : InputData.new stillRec = .ok stillRec.toInput := by
  rw [new_eq, if_neg]
  rintro ⟨h, _, _⟩
  exact absurd h (by norm_num [stillRec, windRec])

theorem still_hle {p : Phys} (hz : 0 < p.snow.z_s) (hz1 : p.snow.z_s ≤ 1) (ht : p.snow.t_s_0 = FREEZE - 10) (hi : p.input1 = stillRec.toInput)
    (h1 : p.init_ustar = none) (h2 : p.init_factor = none) : ∃ r, h_le (calmEnv 0.01) p = .ok r := by
  have hbp : (0:ℝ) < BOIL := by norm_num [BOIL]
  have htp : (0:ℝ) < FREEZE - 10 := by norm_num [FREEZE]
  obtain ⟨sv, hsv⟩ := sati_ok_iff.mpr hbp
  obtain ⟨es, hes⟩ := sati_ok_iff.mpr htp
  have hsv' := (C35_relative_to_freezing BOIL sv hsv).2 (by norm_num [FREEZE, BOIL]) (le_refl _)
  have hes' := (C35_relative_to_freezing _ es hes).1 (by linarith)
  have hes0 := sati_value_pos hes
  have ea : p.input1.e_a = 20 := by rw [hi]; rfl
  have eta : p.input1.t_a = BOIL := by rw [hi]; rfl
  have eu : p.input1.u = 0 := by rw [hi]; rfl
  unfold h_le InputData.sat_vp Snow.e_s_0
  rw [eta, hsv, bind_ok]
  dsimp only
  rw [if_neg (by rw [ea]; linarith), ht, hes, bind_ok]
  rw [hle1_calm]
  · exact ⟨_, rfl⟩
  · refine ⟨?_, ?_, ?_, ?_, ?_, ?_, ?_, ?_, ?_, ?_, ?_⟩
    · norm_num [calmEnv]
    · simp only [calmEnv, Bool.false_eq_true, if_false]; norm_num; linarith
    · simp only [calmEnv, Bool.false_eq_true, if_false]; norm_num; linarith
    · simp only [calmEnv, Bool.false_eq_true, if_false]; norm_num; linarith
    · show 0 < p.input1.t_a; rw [eta]; exact hbp
    · exact htp
    · show 0 < p.input1.e_a; rw [ea]; norm_num
    · exact hes0
    · show p.input1.e_a < _; rw [ea]; norm_num [calmEnv, SEA_LEVEL]
    · show es < _
      have : (calmEnv 0.01).P_a = 101324.6 := rfl
      rw [this]; linarith
    · intro w hw
      have hw : satw p.input1.t_a = .ok w := hw
      rw [eta, satw_boil] at hw
      cases hw
      show p.input1.e_a - 25 ≤ _
      rw [ea]; norm_num [SEA_LEVEL]
  · exact eu
  · simp only [calmEnv, Bool.false_eq_true, if_false]; norm_num; linarith
  · simp only [calmEnv, Bool.false_eq_true, if_false]; norm_num; linarith
  · simp only [calmEnv, Bool.false_eq_true, if_false]; norm_num; linarith
  · exact .inl ⟨h1, h2⟩
  · simp only [calmEnv, Bool.false_eq_true, if_false, eta]
    have : 0 < DALR := by norm_num [DALR, GRAVITY, CP_AIR]
    have h5 : 0 < 5 - p.snow.z_s := by linarith
    have := mul_pos this h5
    have : FREEZE - 10 < BOIL := by norm_num [FREEZE, BOIL]
    intro e
    linarith

theorem still_now : stillRec.toInput.precip_now = false :=
  decide_eq_false (p := 0 < stillRec.m_pp) (by norm_num [stillRec, windRec])

theorem still_soil : SoilOK (calmEnv 0.01) stillRec.toInput := by
  have eg : stillRec.toInput.t_g = FREEZE - 10 := rfl
  refine ⟨by norm_num [calmEnv], by norm_num [calmEnv, SEA_LEVEL], by rw [eg]; norm_num [FREEZE], ?_⟩
  intro v hv
  rw [eg] at hv
  have := (C35_relative_to_freezing _ v hv).1 (by linarith)
  norm_num [calmEnv, SEA_LEVEL]; linarith

/-- The energy balance of a pack in balance. -/
theorem settle_energy {c : Env} {dt : ℝ} {d : InputData} {p p1 : Phys} {T : ℝ} (hs : p.snow.ColdAt T) (hb : (applied d p.input1).Balanced T)
    (e : energy_balance c dt (stepStart d p) = .ok p1) :
    p1.snow.E = 0 ∧ p1.snow.en.delta_Q_0 = 0 ∧ p1.snow.en.G = p1.snow.en.G_0 ∧ p1.snow.cc_s_0 = p.snow.cc_s_0 := by
  have e := (energy_balance_calm (p := stepStart d p) (by exact hb.calm) e).1
  unfold calmSnow at e
  dsimp only at e
  rw [if_pos (by exact hs.layers)] at e
  obtain ⟨⟨G, G0⟩, e1, e⟩ := bind_eq_ok.mp e
  have hG := heat_equal hs.cold.le hb.ground (by exact hs.surface) (by
    intro h1
    have h1' : p.snow.layer_count ≠ 1 := h1
    have := lc_le_two p.snow
    have := hs.layers
    exact (hs.lower (by omega)).1) e1
  cases hG
  dsimp only at e
  obtain ⟨M, e2, e⟩ := bind_eq_ok.mp e
  unfold advec at e2
  rw [if_neg (by show ¬ (applied d p.input1).precip_now = true; rw [hb.dry]; decide)] at e2
  cases e2
  have hR : net_radiation (stepStart d p).input1 (stepStart d p).snow = 0 := by
    unfold net_radiation SNOW_EMISSIVITY
    rw [show (stepStart d p).snow.t_s_0 = T from hs.surface]
    exact hb.net
  rw [hR] at e
  have e := Except.ok.inj e
  rw [← e]
  exact ⟨rfl, by simp, rfl, rfl⟩

/-- The step completes. -/
theorem still_step {p : Phys} (hinv : Inv (calmEnv 0.01) p.snow) (hz : 0 < p.snow.z_s) (hz1 : p.snow.z_s ≤ 1) (hm : 1 < p.snow.m_s)
    (hs : p.snow.ColdAt (FREEZE - 10)) (hl : p.snow.t_s_l ≤ FREEZE - 10 ∧ 0 < p.snow.t_s_l) (hi : p.input1 = stillRec.toInput)
    (h1 : p.init_ustar = none) (h2 : p.init_factor = none) (hc0 : p.snow.cc_s_0 ≤ 0) (hcl : p.snow.cc_s_l ≤ 0) (dl : InputData) :
    ∃ p', stepPhys (calmEnv 0.01) 3600 dl p = .ok p' := by
  have hap : applied dl p.input1 = stillRec.toInput := by
    unfold applied; rw [hi, if_neg (by rw [still_now]; simp)]
  have eg : stillRec.toInput.t_g = FREEZE - 10 := rfl
  have hf : (0:ℝ) < FREEZE - 10 := by norm_num [FREEZE]
  refine C52_step_completes (calmEnv 0.01) calmEnv_ok (by norm_num [calmEnv]) 3600 (by norm_num) dl p ?_
    (by rw [hs.water]) hcl (fun hn => ?_) (fun _ => ?_) (fun _ p1 hp1 T hT v hv => ?_)
  · rw [hap]
    refine ⟨hinv, still_soil, by norm_num [calmEnv], by rw [eg]; norm_num [FREEZE, BOIL], fun _ => by linarith, fun _ => ⟨?_, ?_, ?_⟩⟩
    · rw [hs.surface]; exact ⟨hf, by linarith⟩
    · rw [hs.mean]; exact ⟨hf, by linarith⟩
    · exact ⟨hl.2, by linarith [hl.1]⟩
  · rw [hap, still_now] at hn; cases hn
  · exact still_hle (p := stepStart dl p) hz hz1 hs.surface hap h1 h2
  · have hb : (applied dl p.input1).Balanced (FREEZE - 10) := by
      rw [hap]; exact new_balanced still_balanced still_new
    obtain ⟨q1, q2, q3, q4⟩ := settle_energy hs hb hp1
    have hn : 0 ≤ v := by
      have ei := (energy_balance_input hp1).1
      rw [show (stepStart dl p).input1 = stillRec.toInput from hap] at ei
      rw [ei] at hv
      have hv : soilExchange (calmEnv 0.01) stillRec.toInput 3600 T = .ok v := hv
      have hT' : 0 < T ∧ T ≤ FREEZE - 10 := by
        simp only [soilTemps, List.mem_cons, List.not_mem_nil, or_false] at hT
        rcases hT with e | e | e | e <;> rw [e]
        · rw [hs.surface]; exact ⟨hf, le_refl _⟩
        · rw [hs.mean]; exact ⟨hf, le_refl _⟩
        · exact ⟨hl.2, hl.1⟩
        · norm_num [T_NONE, MIN_SNOW_TEMP, FREEZE]
      exact soilExchange_nonneg still_soil (by norm_num [calmEnv]) (by norm_num) hT'.1 (by linarith [hT'.2])
        (by rw [eg]; exact hT'.2) (by rw [eg]; norm_num [FREEZE, BOIL]) hv
    have hcap : meltCap 3600 p1.snow = 0 := by
      unfold meltCap
      rw [q2, q3, q4, zero_mul, zero_add, sub_self, zero_mul, max_self, max_eq_left hc0]
      simp
    have hnow : p1.input1.precip_now = false := by
      rw [(energy_balance_input hp1).1]
      show (applied dl p.input1).precip_now = false
      rw [hap]; exact still_now
    have hice : p.snow.ice = p.snow.m_s := by unfold Snow.ice; rw [hs.water, sub_zero]
    rw [hcap, q1, hnow, hice, max_eq_left (by linarith : -v ≤ 0)]
    simp only [Bool.false_eq_true, if_false]
    norm_num
    linarith

/-- The pack of `windCfg` rests in two layers. -/
theorem still_wind {s : Snow} (h : WindPack s) (hp : StartPack windCfg s) (hd : windCfg.StartsDeep) : s.ColdAt (FREEZE - 10) := by
  have hF : FREEZE - 10 < FREEZE := by linarith
  refine ⟨hF, by rw [h.lc]; norm_num, h.h2o, h.t_s_0, h.t_s, ?_, fun _ => ⟨h.t_s_l, ?_⟩⟩
  · rw [hp.cc_s_0]
    show coldAt (FREEZE - 10) _ = _
    unfold coldAt
    rw [if_pos hF]
  · rw [hp.cc_s_l, if_pos hd, h.t_s_l]
    unfold coldAt
    rw [if_pos hF]

theorem still_density : 300 < gravityDensity (3600 / 3600) 300 (FREEZE - 10) 300 ∧ gravityDensity (3600 / 3600) 300 (FREEZE - 10) 300 ≤ 500 := by
  have e1 : 0 < Real.exp (-0.046 * (300 - 100) : ℝ) := Real.exp_pos _
  have e1' : Real.exp (-0.046 * (300 - 100) : ℝ) ≤ 1 := Real.exp_le_one_iff.mpr (by norm_num)
  have e2 : 0 < Real.exp (-0.04 * (273.16 - (FREEZE - 10)) : ℝ) := Real.exp_pos _
  have e2' : Real.exp (-0.04 * (273.16 - (FREEZE - 10)) : ℝ) ≤ 1 := Real.exp_le_one_iff.mpr (by norm_num [FREEZE])
  have e3 : 0 < Real.exp (-21 * 300 / 999.87 : ℝ) := Real.exp_pos _
  have e3' : Real.exp (-21 * 300 / 999.87 : ℝ) ≤ 1 / 7 := by
    rw [show (-21 * 300 / 999.87 : ℝ) = -(6300 / 999.87) by norm_num, Real.exp_neg, inv_eq_one_div]
    refine one_div_le_one_div_of_le (by norm_num) ?_
    have := Real.add_one_le_exp (6300 / 999.87 : ℝ)
    norm_num at this ⊢
    linarith
  have e4 : 0 < Real.exp (-0.08 * (273.16 - (FREEZE - 10)) : ℝ) := Real.exp_pos _
  have e4' : Real.exp (-0.08 * (273.16 - (FREEZE - 10)) : ℝ) ≤ 5 / 9 := by
    rw [show (-0.08 * (273.16 - (FREEZE - 10)) : ℝ) = -(0.8) by norm_num [FREEZE], Real.exp_neg, inv_eq_one_div]
    refine (one_div_le_one_div_of_le (by norm_num) (show (1.8 : ℝ) ≤ _ from ?_)).trans (by norm_num)
    have := Real.add_one_le_exp (0.8 : ℝ)
    linarith
  unfold gravityDensity settling overburden
  rw [if_neg (by norm_num), if_pos (by norm_num)]
  generalize Real.exp (-0.046 * (300 - 100) : ℝ) = a at *
  generalize Real.exp (-0.04 * (273.16 - (FREEZE - 10)) : ℝ) = b at *
  generalize Real.exp (-21 * 300 / 999.87 : ℝ) = f at *
  generalize Real.exp (-0.08 * (273.16 - (FREEZE - 10)) : ℝ) = d at *
  have hc := Real.neg_one_le_cos (Real.pi * 300 / 2000)
  generalize Real.cos (Real.pi * 300 / 2000) = q at *
  have hden : 0 < 24.5 + 23.5 * q := by linarith
  have hy : 0 < 3600 / 3600 / (24.5 + 23.5 * q) := by positivity
  have hy' : 3600 / 3600 / (24.5 + 23.5 * q) ≤ 1 := by rw [div_le_one hden]; linarith
  generalize 3600 / 3600 / (24.5 + 23.5 * q) = y at *
  have hab : a * b ≤ 1 := mul_le_one₀ e1' e2.le e2'
  have hfd : f * d ≤ 1 / 7 * (5 / 9) := mul_le_mul e3' e4' e4.le (by norm_num)
  have hx0 : 0 < 0.01 * a * b + 0.026 * 300 * f * d := by positivity
  have hx : 0.01 * a * b + 0.026 * 300 * f * d ≤ 0.65 := by nlinarith
  generalize 0.01 * a * b + 0.026 * 300 * f * d = x at *
  have hxy : 0 < x * y := mul_pos hx0 hy
  have hxy' : x * y ≤ 0.65 * 1 := mul_le_mul hx hy' hy.le (by norm_num)
  constructor <;> linarith

/-- C102: an hour's run over 300 kg/m² of snow at −10 °C in two layers on a calm night in balance with it meets the hypotheses; nothing is
exchanged, and the surface layer ends it warmer than the lower one. -/
example : ∃ x m, RunTrace windCfg [stillRec, stillRec] [[x]] m ∧ x.pre.snow.ColdAt (FREEZE - 10) ∧ x.pre.input1.Balanced (FREEZE - 10) ∧
    x.pre.snow.layer_count = 2 ∧ x.post.snow.layer_count = 2 ∧ x.pre.snow.rho < 550 ∧ x.post.snow.rho < 600 ∧ x.post.snow.m_s = x.pre.snow.m_s ∧
    x.post.snow.t_s_l < FREEZE - 10 ∧ FREEZE - 10 < x.post.snow.t_s_0 := by
  obtain ⟨s, hs, hp, hinv, hd⟩ := wind_start
  have hw := wind_pack hp hinv hd
  have hcold := still_wind hw hp hd
  obtain ⟨dl, hdl⟩ : ∃ dl, dl = (deltaRec stillRec.toInput stillRec.toInput 1).toInput := ⟨_, rfl⟩
  obtain ⟨p', hp'⟩ := still_step (p := ⟨s, stillRec.toInput, none, none⟩) hinv (by rw [hw.z_s]; norm_num) (by rw [hw.z_s]) (by rw [hw.m_s]; norm_num)
    hcold (by rw [hw.t_s_l]; norm_num [FREEZE]) rfl rfl rfl (by linarith [hw.cc_s_0]) (by linarith [hw.cc_s_l]) dl
  have hb : stillRec.toInput.Balanced (FREEZE - 10) := new_balanced still_balanced still_new
  obtain ⟨w, k, e⟩ := settle_chain (c := calmEnv 0.01) (by norm_num [calmEnv]) (by norm_num [calmEnv]) (by norm_num) hinv (by rw [hw.m_s]; norm_num)
    (by rw [hw.m_s]; norm_num [calmEnv]) (by norm_num [FREEZE]) hcold hb hp'
  obtain ⟨hg1, hg2⟩ := still_density
  obtain ⟨l1, l2⟩ := k.law (by rw [hw.rho]; norm_num) (by rw [hw.rho, hw.m_s]; linarith)
  rw [hw.rho, hw.m_s] at l1
  rw [hw.m_s] at l2
  have hwr : 300 < w.rho ∧ w.rho ≤ 500 := by rw [l1]; exact ⟨hg1, hg2⟩
  have e1 : (calmEnv 0.01).max_z_s_0 = 0.25 := rfl
  have e2 : (calmEnv 0.01).small_threshold = 1 := rfl
  have hwl : w.layer_count = 2 := by
    refine l2 ?_ ?_
    · rw [e1, lt_div_iff₀ (by linarith)]; linarith
    · rw [e1, e2, sub_mul, div_mul_cancel₀ _ (by linarith)]; linarith
  have hpost : p'.snow.layer_count = 2 ∧ p'.snow.rho = w.rho := by
    rcases adjust_ok e with ⟨a, _⟩ | ⟨_, _, e⟩ | ⟨_, _, t0, tl, t, _, _, _, e⟩ | ⟨a, _⟩
    · omega
    · rw [e]; exact ⟨hwl, rfl⟩
    · rw [e]; exact ⟨hwl, rfl⟩
    · omega
  rw [hdl] at hp'
  obtain ⟨ls, m, w1, w2⟩ := first_trace (g := windCfg) wind_tiled wind_env hs (r1 := stillRec) (r2 := stillRec)
    (rs := []) still_new still_new (by
      unfold below_thold
      rw [if_neg (by rw [hw.lc]; norm_num), if_neg (by rw [hw.lc]; norm_num)]
      have e1 : s.m_s_0 = 75 := by rw [hp.m_s_0, hw.z_s_0]; norm_num [windCfg, calmCfg]
      have e2 : s.m_s_l = 225 := by rw [hp.m_s_l, hw.z_s_l]; norm_num [windCfg, calmCfg]
      rw [e1, e2]
      norm_num [windCfg, calmCfg]) (p' := p') (by
        have : ((windCfg.norm_time_step * 60 : ℤ) : ℝ) = 3600 := by norm_num [windCfg, calmCfg, defaultSteps]
        rw [this]; exact hp')
    (P := fun ls _ => ls = []) (fun ts m1 _ _ _ _ => ⟨[], m1, .nil _ _, rfl⟩)
  rw [w2] at w1
  have q := C102_settling_separates_step windCfg wind_tiled (by norm_num [windCfg, calmCfg, defaultSteps]) (by norm_num [windCfg, calmCfg, defaultSteps])
    _ _ m w1 _ (List.mem_singleton.mpr rfl) _ (List.mem_singleton.mpr rfl) (FREEZE - 10) (by norm_num [FREEZE]) (by show _ < s.m_s; rw [hw.m_s]; norm_num [windCfg, calmCfg, defaultSteps])
    (by show 0 < s.m_s; rw [hw.m_s]; norm_num) hcold (by show s.rho < 550; rw [hw.rho]; norm_num) hb hw.lc hpost.1
    (by show p'.snow.rho < 600; rw [hpost.2]; linarith)
  exact ⟨_, m, w1, hcold, hb, hw.lc, hpost.1, by show s.rho < 550; rw [hw.rho]; norm_num, by show p'.snow.rho < 600; rw [hpost.2]; linarith,
    q.1.1, q.2.2.2.2.1, q.2.2.2.2.2.1⟩

/-- A quarter of a metre of snow at −10 °C. -/
def restCfg : Config :=
  { calmCfg 60 0.01 (1 / 4) 300 0 with init_t_s_0 := FREEZE - 10, init_t_s := FREEZE - 10, init_t_s_l := some (FREEZE - 10) }

theorem restCfg_starts : restCfg.StartsAtRest (FREEZE - 10) := by
  refine ⟨⟨?_, ?_⟩, ⟨?_, ?_⟩, rfl, rfl, rfl, ⟨?_, ?_⟩, ?_⟩ <;> norm_num [restCfg, calmCfg, defaultSteps, FREEZE]

/-- C102: an hour's run over it on a calm night in balance with it meets the hypotheses, and completes. -/
example : ∃ x m, restCfg.Tiled ∧ restCfg.StartsAtRest (FREEZE - 10) ∧ (∀ r ∈ [stillRec, stillRec], r.Balanced (FREEZE - 10)) ∧
    RunTrace restCfg [stillRec, stillRec] [[x]] m ∧ x.post.snow.AtRest (FREEZE - 10) 75 300 := by
  have hcfg : restCfg.Tiled := defaultSteps_tiled
  have henv : mkEnv restCfg = .ok (calmEnv 0.01) := calmCfg_env 60 0.01 (1 / 4) 300 0
  have hmax : 0 < restCfg.max_active := by norm_num [restCfg, calmCfg, defaultSteps]
  obtain ⟨s, hs⟩ := init_snow_total (calmEnv 0.01) (recordSnow restCfg) (by simp [recordSnow, restCfg, calmCfg])
  have hp := start_layers henv hmax restCfg_starts.snowy hs
  have hr := rest_start henv hmax restCfg_starts hs
  have hd : ¬ restCfg.StartsDeep := by
    intro hd
    have := hd.1
    norm_num [restCfg, calmCfg, defaultSteps] at this
  have hz : s.z_s = 1 / 4 := hp.z_s
  have hz0 : s.z_s_0 = 1 / 4 := by rw [hp.z_s_0, if_neg hd]; rfl
  have hzl : s.z_s_l = 0 := by rw [hp.z_s_l, if_neg hd]
  have hm : s.m_s = 75 := by rw [hp.m_s]; norm_num [restCfg, calmCfg]
  have hm0 : s.m_s_0 = 75 := by rw [hp.m_s_0, hz0]; norm_num [restCfg, calmCfg]
  have hM : restCfg.init_rho * restCfg.init_z_s = 75 := by norm_num [restCfg, calmCfg]
  have hF : FREEZE - 10 < FREEZE := by linarith
  have hcold : s.ColdAt (FREEZE - 10) :=
    ⟨hF, by rw [hr.layers]; norm_num, hr.water, hr.surface, hr.mean, by rw [hr.cc, hM, hm0], fun h2 => by rw [hr.layers] at h2; cases h2⟩
  obtain ⟨o1, o2, o3⟩ := hr.inv.one hzl
  obtain ⟨p', hp'⟩ := still_step (p := ⟨s, stillRec.toInput, none, none⟩) hr.inv (by rw [hz]; norm_num) (by rw [hz]; norm_num) (by rw [hm]; norm_num)
    hcold (by rw [o3]; norm_num [T_NONE, MIN_SNOW_TEMP, FREEZE]) rfl rfl rfl (by rw [hr.cc]; norm_num [restCfg, calmCfg, cp_ice, CAL_TO_J, FREEZE])
    (by rw [o2]) (deltaRec stillRec.toInput stillRec.toInput 1).toInput
  obtain ⟨ls, m, w1, w2⟩ := first_trace (g := restCfg) hcfg henv hs (r1 := stillRec) (r2 := stillRec)
    (rs := []) still_new still_new (by
      unfold below_thold
      rw [if_neg (by rw [hr.layers]; norm_num), if_pos (by rw [hr.layers]), hm]
      norm_num [restCfg, calmCfg]) (p' := p') (by
        have : ((restCfg.norm_time_step * 60 : ℤ) : ℝ) = 3600 := by norm_num [restCfg, calmCfg, defaultSteps]
        rw [this]; exact hp')
    (P := fun ls _ => ls = []) (fun ts m1 _ _ _ _ => ⟨[], m1, .nil _ _, rfl⟩)
  rw [w2] at w1
  have hrows : ∀ r ∈ [stillRec, stillRec], r.Balanced (FREEZE - 10) := by
    intro r hr
    have : r = stillRec := by simpa using hr
    rw [this]; exact still_balanced
  have q := (C102_equilibrium_run restCfg hcfg hmax (by norm_num [restCfg, calmCfg, defaultSteps]) _ restCfg_starts _ hrows _ m w1).1 _ (List.mem_singleton.mpr rfl) _ (List.mem_singleton.mpr rfl)
  rw [hM] at q
  exact ⟨_, m, hcfg, restCfg_starts, hrows, w1, q⟩

end

end Pysnobal
