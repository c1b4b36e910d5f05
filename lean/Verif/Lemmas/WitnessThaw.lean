import Verif.Props.Formulas
import Verif.Props.Cover
import Verif.Props.MeltBound
import Verif.Lemmas.WitnessWind

/-! # A run step of a cold, two-layer pack on warmer soil

The pack of `WitnessWind` on soil at the freezing point: heat is conducted from the soil and vapour diffuses into the
pack. -/

namespace Pysnobal

noncomputable section

open Classical

def thawRec : Rec := { windRec with t_g := FREEZE }

theorem thaw_new : InputData.new thawRec = .ok thawRec.toInput := by
  rw [new_eq, if_neg]
  rintro ⟨_, _, h⟩
  exact absurd h (by norm_num [thawRec, windRec])

theorem thaw_now : thawRec.toInput.precip_now = false :=
  decide_eq_false (p := 0 < thawRec.m_pp) (by norm_num [thawRec, windRec])

theorem thaw_soil : SoilOK (calmEnv 0.01) thawRec.toInput := calm_soil _ rfl

/-- The energy balance of the step: no advection, no net radiation, no conduction between the layers. -/
theorem thaw_energy {p p1 : Phys} (h : WindPack p.snow) (hi : p.input1 = thawRec.toInput) (h1 : p.init_ustar = none)
    (h2 : p.init_factor = none) (hp : energy_balance (calmEnv 0.01) 3600 p = .ok p1) :
    p1.input1 = p.input1 ∧ ∃ E en, p1.snow = { p.snow with E := E, en := en } ∧ -0.00002 ≤ E ∧
      0 < en.G ∧ en.G ≤ 93 ∧ en.G_0 = 0 ∧ en.delta_Q_0 ≤ 215 := by
  obtain ⟨r, κ, Δq, k1, k2, k3, k4, k5, k6, k7⟩ := wind_hle' h (by rw [hi]; rfl) (by rw [hi]; rfl) (by rw [hi]; rfl) h1 h2
  have hle : r.le ≤ 2 := by
    obtain ⟨_, _, _, _, _, _, _, _, _, hh⟩ := h_le_ok k1
    obtain ⟨_, _, _, st, _, _, _, _, e1, _, _, _, e2⟩ := hle1_ok hh
    rw [← e1] at e2
    simp only [h.t_s_0] at e2
    rw [if_pos (by linarith)] at e2
    rw [e2, k5]
    norm_num [lh_vap, lh_fus]
    nlinarith
  have hR : net_radiation p.input1 p.snow = 0 := by
    unfold net_radiation; rw [hi, h.t_s_0]; simp [Rec.toInput, thawRec, windRec]
  have hM : advec p.input1 3600 p.snow = .ok 0 := by
    unfold advec; rw [hi, if_neg (by rw [thaw_now]; simp)]
  have hsoil : SoilOK (calmEnv 0.01) p.input1 := by rw [hi]; exact thaw_soil
  have eg : p.input1.t_g = FREEZE := by rw [hi]; rfl
  have hc10 : FREEZE - 10 ≤ FREEZE := by linarith
  have hr : 0 < p.snow.rho := by rw [h.rho]; norm_num
  rcases energy_balance_ok hp with ⟨_, r', q, G, G0, M, e1, e2, e3, e4⟩ | ⟨h0, _⟩
  swap
  · rw [h.lc] at h0; omega
  rw [k1] at e1
  cases e1
  rw [hM] at e3
  cases e3
  have hG : 0 < G ∧ G ≤ 93 ∧ G0 = 0 := by
    unfold heat_transfer at e2
    rw [if_neg (by rw [h.lc]; norm_num)] at e2
    obtain ⟨g, hg, e2⟩ := bind_eq_ok.mp e2
    obtain ⟨g0, hg0, e2⟩ := bind_eq_ok.mp e2
    simp only [pure_ok, Except.ok.injEq, Prod.mk.injEq] at e2
    obtain ⟨rfl, rfl⟩ := e2
    have s1 := g_soil_sign hsoil (by norm_num [calmEnv]) (by rw [eg]; exact boil_gt.le) hr (b := false)
      (by rw [if_neg (by simp), h.z_s_l]; norm_num) (by rw [if_neg (by simp), h.t_s_l]; exact hc10) hg
    rw [if_neg (by simp), h.t_s_l, eg] at s1
    have s2 := g_snow_sign hsoil.press hr (by rw [h.z_s_0]; norm_num) (by rw [h.z_s_l]; norm_num)
      (by rw [h.t_s_0]; exact hc10) (by rw [h.t_s_l]; exact hc10) hg0
    rw [h.t_s_0, h.t_s_l] at s2
    refine ⟨s1.1.mpr (by linarith), ?_, 
      le_antisymm (not_lt.mp fun hh => lt_irrefl _ (s2.1.mp hh)) (not_lt.mp fun hh => lt_irrefl _ (s2.2.mp hh))⟩
    obtain ⟨es, el, a1, a2, a3⟩ := g_soil_law hsoil (by rw [eg]; exact boil_gt.le) hr (b := false)
      (by rw [if_neg (by simp), h.t_s_l]; exact hc10) hg
    rw [eg, sati_freeze] at a2
    cases a2
    rw [if_neg (by simp), h.t_s_l] at a1 a3
    have hes := (C35_relative_to_freezing _ es a1).1 (by linarith)
    have hes0 := sati_value_pos a1
    have e1 : (calmEnv 0.01).P_a = 101324.6 := rfl
    have e2 : (calmEnv 0.01).z_g = 0.5 := rfl
    rw [if_neg (by simp), h.z_s_l, h.rho, eg, e1, e2] at a3
    have e3 : FREEZE = 273.16 := rfl
    rw [e3] at a3
    have kg : effConduct 1.65 273.16 101324.6 610.71 ≤ 2.32 ∧ 0 < effConduct 1.65 273.16 101324.6 610.71 := by
      unfold effConduct diffusionHeat diffusivity vaporisation fusion
      norm_num
    have ks : 0 < effConduct (snowConduct 300) (273.16 - 10) 101324.6 es := by
      unfold effConduct
      have i1 : 0 < snowConduct 300 := by unfold snowConduct; norm_num
      have i2 : 0 < diffusionHeat (273.16 - 10) := by unfold diffusionHeat vaporisation fusion; norm_num
      have i3 : 0 < diffusivity 101324.6 (273.16 - 10) := by unfold diffusivity; norm_num
      have i4 : 0 < 18.0153 * es / (28.9644 * (101324.6 - es)) := by
        apply div_pos <;> linarith
      positivity
    rw [a3]
    unfold conducted
    have p1 : 0 < 0.75 / (2 * effConduct (snowConduct 300) (273.16 - 10) 101324.6 es) := by positivity
    have p2 : 0.5 / (2 * 2.32) ≤ 0.5 / (2 * effConduct 1.65 273.16 101324.6 610.71) := by
      have := kg.1; have := kg.2; gcongr
    rw [div_le_iff₀ (by linarith [show (0:ℝ) < 0.5 / (2 * 2.32) by norm_num])]
    nlinarith
  obtain ⟨g1, g2, rfl⟩ := hG
  rw [e4, hR]
  refine ⟨rfl, r.e, _, rfl, by rw [k5]; nlinarith, g1, g2, rfl, ?_⟩
  show 0 + r.h + r.le + 0 + 0 ≤ 215
  have hH : r.h ≤ 213 := by
    rw [k4]
    norm_num [CP_AIR, BOIL, GRAVITY, FREEZE]
    linarith
  linarith

/-- The step completes. -/
theorem thaw_step {p : Phys} (h : WindPack p.snow) (hi : p.input1 = thawRec.toInput) (h1 : p.init_ustar = none)
    (h2 : p.init_factor = none) (dl : InputData) : ∃ p', stepPhys (calmEnv 0.01) 3600 dl p = .ok p' := by
  have hap : applied dl p.input1 = thawRec.toInput := by
    unfold applied; rw [hi, if_neg (by rw [thaw_now]; simp)]
  have hw : WindPack (stepStart dl p).snow := by
    refine ⟨h.z_s, h.rho, h.m_s, h.t_s, h.t_s_0, h.t_s_l, h.lc, h.z_s_0, h.z_s_l, h.cc_s_0, h.cc_s_l, h.h2o, ?_⟩
    exact start_inv (by norm_num [calmEnv]) h.inv
  have eg : thawRec.toInput.t_g = FREEZE := rfl
  have fr : p.snow.Frozen := by
    refine ⟨?_, ?_, ?_⟩
    · rw [h.t_s_0]; norm_num [FREEZE]
    · rw [h.t_s]; norm_num [FREEZE]
    · rw [h.t_s_l]; norm_num [FREEZE]
  refine C52_step_completes (calmEnv 0.01) calmEnv_ok (by norm_num [calmEnv]) 3600 (by norm_num) dl p ?_
    (by rw [h.h2o]) (by linarith [h.cc_s_l]) (fun hn => ?_) (fun _ => ?_) (fun _ p1 hp1 T hT v hv => ?_)
  · rw [hap]
    exact ⟨h.inv, thaw_soil, by norm_num [calmEnv], by rw [eg]; exact boil_gt.le, fun _ => by rw [h.m_s]; norm_num,
      fun _ => fr⟩
  · rw [hap, thaw_now] at hn; cases hn
  · have hin : (stepStart dl p).input1 = thawRec.toInput := hap
    obtain ⟨_, _, _, hh, _⟩ := wind_hle' hw (by rw [hin]; rfl) (by rw [hin]; rfl) (by rw [hin]; rfl) h1 h2
    exact ⟨_, hh⟩
  · obtain ⟨ein, E, en, es, hE, g1, g2, g3, g4⟩ := thaw_energy hw (show (stepStart dl p).input1 = _ from hap) h1 h2 hp1
    have hin : p1.input1 = thawRec.toInput := ein.trans hap
    have hn : 0 ≤ v := by
      rw [hin] at hv
      have hT' : 0 < T ∧ T ≤ FREEZE := by
        simp only [soilTemps, List.mem_cons, List.not_mem_nil, or_false] at hT
        rcases hT with e | e | e | e <;> rw [e]
        · rw [h.t_s_0]; norm_num [FREEZE]
        · rw [h.t_s]; norm_num [FREEZE]
        · rw [h.t_s_l]; norm_num [FREEZE]
        · norm_num [T_NONE, MIN_SNOW_TEMP, FREEZE]
      exact soilExchange_nonneg thaw_soil (by norm_num [calmEnv]) (by norm_num) hT'.1 hT'.2
        (by rw [eg]; exact hT'.2) (by rw [eg]; exact boil_gt.le) hv
    have hcap : meltCap 3600 p1.snow ≤ 2 := by
      unfold meltCap
      rw [es]
      dsimp only
      have hcc : (stepStart dl p).snow.cc_s_0 ≤ -1500000 := h.cc_s_0
      rw [max_eq_left (by linarith), g3, max_eq_right (by linarith), lf_eq, div_le_iff₀ (by norm_num)]
      linarith
    have hi300 : p.snow.ice = 300 := by unfold Snow.ice; rw [h.m_s, h.h2o]; norm_num
    rw [hin, thaw_now, hi300, max_eq_left (by linarith : -v ≤ 0), es]
    rw [es] at hcap
    have : max 0 (-(E * 3600)) ≤ 1 := max_le (by norm_num) (by linarith)
    simp only [Bool.false_eq_true, if_false]
    linarith

/-- The cover lasts. -/
theorem thaw_cover {p p' : Phys} (h : WindPack p.snow) (hi : p.input1 = thawRec.toInput) (h1 : p.init_ustar = none)
    (h2 : p.init_factor = none) {dl : InputData} (hp : stepPhys (calmEnv 0.01) 3600 dl p = .ok p') :
    p'.input1 = thawRec.toInput ∧ p'.snow.snowcover = true := by
  have hap : applied dl p.input1 = thawRec.toInput := by
    unfold applied; rw [hi, if_neg (by rw [thaw_now]; simp)]
  have hw : WindPack (stepStart dl p).snow := by
    refine ⟨h.z_s, h.rho, h.m_s, h.t_s, h.t_s_0, h.t_s_l, h.lc, h.z_s_0, h.z_s_l, h.cc_s_0, h.cc_s_l, h.h2o, ?_⟩
    exact start_inv (by norm_num [calmEnv]) h.inv
  have hmax : 0 < (calmEnv 0.01).max_z_s_0 := by norm_num [calmEnv]
  obtain ⟨p1, q1, q2, q3⟩ := stepPhys_ok hp
  obtain ⟨ein, E, en, es, hE, g1, g2, g3, g4⟩ := thaw_energy hw (show (stepStart dl p).input1 = _ from hap) h1 h2 q1
  have hin : p'.input1 = thawRec.toInput := by rw [q3]; exact ein.trans hap
  refine ⟨hin, ?_⟩
  obtain ⟨s0, s1, s2, s3, s4, s5, s6, k⟩ := step_chain hmax h.inv hp
  obtain ⟨f1, f2⟩ := mass_balance_flux q2
  have hen : p'.snow.en = en := by rw [f1, es]
  have hE' : p'.snow.E = E := by rw [f2, es]
  have hgT : thawRec.toInput.t_g = FREEZE := rfl
  have hmelt := k.melt_bound hmax (by norm_num [calmEnv]) (by linarith [h.cc_s_l]) (by rw [h.t_s]; norm_num [FREEZE])
  rw [hen, lf_eq, g3, max_eq_left (by linarith [h.cc_s_0]), max_eq_right (by linarith)] at hmelt
  obtain ⟨_, _, m3, m4⟩ := k.melt_en hmax
  have hEs : -1 ≤ p'.snow.E_s := by
    cases hf : s3.snowcover
    · rw [k.dead3 hf]; norm_num
    · rcases evap_cond_out hmax k.i3 k.ec with ⟨hf', _⟩ | ⟨_, el, w, hel, _, _, e4, _⟩
      · rw [hf] at hf'; cases hf'
      have hT := k.base_temp hmax hf
      have hT' : 0 < (if s3.layer_count = 2 then s3.t_s_l else s3.t_s_0) ∧
          (if s3.layer_count = 2 then s3.t_s_l else s3.t_s_0) ≤ FREEZE := by
        have : (if s3.layer_count = 2 then s3.t_s_l else s3.t_s_0) = FREEZE - 10 := by
          unfold packTemps at hT
          rw [if_pos h.lc] at hT
          simpa [h.t_s_0, h.t_s, h.t_s_l] using hT
        rw [this]; norm_num [FREEZE]
      rw [soilEvap_eq, hin] at hel
      have := soilExchange_nonneg thaw_soil (by norm_num [calmEnv]) (by norm_num) hT'.1 hT'.2
        (by rw [hgT]; exact hT'.2) (by rw [hgT]; exact boil_gt.le) hel
      rw [m4, e4, ← m3, hE']
      linarith
  refine (k.lasts calmEnv_ok (by norm_num) (fun hn => ?_) (by rw [h.lc]; norm_num) ?_
    (M := 300) ?_).1 ?_ ?_
  · rw [hin, thaw_now] at hn; cases hn
  · rw [h.m_s]; norm_num [calmEnv]
  · rw [hin, thaw_now, h.m_s]; simp
  · linarith
  · norm_num [calmEnv]; linarith

/-- The run of one data step. -/
theorem thaw_run : ∃ x m, RunTrace windCfg [thawRec, thawRec] [[x]] m ∧ x.lv = .normal ∧ WindPack x.pre.snow ∧
    x.post.input1 = thawRec.toInput ∧ x.post.snow.snowcover = true := by
  obtain ⟨s, hs, hp, hinv, hd⟩ := wind_start
  have hw := wind_pack hp hinv hd
  obtain ⟨p', hp'⟩ := thaw_step (p := ⟨s, thawRec.toInput, none, none⟩) hw rfl rfl rfl
    (deltaRec thawRec.toInput thawRec.toInput 1).toInput
  obtain ⟨ls, m, w1, w2⟩ := first_trace (g := windCfg) wind_tiled wind_env hs (r1 := thawRec) (r2 := thawRec)
    (rs := []) thaw_new thaw_new (by
      unfold below_thold
      rw [if_neg (by rw [hw.lc]; norm_num), if_neg (by rw [hw.lc]; norm_num)]
      have e1 : s.m_s_0 = 75 := by rw [hp.m_s_0, hw.z_s_0]; norm_num [windCfg, calmCfg]
      have e2 : s.m_s_l = 225 := by rw [hp.m_s_l, hw.z_s_l]; norm_num [windCfg, calmCfg]
      rw [e1, e2]
      norm_num [windCfg, calmCfg]) (p' := p') (by
        have : ((windCfg.norm_time_step * 60 : ℤ) : ℝ) = 3600 := by norm_num [windCfg, calmCfg, defaultSteps]
        rw [this]; exact hp')
    (P := fun ls _ => ls = []) (fun ts m1 _ _ _ _ => ⟨[], m1, .nil _ _, rfl⟩)
  rw [w2] at w1
  obtain ⟨a1, a2⟩ := thaw_cover (p := ⟨s, thawRec.toInput, none, none⟩) hw rfl rfl rfl hp'
  exact ⟨_, m, w1, rfl, hw, a1, a2⟩

end

end Pysnobal
