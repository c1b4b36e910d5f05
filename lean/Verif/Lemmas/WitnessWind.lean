import Verif.Props.Exchange
import Verif.Props.Start
import Verif.Props.Vapour
import Verif.Props.Progress
import Verif.Lemmas.WitnessRich

/-! # A run step of a cold, two-layer pack in wind

A metre of snow at 10 K below freezing, in two layers, under warm and dry moving air.  Everything the step does is
derived from the theorems about the step. -/

namespace Pysnobal

noncomputable section

open Classical

def windCfg : Config :=
  { calmCfg 60 0.01 1 300 0 with init_t_s_0 := FREEZE - 10, init_t_s := FREEZE - 10, init_t_s_l := some (FREEZE - 10) }

def windRec : Rec :=
  { S_n := 0, I_lw := STEF_BOLTZ * (FREEZE - 10) ^ 4, t_a := BOIL, e_a := 20, u := 0.3, t_g := FREEZE - 10
    m_pp := 0, percent_snow := 0, rho_snow := 300, t_pp := FREEZE }

theorem wind_env : mkEnv windCfg = .ok (calmEnv 0.01) := calmCfg_env 60 0.01 1 300 0

theorem wind_tiled : windCfg.Tiled := defaultSteps_tiled

theorem wind_new : InputData.new windRec = .ok windRec.toInput := by
  rw [new_eq, if_neg]
  rintro ⟨_, _, h⟩
  exact absurd h (by norm_num [windRec])

theorem wind_now : windRec.toInput.precip_now = false :=
  decide_eq_false (p := 0 < windRec.m_pp) (by norm_num [windRec])

/-- The initial pack. -/
theorem wind_start : ∃ s, init_snow (calmEnv 0.01) (recordSnow windCfg) = .ok s ∧ StartPack windCfg s ∧
    Inv (calmEnv 0.01) s ∧ windCfg.StartsDeep := by
  obtain ⟨s, hs⟩ := init_snow_total (calmEnv 0.01) (recordSnow windCfg) (by
    simp [recordSnow, windCfg, calmCfg])
  refine ⟨s, hs, start_layers wind_env ?_ ?_ hs, init_snow_inv (by norm_num [calmEnv]) hs rfl, ?_⟩
  · norm_num [windCfg, calmCfg, defaultSteps]
  · constructor <;> norm_num [windCfg, calmCfg, defaultSteps]
  · constructor <;> norm_num [windCfg, calmCfg, defaultSteps]

/-- The pack at the start of the step. -/
structure WindPack (s : Snow) : Prop where
  z_s : s.z_s = 1
  rho : s.rho = 300
  m_s : s.m_s = 300
  t_s : s.t_s = FREEZE - 10
  t_s_0 : s.t_s_0 = FREEZE - 10
  t_s_l : s.t_s_l = FREEZE - 10
  lc : s.layer_count = 2
  z_s_0 : s.z_s_0 = 0.25
  z_s_l : s.z_s_l = 0.75
  cc_s_0 : s.cc_s_0 ≤ -1500000
  cc_s_l : s.cc_s_l ≤ -4500000
  h2o : s.h2o = 0
  inv : Inv (calmEnv 0.01) s

theorem wind_pack {s : Snow} (p : StartPack windCfg s) (h : Inv (calmEnv 0.01) s) (hd : windCfg.StartsDeep) :
    WindPack s := by
  have e0 : s.z_s_0 = 0.25 := by rw [p.z_s_0, if_pos hd]; norm_num [windCfg, calmCfg, defaultSteps]
  have el : s.z_s_l = 0.75 := by rw [p.z_s_l, if_pos hd]; norm_num [windCfg, calmCfg, defaultSteps]
  have tl : s.t_s_l = FREEZE - 10 := by rw [p.t_s_l hd]; rfl
  have hcold : FREEZE - 10 < FREEZE := by linarith
  refine ⟨p.z_s, p.rho, ?_, p.t_s, p.t_s_0, tl, by rw [p.layers, if_pos hd], e0, el, ?_, ?_, ?_, h⟩
  · rw [p.m_s]; norm_num [windCfg, calmCfg]
  · rw [p.cc_s_0, p.m_s_0, e0]
    show coldAt (FREEZE - 10) (300 * 0.25) ≤ _
    unfold coldAt
    rw [if_pos hcold]
    norm_num [cp_ice, CAL_TO_J, FREEZE]
  · rw [p.cc_s_l, if_pos hd, tl, p.m_s_l, el]
    show coldAt (FREEZE - 10) (300 * 0.75) ≤ _
    unfold coldAt
    rw [if_pos hcold]
    norm_num [cp_ice, CAL_TO_J, FREEZE]
  · rw [p.h2o]; simp [windCfg, calmCfg]

/-- The turbulent fluxes of a step in this air. -/
theorem wind_hle' {p : Phys} (h : WindPack p.snow) (eta : p.input1.t_a = BOIL) (eea : p.input1.e_a = 20)
    (eu : p.input1.u = 0.3) (h1 : p.init_ustar = none)
    (h2 : p.init_factor = none) : ∃ r κ Δq, h_le (calmEnv 0.01) p = .ok (r, { p with
        init_ustar := some r.ustar, init_factor := some r.factor }) ∧ 0 < κ ∧ κ ≤ 0.0019 ∧
      r.h = κ * (CP_AIR * (BOIL + GRAVITY / CP_AIR * 4 - (FREEZE - 10))) ∧ r.e = κ * Δq ∧ -0.01 ≤ Δq ∧ Δq ≤ 0.0002 := by
  have hbp : (0:ℝ) < BOIL := by norm_num [BOIL]
  have htp : (0:ℝ) < FREEZE - 10 := by norm_num [FREEZE]
  obtain ⟨sv, hsv⟩ := sati_ok_iff.mpr hbp
  obtain ⟨es, hes⟩ := sati_ok_iff.mpr htp
  have hsv' := (C35_relative_to_freezing BOIL sv hsv).2 (by norm_num [FREEZE, BOIL]) (le_refl _)
  have hes' := (C35_relative_to_freezing _ es hes).1 (by linarith)
  have hes0 := sati_value_pos hes
  have hm : min p.input1.e_a sv = 20 := by rw [eea]; exact min_eq_left (by linarith)
  have hm' : min (20:ℝ) SEA_LEVEL = 20 := min_eq_left (by norm_num [SEA_LEVEL])
  have eP : (calmEnv 0.01).P_a = SEA_LEVEL := rfl
  have ez : (calmEnv 0.01).z_0 = 0.005 := rfl
  have hq : ∀ e : ℝ, 0 < e → e < 610.71 → 0 < vapourFraction e SEA_LEVEL ∧ vapourFraction e SEA_LEVEL ≤ 0.01 := by
    intro e h0 h1
    unfold vapourFraction
    have hd : 0 < MOL_H2O * e + MOL_AIR * (SEA_LEVEL - e) := by norm_num [MOL_H2O, MOL_AIR, SEA_LEVEL]; linarith
    constructor
    · have : 0 < MOL_H2O * e := by norm_num [MOL_H2O]; exact h0
      positivity
    · rw [div_le_iff₀ hd]; norm_num [MOL_H2O, MOL_AIR, SEA_LEVEL]; linarith
  have hq20 : vapourFraction 20 SEA_LEVEL ≤ 0.0002 := by
    unfold vapourFraction; norm_num [MOL_H2O, MOL_AIR, SEA_LEVEL]
  have q1 := hq es hes0 hes'
  have q2 := hq 20 (by norm_num) (by norm_num)
  obtain ⟨θ, hθ⟩ : ∃ θ, θ = BOIL + GRAVITY / CP_AIR * 4 := ⟨_, rfl⟩
  have hθn : θ - (FREEZE - 10) ≤ 111 ∧ 110 ≤ θ - (FREEZE - 10) ∧ θ ≤ 400 ∧ 300 ≤ θ := by
    rw [hθ]; norm_num [BOIL, GRAVITY, CP_AIR, FREEZE]
  obtain ⟨t1, t2, t3, t4⟩ := hθn
  obtain ⟨r, κ, k1, k2, k3, k4, k5⟩ := C52_turbulence_stratified (calmEnv 0.01) p (by norm_num [calmEnv])
    (zu := 4) (zt := 4) (sv := sv) (es := es) (w := SEA_LEVEL) (θ := θ)
    (by rw [h.z_s]; norm_num [calmEnv]) (by rw [h.z_s]; norm_num [calmEnv]) (by norm_num [calmEnv])
    (by norm_num [calmEnv]) (by rw [eu]; norm_num) (by rw [eta]; exact hbp) (by rw [h.t_s_0]; exact htp)
    (by rw [eea]; norm_num) (by rw [eta]; exact hsv) (by rw [h.t_s_0]; exact hes) (by rw [eta]; exact satw_boil)
    (by rw [hm, eP]; norm_num [SEA_LEVEL])
    (by rw [eP]; norm_num [SEA_LEVEL]; linarith) (by rw [eta, hθ])
    (by rw [h.t_s_0]; intro he; rw [he] at t2; norm_num at t2) (by
      rw [h.t_s_0, hm, hm', eP]
      have : 0.2 ≤ (θ - (FREEZE - 10)) / θ := by
        rw [le_div_iff₀ (by linarith)]; linarith
      linarith [q1.2, q2.1]) (.inl ⟨h1, h2⟩)
  rw [h.t_s_0] at k4
  rw [hm, hm', eP] at k5
  have hin : ({ p.input1 with e_a := min p.input1.e_a sv } : InputData) = p.input1 := by
    rw [hm, ← eea]
  rw [hin] at k1
  refine ⟨r, κ, _, k1, k2, k3.trans ?_, by rw [k4, hθ], k5, by linarith [q1.2, q2.1], by linarith [q1.1]⟩
  rw [hm, hm', h.t_s_0, eu, eP, ez]
  have hlog : 6 ≤ Real.log ((4 - 4.9 * 0.005) / 0.005) := by
    rw [Real.le_log_iff_exp_le (by norm_num)]
    have h3 : Real.exp 6 = Real.exp 1 ^ 6 := by rw [← Real.exp_nat_mul]; norm_num
    have h1 : Real.exp 1 ≤ 2.7182818286 := Real.exp_one_lt_d9.le
    rw [h3]
    calc Real.exp 1 ^ 6 ≤ 2.7182818286 ^ 6 := by gcongr
      _ ≤ _ := by norm_num
  have hT : 263 ≤ √(θ * (FREEZE - 10)) := by
    apply Real.le_sqrt_of_sq_le
    norm_num [FREEZE]; nlinarith
  have hd : moistDensity (√(20 * es)) SEA_LEVEL √(θ * (FREEZE - 10)) ≤ 1.345 := by
    unfold moistDensity
    rw [← add_div, div_le_iff₀ (mul_pos (by norm_num [RGAS]) (by linarith))]
    have := Real.sqrt_nonneg (20 * es)
    have hg : RGAS * 263 ≤ RGAS * √(θ * (FREEZE - 10)) :=
      mul_le_mul_of_nonneg_left hT (by norm_num [RGAS])
    have : MOL_AIR * (SEA_LEVEL - √(20 * es)) + MOL_H2O * √(20 * es) ≤ MOL_AIR * SEA_LEVEL := by
      unfold MOL_AIR MOL_H2O; linarith
    have hn : MOL_AIR * SEA_LEVEL ≤ 1.345 * (RGAS * 263) := by norm_num [MOL_AIR, RGAS, SEA_LEVEL]
    linarith
  have hl36 : 36 ≤ Real.log ((4 - 4.9 * 0.005) / 0.005) * Real.log ((4 - 4.9 * 0.005) / 0.005) := by nlinarith
  rw [div_le_iff₀ (by linarith)]
  nlinarith

/-- The turbulent fluxes of the step. -/
theorem wind_hle {p : Phys} (h : WindPack p.snow) (hi : p.input1 = windRec.toInput) (h1 : p.init_ustar = none)
    (h2 : p.init_factor = none) : ∃ r κ Δq, h_le (calmEnv 0.01) p = .ok (r, { p with
        init_ustar := some r.ustar, init_factor := some r.factor }) ∧ 0 < κ ∧ κ ≤ 0.0019 ∧
      r.h = κ * (CP_AIR * (BOIL + GRAVITY / CP_AIR * 4 - (FREEZE - 10))) ∧ r.e = κ * Δq ∧ -0.01 ≤ Δq ∧ Δq ≤ 0.0002 :=
  wind_hle' h (by rw [hi]; rfl) (by rw [hi]; rfl) (by rw [hi]; rfl) h1 h2

/-- The energy balance of the step: no conduction, no advection, no net radiation. -/
theorem wind_energy {p : Phys} (h : WindPack p.snow) (hi : p.input1 = windRec.toInput) (h1 : p.init_ustar = none)
    (h2 : p.init_factor = none) : ∃ (r : HleOut) (κ Δq LvE : ℝ), 0 < κ ∧ κ ≤ 0.0019 ∧
      r.h = κ * (CP_AIR * (BOIL + GRAVITY / CP_AIR * 4 - (FREEZE - 10))) ∧ r.e = κ * Δq ∧ -0.01 ≤ Δq ∧ Δq ≤ 0.0002 ∧
      LvE ≤ 2 ∧ energy_balance (calmEnv 0.01) 3600 p = .ok { p with
        init_ustar := some r.ustar, init_factor := some r.factor
        snow := { p.snow with E := r.e, en := ⟨0, r.h, LvE, 0, 0, 0, r.h + LvE, r.h + LvE⟩ } } := by
  obtain ⟨r, κ, Δq, k1, k2, k3, k4, k5, k6, k7⟩ := wind_hle h hi h1 h2
  refine ⟨r, κ, Δq, r.le, k2, k3, k4, k5, k6, k7, ?_, ?_⟩
  · obtain ⟨_, _, _, _, _, _, _, _, _, hh⟩ := h_le_ok k1
    obtain ⟨_, _, _, st, _, _, _, _, e1, _, _, _, e2⟩ := hle1_ok hh
    rw [← e1] at e2
    simp only [h.t_s_0] at e2
    rw [if_pos (by linarith)] at e2
    rw [e2, k5]
    norm_num [lh_vap, lh_fus]
    nlinarith
  · have hR : net_radiation p.input1 p.snow = 0 := by
      unfold net_radiation; rw [hi, h.t_s_0]; simp [Rec.toInput, windRec]
    have hM : advec p.input1 3600 p.snow = .ok 0 := by
      unfold advec; rw [hi, if_neg (by rw [wind_now]; simp)]
    have hsoil : SoilOK (calmEnv 0.01) p.input1 := by
      have e : p.input1.t_g = FREEZE - 10 := by rw [hi]; rfl
      refine ⟨by norm_num [calmEnv], by norm_num [calmEnv, SEA_LEVEL], by rw [e]; norm_num [FREEZE], ?_⟩
      intro v hv
      rw [e] at hv
      have := (C35_relative_to_freezing _ v hv).1 (by linarith)
      norm_num [calmEnv, SEA_LEVEL]; linarith
    have eg : p.input1.t_g = FREEZE - 10 := by rw [hi]; rfl
    have hc10 : FREEZE - 10 ≤ FREEZE := by linarith
    have hE : EnergyStart (calmEnv 0.01) p.input1 p.snow := by
      refine ⟨h.inv, hsoil, by norm_num [calmEnv], by rw [eg]; norm_num [FREEZE, BOIL], fun _ => by rw [h.m_s]; norm_num,
        fun _ => ⟨?_, ?_, ?_⟩⟩
      · rw [h.t_s_0]; norm_num [FREEZE]
      · rw [h.t_s]; norm_num [FREEZE]
      · rw [h.t_s_l]; norm_num [FREEZE]
    obtain ⟨p1, hp1⟩ := (C52_energy_balance_completes (calmEnv 0.01) calmEnv_ok 3600 (by norm_num) p hE
      (by rw [h.lc]; norm_num)).mpr ⟨_, k1⟩
    have hp1' := hp1
    rcases energy_balance_ok hp1 with ⟨_, r', q, G, G0, M, e1, e2, e3, e4⟩ | ⟨h0, _⟩
    swap
    · rw [h.lc] at h0; omega
    rw [k1] at e1
    cases e1
    rw [hM] at e3
    cases e3
    have hG : G = 0 ∧ G0 = 0 := by
      unfold heat_transfer at e2
      rw [if_neg (by rw [h.lc]; norm_num)] at e2
      obtain ⟨g, hg, e2⟩ := bind_eq_ok.mp e2
      obtain ⟨g0, hg0, e2⟩ := bind_eq_ok.mp e2
      simp only [pure_ok, Except.ok.injEq, Prod.mk.injEq] at e2
      obtain ⟨rfl, rfl⟩ := e2
      have hr : 0 < p.snow.rho := by rw [h.rho]; norm_num
      have s1 := g_soil_sign hsoil (by norm_num [calmEnv]) (by rw [eg]; norm_num [FREEZE, BOIL]) hr (b := false)
        (by rw [if_neg (by simp), h.z_s_l]; norm_num) (by rw [if_neg (by simp), h.t_s_l]; exact hc10) hg
      rw [if_neg (by simp), h.t_s_l, eg] at s1
      have s2 := g_snow_sign hsoil.press hr (by rw [h.z_s_0]; norm_num) (by rw [h.z_s_l]; norm_num)
        (by rw [h.t_s_0]; exact hc10) (by rw [h.t_s_l]; exact hc10) hg0
      rw [h.t_s_0, h.t_s_l] at s2
      exact ⟨le_antisymm (not_lt.mp fun hh => lt_irrefl _ (s1.1.mp hh)) (not_lt.mp fun hh => lt_irrefl _ (s1.2.mp hh)),
        le_antisymm (not_lt.mp fun hh => lt_irrefl _ (s2.1.mp hh)) (not_lt.mp fun hh => lt_irrefl _ (s2.2.mp hh))⟩
    obtain ⟨rfl, rfl⟩ := hG
    rw [hp1', e4, hR]
    simp

/-- The step completes. -/
theorem wind_step {p : Phys} (h : WindPack p.snow) (hi : p.input1 = windRec.toInput) (h1 : p.init_ustar = none)
    (h2 : p.init_factor = none) (dl : InputData) : ∃ p', stepPhys (calmEnv 0.01) 3600 dl p = .ok p' := by
  have hap : applied dl p.input1 = windRec.toInput := by
    unfold applied; rw [hi, if_neg (by rw [wind_now]; simp)]
  have hw : WindPack (stepStart dl p).snow := by
    refine ⟨h.z_s, h.rho, h.m_s, h.t_s, h.t_s_0, h.t_s_l, h.lc, h.z_s_0, h.z_s_l, h.cc_s_0, h.cc_s_l, h.h2o, ?_⟩
    exact start_inv (by norm_num [calmEnv]) h.inv
  obtain ⟨r, κ, Δq, LvE, k1, k2, k3, k4, k5, k6, k7, k8⟩ := wind_energy hw (show (stepStart dl p).input1 = _ from hap) h1 h2
  have eg : windRec.toInput.t_g = FREEZE - 10 := rfl
  have hsoil : SoilOK (calmEnv 0.01) windRec.toInput := by
    refine ⟨by norm_num [calmEnv], by norm_num [calmEnv, SEA_LEVEL], by rw [eg]; norm_num [FREEZE], ?_⟩
    intro v hv
    rw [eg] at hv
    have := (C35_relative_to_freezing _ v hv).1 (by linarith)
    norm_num [calmEnv, SEA_LEVEL]; linarith
  have fr : p.snow.Frozen := by
    refine ⟨?_, ?_, ?_⟩
    · rw [h.t_s_0]; norm_num [FREEZE]
    · rw [h.t_s]; norm_num [FREEZE]
    · rw [h.t_s_l]; norm_num [FREEZE]
  refine C52_step_completes (calmEnv 0.01) calmEnv_ok (by norm_num [calmEnv]) 3600 (by norm_num) dl p ?_
    (by rw [h.h2o]) (by linarith [h.cc_s_l]) (fun hn => ?_) (fun _ => ?_) (fun _ p1 hp1 T hT v hv => ?_)
  · rw [hap]
    exact ⟨h.inv, hsoil, by norm_num [calmEnv], by rw [eg]; norm_num [FREEZE, BOIL], fun _ => by rw [h.m_s]; norm_num,
      fun _ => fr⟩
  · rw [hap, wind_now] at hn; cases hn
  · obtain ⟨_, _, _, hh, _⟩ := wind_hle hw (show (stepStart dl p).input1 = _ from hap) h1 h2
    exact ⟨_, hh⟩
  · rw [k8] at hp1
    cases hp1
    have hn : 0 ≤ v := by
      have hin : (stepStart dl p).input1 = windRec.toInput := hap
      simp only [hin] at hv
      have hT' : 0 < T ∧ T ≤ FREEZE - 10 := by
        simp only [soilTemps, List.mem_cons, List.not_mem_nil, or_false] at hT
        rcases hT with e | e | e | e <;> rw [e]
        · rw [h.t_s_0]; norm_num [FREEZE]
        · rw [h.t_s]; norm_num [FREEZE]
        · rw [h.t_s_l]; norm_num [FREEZE]
        · norm_num [T_NONE, MIN_SNOW_TEMP, FREEZE]
      exact soilExchange_nonneg hsoil (by norm_num [calmEnv]) (by norm_num) hT'.1 (by linarith [hT'.2])
        (by rw [eg]; exact hT'.2) (by rw [eg]; norm_num [FREEZE, BOIL]) hv
    have hH : r.h ≤ 213 := by
      rw [k3]
      norm_num [CP_AIR, BOIL, GRAVITY, FREEZE]
      linarith
    have hcap : meltCap 3600 { (stepStart dl p).snow with
        E := r.e, en := ⟨0, r.h, LvE, 0, 0, 0, r.h + LvE, r.h + LvE⟩ } = 0 := by
      unfold meltCap
      dsimp only
      have hcc : (stepStart dl p).snow.cc_s_0 ≤ -1500000 := h.cc_s_0
      rw [max_eq_left (by linarith), sub_self, zero_mul, max_self]
      simp
    have hE : -(r.e * 3600) ≤ 1 := by rw [k4]; nlinarith
    have hnow : (stepStart dl p).input1.precip_now = false := by
      rw [show (stepStart dl p).input1 = windRec.toInput from hap]; exact wind_now
    have hi300 : p.snow.ice = 300 := by unfold Snow.ice; rw [h.m_s, h.h2o]; norm_num
    dsimp only
    rw [hcap, hnow, hi300, max_eq_left (by linarith : -v ≤ 0)]
    have : max 0 (-(r.e * 3600)) ≤ 1 := max_le (by norm_num) hE
    simp only [Bool.false_eq_true, if_false]
    linarith

/-- The run of one data step. -/
theorem wind_run : ∃ x m, RunTrace windCfg [windRec, windRec] [[x]] m ∧ x.lv = .normal ∧ WindPack x.pre.snow ∧
    stepPhys (calmEnv 0.01) 3600 (deltaRec windRec.toInput windRec.toInput 1).toInput x.pre = .ok x.post ∧
    x.pre.input1 = windRec.toInput ∧ x.pre.init_ustar = none ∧ x.pre.init_factor = none := by
  obtain ⟨s, hs, hp, hinv, hd⟩ := wind_start
  have hw := wind_pack hp hinv hd
  obtain ⟨p', hp'⟩ := wind_step (p := ⟨s, windRec.toInput, none, none⟩) hw rfl rfl rfl
    (deltaRec windRec.toInput windRec.toInput 1).toInput
  obtain ⟨ls, m, w1, w2⟩ := first_trace (g := windCfg) wind_tiled wind_env hs (r1 := windRec) (r2 := windRec)
    (rs := []) wind_new wind_new (by
      unfold below_thold
      rw [if_neg (by rw [hw.lc]; norm_num), if_neg (by rw [hw.lc]; norm_num)]
      have e1 : s.m_s_0 = 75 := by rw [hp.m_s_0, hw.z_s_0]; norm_num [windCfg, calmCfg]
      have e2 : s.m_s_l = 225 := by rw [hp.m_s_l, hw.z_s_l]; norm_num [windCfg, calmCfg]
      rw [e1, e2]
      norm_num [windCfg, calmCfg]) (p' := p') (by
        have : ((windCfg.norm_time_step * 60 : ℤ) : ℝ) = 3600 := by norm_num [windCfg, calmCfg, defaultSteps]
        rw [this]; exact hp')
    (P := fun ls _ => ls = []) (fun ts m1 _ _ _ _ => ⟨[], m1, .nil _ _, rfl⟩)
  rw [w2] at w1
  exact ⟨_, m, w1, rfl, hw, hp', rfl, rfl, rfl⟩

end

end Pysnobal
