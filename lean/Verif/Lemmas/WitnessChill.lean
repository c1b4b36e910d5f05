import Verif.Props.Unstable
import Verif.Lemmas.WitnessWind

/-! # A run step of a cold, two-layer pack in strong wind and colder air -/

namespace Pysnobal

noncomputable section

open Classical

def chillRec : Rec :=
  { S_n := 0, I_lw := STEF_BOLTZ * (FREEZE - 10) ^ 4, t_a := FREEZE - 12, e_a := 20, u := 3, t_g := FREEZE - 10
    m_pp := 0, percent_snow := 0, rho_snow := 300, t_pp := FREEZE }

theorem chill_new : InputData.new chillRec = .ok chillRec.toInput := by
  rw [new_eq, if_neg]
  rintro ⟨_, _, h⟩
  exact absurd h (by norm_num [chillRec])

theorem chill_now : chillRec.toInput.precip_now = false :=
  decide_eq_false (p := 0 < chillRec.m_pp) (by norm_num [chillRec])

/-- Saturation over ice 12 K below freezing is above 20 Pa. -/
theorem sati_chill {v : ℝ} (h : sati (FREEZE - 12) = .ok v) : 20 ≤ v := by
  have h0 : (0:ℝ) < FREEZE - 12 := by norm_num [FREEZE]
  rw [sati_cold_eq h0 (by linarith)] at h
  cases h
  have hx : -1 ≤ satiExp (FREEZE - 12) (FREEZE / (FREEZE - 12)) (Real.log (FREEZE / (FREEZE - 12))) - Real.log 6.1071 / LOG_10 := by
    unfold satiExp
    have hr : FREEZE / (FREEZE - 12) ≤ 1.05 := by norm_num [FREEZE]
    have hr1 : 1 ≤ FREEZE / (FREEZE - 12) := by norm_num [FREEZE]
    have hl : Real.log (FREEZE / (FREEZE - 12)) ≤ 0.05 := by
      have := Real.log_le_sub_one_of_pos (show 0 < FREEZE / (FREEZE - 12) by linarith)
      linarith
    have hl0 : 0 ≤ Real.log (FREEZE / (FREEZE - 12)) := Real.log_nonneg hr1
    have h10 : 1 ≤ LOG_10 := by
      unfold LOG_10
      rw [Real.le_log_iff_exp_le (by norm_num)]
      have := Real.exp_one_lt_d9.le
      linarith
    have hd : 3.56654 * Real.log (FREEZE / (FREEZE - 12)) / LOG_10 ≤ 3.56654 * 0.05 := by
      rw [div_le_iff₀ (by linarith)]
      nlinarith
    have hf : 0 ≤ 1 - (FREEZE - 12) / FREEZE := by norm_num [FREEZE]
    linarith
  have hlog : (10:ℝ) ^ (Real.log 6.1071 / LOG_10) = 6.1071 := by
    have := sati_freeze
    rw [Real.rpow_def_of_pos (by norm_num)]
    have h10 : LOG_10 ≠ 0 := by
      unfold LOG_10; exact (Real.log_pos (by norm_num)).ne'
    have : Real.log 10 * (Real.log 6.1071 / LOG_10) = Real.log 6.1071 := by
      change LOG_10 * _ = _
      field_simp
    rw [this]
    exact Real.exp_log (by norm_num)
  generalize satiExp (FREEZE - 12) (FREEZE / (FREEZE - 12)) (Real.log (FREEZE / (FREEZE - 12))) = y at hx
  have : (10:ℝ) ^ (-1 + Real.log 6.1071 / LOG_10) ≤ 10 ^ y :=
    Real.rpow_le_rpow_of_exponent_le (by norm_num) (by linarith)
  rw [Real.rpow_add (by norm_num), hlog, Real.rpow_neg_one] at this
  norm_num at this ⊢
  linarith

/-- The air of the step: saturation pressures `w` and `es`, potential temperature `θ` and negative buoyancy `B`. -/
theorem chill_air : ∃ w es θ B : ℝ, satw (FREEZE - 12) = .ok w ∧ sati (FREEZE - 10) = .ok es ∧
    θ = FREEZE - 12 + GRAVITY / CP_AIR * 4 ∧ θ - (FREEZE - 10) ≤ -1.9 ∧
    B = -((θ - (FREEZE - 10)) / θ +
      0.61 * (vapourFraction (min 20 w) SEA_LEVEL - vapourFraction es SEA_LEVEL)) ∧ 0 < B ∧
    (-0.01 ≤ vapourFraction (min 20 w) SEA_LEVEL - vapourFraction es SEA_LEVEL ∧
      vapourFraction (min 20 w) SEA_LEVEL - vapourFraction es SEA_LEVEL ≤ 0.0002) ∧
    4 ≤ 3 ^ 2 * Real.log ((4 - 4.9 * 0.005) / 0.005) /
      (2 * GRAVITY * B * Real.log ((4 - 4.9 * 0.005) / 0.005) ^ 2) := by
  have hbp : (0:ℝ) < FREEZE - 12 := by norm_num [FREEZE]
  have htp : (0:ℝ) < FREEZE - 10 := by norm_num [FREEZE]
  obtain ⟨es, hes⟩ := sati_ok_iff.mpr htp
  obtain ⟨w, hsw⟩ := satw_ok_iff.mpr hbp
  have hw0 := satw_value_pos hsw
  have hes' := (C35_relative_to_freezing _ es hes).1 (by linarith)
  have hes0 := sati_value_pos hes
  obtain ⟨ea, hea⟩ : ∃ ea, ea = min (20:ℝ) w := ⟨_, rfl⟩
  have hea0 : 0 < ea := by rw [hea]; exact lt_min (by norm_num) hw0
  have hea1 : ea ≤ 20 := by rw [hea]; exact min_le_left _ _
  have hq : ∀ e : ℝ, 0 < e → e < 610.71 → 0 < vapourFraction e SEA_LEVEL ∧ vapourFraction e SEA_LEVEL ≤ 0.01 := by
    intro e h0 h1
    unfold vapourFraction
    have hd : 0 < MOL_H2O * e + MOL_AIR * (SEA_LEVEL - e) := by norm_num [MOL_H2O, MOL_AIR, SEA_LEVEL]; linarith
    constructor
    · have : 0 < MOL_H2O * e := by norm_num [MOL_H2O]; exact h0
      positivity
    · rw [div_le_iff₀ hd]; norm_num [MOL_H2O, MOL_AIR, SEA_LEVEL]; linarith
  have hq20 : vapourFraction ea SEA_LEVEL ≤ 0.0002 := by
    unfold vapourFraction
    have hd : 0 < MOL_H2O * ea + MOL_AIR * (SEA_LEVEL - ea) := by norm_num [MOL_H2O, MOL_AIR, SEA_LEVEL]; linarith
    rw [div_le_iff₀ hd]; norm_num [MOL_H2O, MOL_AIR, SEA_LEVEL]; linarith
  have q1 := hq es hes0 hes'
  have q2 := hq ea hea0 (by linarith)
  obtain ⟨θ, hθ⟩ : ∃ θ, θ = FREEZE - 12 + GRAVITY / CP_AIR * 4 := ⟨_, rfl⟩
  have hθn : θ - (FREEZE - 10) ≤ -1.9 ∧ -2 ≤ θ - (FREEZE - 10) ∧ θ ≤ 262 ∧ 261 ≤ θ := by
    rw [hθ]; norm_num [GRAVITY, CP_AIR, FREEZE]
  obtain ⟨t1, t2, t3, t4⟩ := hθn
  obtain ⟨B, eB⟩ : ∃ B, B = -((θ - (FREEZE - 10)) / θ +
      0.61 * (vapourFraction ea SEA_LEVEL - vapourFraction es SEA_LEVEL)) := ⟨_, rfl⟩
  have hdiv : -0.0077 ≤ (θ - (FREEZE - 10)) / θ ∧ (θ - (FREEZE - 10)) / θ ≤ -0.007 := by
    constructor
    · rw [le_div_iff₀ (by linarith)]; linarith
    · rw [div_le_iff₀ (by linarith)]; linarith
  have hB1 : 0 < B := by rw [eB]; linarith [q1.1, hdiv.2]
  have hB2 : B ≤ 0.0139 := by rw [eB]; linarith [q1.2, q2.1, hdiv.1]
  have hlog : 6 ≤ Real.log ((4 - 4.9 * 0.005) / 0.005) := by
    rw [Real.le_log_iff_exp_le (by norm_num)]
    have h3 : Real.exp 6 = Real.exp 1 ^ 6 := by rw [← Real.exp_nat_mul]; norm_num
    have h1 : Real.exp 1 ≤ 2.7182818286 := Real.exp_one_lt_d9.le
    rw [h3]
    calc Real.exp 1 ^ 6 ≤ 2.7182818286 ^ 6 := by gcongr
      _ ≤ _ := by norm_num
  have hlog7 : Real.log ((4 - 4.9 * 0.005) / 0.005) ≤ 7 := by
    rw [Real.log_le_iff_le_exp (by norm_num)]
    have h3 : Real.exp 7 = Real.exp 1 ^ 7 := by rw [← Real.exp_nat_mul]; norm_num
    have h1 : 2.7182818283 ≤ Real.exp 1 := Real.exp_one_gt_d9.le
    rw [h3]
    calc _ ≤ (2.7182818283:ℝ) ^ 7 := by norm_num
      _ ≤ _ := by gcongr
  refine ⟨w, es, θ, B, hsw, hes, hθ, t1, by rw [← hea]; exact eB, hB1,
    by rw [← hea]; exact ⟨by linarith [q1.2, q2.1], by linarith [q1.1]⟩, ?_⟩
  generalize Real.log ((4 - 4.9 * 0.005) / 0.005) = P at hlog hlog7
  have := grav_pos
  have hg : GRAVITY ≤ 10 := by norm_num [GRAVITY]
  have hP0 : 0 < P := by linarith
  rw [le_div_iff₀ (by positivity)]
  have h5 : GRAVITY * B ≤ 10 * 0.0139 := mul_le_mul hg hB2 hB1.le (by norm_num)
  have h6 : GRAVITY * B * P ≤ 10 * 0.0139 * 7 := mul_le_mul h5 hlog7 (by linarith) (by norm_num)
  nlinarith

set_option maxHeartbeats 1000000 in
/-- The turbulent fluxes of the step. -/
theorem chill_hle {p : Phys} (h : WindPack p.snow) (hi : p.input1 = chillRec.toInput) (h1 : p.init_ustar = none)
    (h2 : p.init_factor = none) : ∃ r κ Δq, h_le (calmEnv 0.01) p = .ok (r, { p with
        init_ustar := some r.ustar, init_factor := some r.factor }) ∧ 0 < κ ∧ κ ≤ 0.076 ∧
      r.h = κ * (CP_AIR * (FREEZE - 12 + GRAVITY / CP_AIR * 4 - (FREEZE - 10))) ∧ r.e = κ * Δq ∧ -0.01 ≤ Δq ∧
      Δq ≤ 0.0002 := by
  have eta : p.input1.t_a = FREEZE - 12 := by rw [hi]; rfl
  have eea : p.input1.e_a = 20 := by rw [hi]; rfl
  have eu : p.input1.u = 3 := by rw [hi]; rfl
  have hbp : (0:ℝ) < FREEZE - 12 := by norm_num [FREEZE]
  have htp : (0:ℝ) < FREEZE - 10 := by norm_num [FREEZE]
  obtain ⟨sv, hsv⟩ := sati_ok_iff.mpr hbp
  obtain ⟨es, hes⟩ := sati_ok_iff.mpr htp
  obtain ⟨w, hsw⟩ := satw_ok_iff.mpr hbp
  have hw0 := satw_value_pos hsw
  have hsv' := sati_chill hsv
  have hes' := (C35_relative_to_freezing _ es hes).1 (by linarith)
  have hes0 := sati_value_pos hes
  have hm : min p.input1.e_a sv = 20 := by rw [eea]; exact min_eq_left (by linarith)
  obtain ⟨ea, hea⟩ : ∃ ea, ea = min (20:ℝ) w := ⟨_, rfl⟩
  have hea0 : 0 < ea := by rw [hea]; exact lt_min (by norm_num) hw0
  have hea1 : ea ≤ 20 := by rw [hea]; exact min_le_left _ _
  have eP : (calmEnv 0.01).P_a = SEA_LEVEL := rfl
  have ez : (calmEnv 0.01).z_0 = 0.005 := rfl
  obtain ⟨w', es', θ, B, a1, a2, hθ, t1, eB, hB1, q, hel⟩ := chill_air
  rw [hsw] at a1
  cases a1
  rw [hes] at a2
  cases a2
  rw [← hea] at q eB
  have hθn : θ ≤ 262 ∧ 261 ≤ θ := by
    rw [hθ]; norm_num [GRAVITY, CP_AIR, FREEZE]
  obtain ⟨t3, t4⟩ := hθn
  have hlog : 6 ≤ Real.log ((4 - 4.9 * 0.005) / 0.005) := by
    rw [Real.le_log_iff_exp_le (by norm_num)]
    have h3 : Real.exp 6 = Real.exp 1 ^ 6 := by rw [← Real.exp_nat_mul]; norm_num
    have h1 : Real.exp 1 ≤ 2.7182818286 := Real.exp_one_lt_d9.le
    rw [h3]
    calc Real.exp 1 ^ 6 ≤ 2.7182818286 ^ 6 := by gcongr
      _ ≤ _ := by norm_num
  obtain ⟨r, κ, k1, _, _, _, k2, _, k3, k4, k5⟩ := C67_turbulence_unstable (calmEnv 0.01) p (by norm_num [calmEnv])
    (zu := 4) (zt := 4) (sv := sv) (es := es) (w := w) (θ := θ) (B := B) (l := 4)
    (by rw [h.z_s]; norm_num [calmEnv]) (by rw [h.z_s]; norm_num [calmEnv]) (by norm_num [calmEnv])
    (by norm_num [calmEnv]) (by rw [eu]; norm_num) (by rw [eta]; exact hbp) (by rw [h.t_s_0]; exact htp)
    (by rw [eea]; norm_num) (by rw [eta]; exact hsv) (by rw [h.t_s_0]; exact hes) (by rw [eta]; exact hsw)
    (by rw [hm, eP]; norm_num [SEA_LEVEL])
    (by rw [eP]; norm_num [SEA_LEVEL]; linarith) (by rw [eta, hθ])
    (by rw [h.t_s_0]; intro he; rw [he] at t1; norm_num at t1) (by
      rw [h.t_s_0, hm, ← hea, eP]; exact eB) hB1 (by norm_num) (by rw [eu, ez]; exact hel)
    (by norm_num [calmEnv]) (by norm_num [calmEnv]) rfl rfl (.inl ⟨h1, h2⟩)
  rw [h.t_s_0] at k4
  rw [hm, ← hea, eP] at k5
  have hin : ({ p.input1 with e_a := min p.input1.e_a sv } : InputData) = p.input1 := by
    rw [hm, ← eea]
  rw [hin] at k1
  refine ⟨r, κ, _, k1, k2, k3.trans ?_, by rw [k4, hθ], k5, q.1, q.2⟩
  rw [hm, ← hea, h.t_s_0, eu, eP, ez]
  have hT : 261 ≤ √(θ * (FREEZE - 10)) := by
    apply Real.le_sqrt_of_sq_le
    norm_num [FREEZE]; nlinarith
  have hd : moistDensity (√(ea * es)) SEA_LEVEL √(θ * (FREEZE - 10)) ≤ 1.355 := by
    unfold moistDensity
    rw [← add_div, div_le_iff₀ (mul_pos (by norm_num [RGAS]) (by linarith))]
    have := Real.sqrt_nonneg (ea * es)
    have hg : RGAS * 261 ≤ RGAS * √(θ * (FREEZE - 10)) :=
      mul_le_mul_of_nonneg_left hT (by norm_num [RGAS])
    have : MOL_AIR * (SEA_LEVEL - √(ea * es)) + MOL_H2O * √(ea * es) ≤ MOL_AIR * SEA_LEVEL := by
      unfold MOL_AIR MOL_H2O; linarith
    have hn : MOL_AIR * SEA_LEVEL ≤ 1.355 * (RGAS * 261) := by norm_num [MOL_AIR, RGAS, SEA_LEVEL]
    linarith
  generalize Real.log ((4 - 4.9 * 0.005) / 0.005) = P at hlog
  have hP0 : 0 < P := by linarith
  rw [← mul_div_assoc, div_le_iff₀ hP0]
  have h3 : (0.41 : ℝ) * 3 / P ≤ 0.205 := by rw [div_le_iff₀ hP0]; linarith
  have h30 : (0 : ℝ) ≤ 0.41 * 3 / P := by positivity
  have h4 : (0.41 * 3 / P) * moistDensity (√(ea * es)) SEA_LEVEL √(θ * (FREEZE - 10)) ≤ 0.205 * 1.355 := by
    calc _ ≤ (0.41 * 3 / P) * 1.355 := mul_le_mul_of_nonneg_left hd h30
      _ ≤ _ := by linarith
  nlinarith

/-- The energy balance of the step: no conduction, no advection, no net radiation. -/
theorem chill_energy {p : Phys} (h : WindPack p.snow) (hi : p.input1 = chillRec.toInput) (h1 : p.init_ustar = none)
    (h2 : p.init_factor = none) : ∃ (r : HleOut) (κ Δq LvE : ℝ), 0 < κ ∧ κ ≤ 0.076 ∧
      r.h = κ * (CP_AIR * (FREEZE - 12 + GRAVITY / CP_AIR * 4 - (FREEZE - 10))) ∧ r.e = κ * Δq ∧ -0.01 ≤ Δq ∧ Δq ≤ 0.0002 ∧
      LvE ≤ 50 ∧ energy_balance (calmEnv 0.01) 3600 p = .ok { p with
        init_ustar := some r.ustar, init_factor := some r.factor
        snow := { p.snow with E := r.e, en := ⟨0, r.h, LvE, 0, 0, 0, r.h + LvE, r.h + LvE⟩ } } := by
  obtain ⟨r, κ, Δq, k1, k2, k3, k4, k5, k6, k7⟩ := chill_hle h hi h1 h2
  refine ⟨r, κ, Δq, r.le, k2, k3, k4, k5, k6, k7, ?_, ?_⟩
  · obtain ⟨_, _, _, _, _, _, _, _, _, hh⟩ := h_le_ok k1
    obtain ⟨_, _, _, st, _, _, _, _, e1, _, _, _, e2⟩ := hle1_ok hh
    rw [← e1] at e2
    simp only [h.t_s_0] at e2
    rw [if_pos (by linarith)] at e2
    rw [e2, k5]
    norm_num [lh_vap, lh_fus]
    nlinarith
  · have hR : net_radiation p.input1 p.snow = 0 := by
      unfold net_radiation; rw [hi, h.t_s_0]; simp [Rec.toInput, chillRec]
    have hM : advec p.input1 3600 p.snow = .ok 0 := by
      unfold advec; rw [hi, if_neg (by rw [chill_now]; simp)]
    have hsoil : SoilOK (calmEnv 0.01) p.input1 := by
      have e : p.input1.t_g = FREEZE - 10 := by rw [hi]; rfl
      refine ⟨by norm_num [calmEnv], by norm_num [calmEnv, SEA_LEVEL], by rw [e]; norm_num [FREEZE], ?_⟩
      intro v hv
      rw [e] at hv
      have := (C35_relative_to_freezing _ v hv).1 (by linarith)
      norm_num [calmEnv, SEA_LEVEL]; linarith
    have eg : p.input1.t_g = FREEZE - 10 := by rw [hi]; rfl
    have hc10 : FREEZE - 10 ≤ FREEZE := by linarith
    have hE : EnergyStart (calmEnv 0.01) p.input1 p.snow := by
      refine ⟨h.inv, hsoil, by norm_num [calmEnv], by rw [eg]; norm_num [FREEZE, BOIL], fun _ => by rw [h.m_s]; norm_num,
        fun _ => ⟨?_, ?_, ?_⟩⟩
      · rw [h.t_s_0]; norm_num [FREEZE]
      · rw [h.t_s]; norm_num [FREEZE]
      · rw [h.t_s_l]; norm_num [FREEZE]
    obtain ⟨p1, hp1⟩ := (C52_energy_balance_completes (calmEnv 0.01) calmEnv_ok 3600 (by norm_num) p hE
      (by rw [h.lc]; norm_num)).mpr ⟨_, k1⟩
    have hp1' := hp1
    rcases energy_balance_ok hp1 with ⟨_, r', q, G, G0, M, e1, e2, e3, e4⟩ | ⟨h0, _⟩
    swap
    · rw [h.lc] at h0; omega
    rw [k1] at e1
    cases e1
    rw [hM] at e3
    cases e3
    have hG : G = 0 ∧ G0 = 0 := by
      unfold heat_transfer at e2
      rw [if_neg (by rw [h.lc]; norm_num)] at e2
      obtain ⟨g, hg, e2⟩ := bind_eq_ok.mp e2
      obtain ⟨g0, hg0, e2⟩ := bind_eq_ok.mp e2
      simp only [pure_ok, Except.ok.injEq, Prod.mk.injEq] at e2
      obtain ⟨rfl, rfl⟩ := e2
      have hr : 0 < p.snow.rho := by rw [h.rho]; norm_num
      have s1 := g_soil_sign hsoil (by norm_num [calmEnv]) (by rw [eg]; norm_num [FREEZE, BOIL]) hr (b := false)
        (by rw [if_neg (by simp), h.z_s_l]; norm_num) (by rw [if_neg (by simp), h.t_s_l]; exact hc10) hg
      rw [if_neg (by simp), h.t_s_l, eg] at s1
      have s2 := g_snow_sign hsoil.press hr (by rw [h.z_s_0]; norm_num) (by rw [h.z_s_l]; norm_num)
        (by rw [h.t_s_0]; exact hc10) (by rw [h.t_s_l]; exact hc10) hg0
      rw [h.t_s_0, h.t_s_l] at s2
      exact ⟨le_antisymm (not_lt.mp fun hh => lt_irrefl _ (s1.1.mp hh)) (not_lt.mp fun hh => lt_irrefl _ (s1.2.mp hh)),
        le_antisymm (not_lt.mp fun hh => lt_irrefl _ (s2.1.mp hh)) (not_lt.mp fun hh => lt_irrefl _ (s2.2.mp hh))⟩
    obtain ⟨rfl, rfl⟩ := hG
    rw [hp1', e4, hR]
    simp

/-- The step completes. -/
theorem chill_step {p : Phys} (h : WindPack p.snow) (hi : p.input1 = chillRec.toInput) (h1 : p.init_ustar = none)
    (h2 : p.init_factor = none) (dl : InputData) : ∃ p', stepPhys (calmEnv 0.01) 3600 dl p = .ok p' := by
  have hap : applied dl p.input1 = chillRec.toInput := by
    unfold applied; rw [hi, if_neg (by rw [chill_now]; simp)]
  have hw : WindPack (stepStart dl p).snow := by
    refine ⟨h.z_s, h.rho, h.m_s, h.t_s, h.t_s_0, h.t_s_l, h.lc, h.z_s_0, h.z_s_l, h.cc_s_0, h.cc_s_l, h.h2o, ?_⟩
    exact start_inv (by norm_num [calmEnv]) h.inv
  obtain ⟨r, κ, Δq, LvE, k1, k2, k3, k4, k5, k6, k7, k8⟩ := chill_energy hw (show (stepStart dl p).input1 = _ from hap) h1 h2
  have eg : chillRec.toInput.t_g = FREEZE - 10 := rfl
  have hsoil : SoilOK (calmEnv 0.01) chillRec.toInput := by
    refine ⟨by norm_num [calmEnv], by norm_num [calmEnv, SEA_LEVEL], by rw [eg]; norm_num [FREEZE], ?_⟩
    intro v hv
    rw [eg] at hv
    have := (C35_relative_to_freezing _ v hv).1 (by linarith)
    norm_num [calmEnv, SEA_LEVEL]; linarith
  have fr : p.snow.Frozen := by
    refine ⟨?_, ?_, ?_⟩
    · rw [h.t_s_0]; norm_num [FREEZE]
    · rw [h.t_s]; norm_num [FREEZE]
    · rw [h.t_s_l]; norm_num [FREEZE]
  refine C52_step_completes (calmEnv 0.01) calmEnv_ok (by norm_num [calmEnv]) 3600 (by norm_num) dl p ?_
    (by rw [h.h2o]) (by linarith [h.cc_s_l]) (fun hn => ?_) (fun _ => ?_) (fun _ p1 hp1 T hT v hv => ?_)
  · rw [hap]
    exact ⟨h.inv, hsoil, by norm_num [calmEnv], by rw [eg]; norm_num [FREEZE, BOIL], fun _ => by rw [h.m_s]; norm_num,
      fun _ => fr⟩
  · rw [hap, chill_now] at hn; cases hn
  · obtain ⟨_, _, _, hh, _⟩ := chill_hle hw (show (stepStart dl p).input1 = _ from hap) h1 h2
    exact ⟨_, hh⟩
  · rw [k8] at hp1
    cases hp1
    have hn : 0 ≤ v := by
      have hin : (stepStart dl p).input1 = chillRec.toInput := hap
      simp only [hin] at hv
      have hT' : 0 < T ∧ T ≤ FREEZE - 10 := by
        simp only [soilTemps, List.mem_cons, List.not_mem_nil, or_false] at hT
        rcases hT with e | e | e | e <;> rw [e]
        · rw [h.t_s_0]; norm_num [FREEZE]
        · rw [h.t_s]; norm_num [FREEZE]
        · rw [h.t_s_l]; norm_num [FREEZE]
        · norm_num [T_NONE, MIN_SNOW_TEMP, FREEZE]
      exact soilExchange_nonneg hsoil (by norm_num [calmEnv]) (by norm_num) hT'.1 (by linarith [hT'.2])
        (by rw [eg]; exact hT'.2) (by rw [eg]; norm_num [FREEZE, BOIL]) hv
    have hH : r.h ≤ 213 := by
      rw [k3]
      norm_num [CP_AIR, BOIL, GRAVITY, FREEZE]
      linarith
    have hcap : meltCap 3600 { (stepStart dl p).snow with
        E := r.e, en := ⟨0, r.h, LvE, 0, 0, 0, r.h + LvE, r.h + LvE⟩ } = 0 := by
      unfold meltCap
      dsimp only
      have hcc : (stepStart dl p).snow.cc_s_0 ≤ -1500000 := h.cc_s_0
      rw [max_eq_left (by linarith), sub_self, zero_mul, max_self]
      simp
    have hE : -(r.e * 3600) ≤ 3 := by rw [k4]; nlinarith
    have hnow : (stepStart dl p).input1.precip_now = false := by
      rw [show (stepStart dl p).input1 = chillRec.toInput from hap]; exact chill_now
    have hi300 : p.snow.ice = 300 := by unfold Snow.ice; rw [h.m_s, h.h2o]; norm_num
    dsimp only
    rw [hcap, hnow, hi300, max_eq_left (by linarith : -v ≤ 0)]
    have : max 0 (-(r.e * 3600)) ≤ 3 := max_le (by norm_num) hE
    simp only [Bool.false_eq_true, if_false]
    linarith

/-- The run of one data step. -/
theorem chill_run : ∃ x m, RunTrace windCfg [chillRec, chillRec] [[x]] m ∧ x.lv = .normal ∧ WindPack x.pre.snow ∧
    stepPhys (calmEnv 0.01) 3600 (deltaRec chillRec.toInput chillRec.toInput 1).toInput x.pre = .ok x.post ∧
    x.pre.input1 = chillRec.toInput ∧ x.pre.init_ustar = none ∧ x.pre.init_factor = none := by
  obtain ⟨s, hs, hp, hinv, hd⟩ := wind_start
  have hw := wind_pack hp hinv hd
  obtain ⟨p', hp'⟩ := chill_step (p := ⟨s, chillRec.toInput, none, none⟩) hw rfl rfl rfl
    (deltaRec chillRec.toInput chillRec.toInput 1).toInput
  obtain ⟨ls, m, w1, w2⟩ := first_trace (g := windCfg) wind_tiled wind_env hs (r1 := chillRec) (r2 := chillRec)
    (rs := []) chill_new chill_new (by
      unfold below_thold
      rw [if_neg (by rw [hw.lc]; norm_num), if_neg (by rw [hw.lc]; norm_num)]
      have e1 : s.m_s_0 = 75 := by rw [hp.m_s_0, hw.z_s_0]; norm_num [windCfg, calmCfg]
      have e2 : s.m_s_l = 225 := by rw [hp.m_s_l, hw.z_s_l]; norm_num [windCfg, calmCfg]
      rw [e1, e2]
      norm_num [windCfg, calmCfg]) (p' := p') (by
        have : ((windCfg.norm_time_step * 60 : ℤ) : ℝ) = 3600 := by norm_num [windCfg, calmCfg, defaultSteps]
        rw [this]; exact hp')
    (P := fun ls _ => ls = []) (fun ts m1 _ _ _ _ => ⟨[], m1, .nil _ _, rfl⟩)
  rw [w2] at w1
  exact ⟨_, m, w1, rfl, hw, hp', rfl, rfl, rfl⟩

end

end Pysnobal
