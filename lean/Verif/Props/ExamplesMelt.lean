import Verif.Props.Thaw
import Verif.Lemmas.WitnessThaw

/-! # Examples for C83: a cold shallow pack in a thaw -/

namespace Pysnobal

noncomputable section

open Classical

/-- 20 cm of snow of 400 kg/m³ at 10 K below freezing. -/
def coldCfg : Config := { calmCfg 60 0.01 0.2 400 0 with init_t_s_0 := FREEZE - 10, init_t_s := FREEZE - 10 }

/-- Air and ground at the freezing point, saturated air, hardly any wind, a sky that radiates as much as melting snow. -/
def mildRec : Rec :=
  { S_n := 0, I_lw := STEF_BOLTZ * FREEZE ^ 4, t_a := FREEZE, e_a := 610.71, u := 0.001, t_g := FREEZE
    m_pp := 0, percent_snow := 0, rho_snow := 300, t_pp := FREEZE }

theorem cold_env : mkEnv coldCfg = .ok (calmEnv 0.01) := calmCfg_env 60 0.01 0.2 400 0

theorem cold_tiled : coldCfg.Tiled := defaultSteps_tiled

theorem coldCfg_ok : coldCfg.AdmissibleStart ∧ coldCfg.ColdStart ∧ coldCfg.ThawStart := by
  refine ⟨⟨⟨?_, ?_, ?_, ?_⟩, ?_, ?_, ?_⟩, ⟨⟨?_, ?_⟩, ?_, ?_⟩, ⟨?_, ?_, ?_, ?_, ?_⟩⟩ <;>
    norm_num [coldCfg, calmCfg, defaultSteps, RHO_W0, RHO_ICE, FREEZE]
  intro t h; cases h

theorem mild_new : InputData.new mildRec = .ok mildRec.toInput := by
  rw [new_eq, if_neg]
  rintro ⟨_, _, h⟩
  exact absurd h (by norm_num [mildRec])

theorem mild_now : mildRec.toInput.precip_now = false :=
  decide_eq_false (p := 0 < mildRec.m_pp) (by norm_num [mildRec])

theorem mild_soil : SoilOK (calmEnv 0.01) mildRec.toInput := calm_soil _ rfl

theorem mild_rec : mildRec.Thaw (calmEnv 0.01).P_a := by
  refine ⟨le_refl _, le_refl _, le_refl _, ⟨le_refl _, boil_gt.le⟩, by norm_num [mildRec], ⟨le_refl _, boil_gt.le, ?_⟩, le_refl _, ?_⟩
  · intro e he
    rw [show mildRec.t_g = FREEZE from rfl, sati_freeze] at he
    cases he
    norm_num [calmEnv, SEA_LEVEL]
  · norm_num [calmEnv, SEA_LEVEL, mildRec]

theorem mild_unsat : Unsaturated [mildRec, mildRec] := by
  intro r hr q hq sv hsv
  have e1 : r = mildRec := by simpa using hr
  have e2 : q = mildRec := by simpa using hq
  rw [e2, show mildRec.t_a = FREEZE from rfl, sati_freeze] at hsv
  cases hsv
  rw [e1]; exact le_refl _

theorem mild_rows : ThawRows (calmEnv 0.01).P_a [mildRec, mildRec, mildRec] := by
  refine ⟨fun r hr => ?_, ?_⟩
  · have : r = mildRec := by simpa using hr
    rw [this]; exact mild_rec
  · simp [mild_unsat]

theorem mild_in : ThawIn (calmEnv 0.01) mildRec.toInput :=
  AtShare.thaw mild_rec mild_rec mild_unsat mild_new mild_new (w := 0) (le_refl _) (by norm_num)
    ⟨rfl, (by simp), (by simp), (by simp), (by simp), (by simp), (by simp)⟩

/-- The packs of the run. -/
structure MildPack (s : Snow) : Prop where
  inv : Inv (calmEnv 0.01) s
  lc : s.layer_count = 1
  m_s : 80 ≤ s.m_s
  z_s : s.z_s ≤ 0.25
  h2o : s.h2o = 0
  cool : FREEZE - 10 ≤ s.t_s_0
  mean : FREEZE - 10 ≤ s.t_s
  thaw : Thawing s

theorem calm_high : (calmEnv 0.01).High := high_of cold_env coldCfg_ok.2.2

/-- The turbulent fluxes in this air. -/
theorem mild_air {p : Phys} (hzp : 0 < p.snow.z_s) (hz : p.snow.z_s ≤ 0.25) (hcool : FREEZE - 10 ≤ p.snow.t_s_0)
    (hsurf : p.snow.t_s_0 ≤ FREEZE) (eta : p.input1.t_a = FREEZE) (eea : p.input1.e_a = 610.71) (eu : p.input1.u = 0.001)
    (hg : GuessP p) :
    ∃ r p1, h_le (calmEnv 0.01) p = .ok (r, p1) ∧ r.h ≤ 10 ∧ 0 ≤ r.e ∧ r.e ≤ 0.00001 ∧ r.le ≤ 30 ∧
      (p.snow.t_s_0 = FREEZE → r.e = 0 ∧ r.le = 0) := by
  have hf := freeze_pos
  have hts : 0 < p.snow.t_s_0 := by norm_num [FREEZE] at hcool; linarith
  obtain ⟨es, hes⟩ := sati_ok_iff.mpr hts
  have hes0 := sati_value_pos hes
  have hes' : es ≤ 610.71 := sati_le_freeze hsurf hes
  obtain ⟨w, hsw⟩ := satw_ok_iff.mpr hf
  have hw := satw_freeze_gt w hsw
  have eP : (calmEnv 0.01).P_a = SEA_LEVEL := rfl
  have ez : (calmEnv 0.01).z_0 = 0.005 := rfl
  obtain ⟨zt, ezt⟩ : ∃ zt, zt = 5 - p.snow.z_s := ⟨_, rfl⟩
  have hzt : 4.75 ≤ zt ∧ zt ≤ 5 := by rw [ezt]; constructor <;> linarith [hz]
  obtain ⟨θ, eθ⟩ : ∃ θ, θ = FREEZE + GRAVITY / CP_AIR * zt := ⟨_, rfl⟩
  have hθ : FREEZE + 0.04 ≤ θ ∧ θ ≤ FREEZE + 0.05 := by
    rw [eθ]; norm_num [GRAVITY, CP_AIR]; constructor <;> linarith [hzt.1, hzt.2]
  have hvf : 0 < vapourFraction es SEA_LEVEL ∧ vapourFraction 610.71 SEA_LEVEL ≤ 0.004 ∧
      vapourFraction es SEA_LEVEL ≤ vapourFraction 610.71 SEA_LEVEL := by
    unfold vapourFraction
    have hd : 0 < MOL_H2O * es + MOL_AIR * (SEA_LEVEL - es) := by norm_num [MOL_H2O, MOL_AIR, SEA_LEVEL]; linarith
    refine ⟨div_pos (mul_pos (by norm_num [MOL_H2O]) hes0) hd, by norm_num [MOL_H2O, MOL_AIR, SEA_LEVEL], ?_⟩
    rw [div_le_div_iff₀ hd (by norm_num [MOL_H2O, MOL_AIR, SEA_LEVEL])]
    norm_num [MOL_H2O, MOL_AIR, SEA_LEVEL]; linarith
  have hm : min p.input1.e_a 610.71 = 610.71 := by rw [eea, min_self]
  have hm' : min (610.71:ℝ) w = 610.71 := min_eq_left hw.le
  obtain ⟨r, κ, k1, k2, k3, k4, k5⟩ := C52_turbulence_stratified (calmEnv 0.01) p (by norm_num [calmEnv])
    (zu := zt) (zt := zt) (sv := 610.71) (es := es) (w := w) (θ := θ) ezt ezt
    (by rw [ez]; linarith [hzt.1]) (by rw [ez]; linarith [hzt.1]) (by rw [eu]; norm_num) (by rw [eta]; exact hf) hts
    (by rw [eea]; norm_num) (by rw [eta]; exact sati_freeze) hes (by rw [eta]; exact hsw)
    (by rw [hm, eP]; norm_num [SEA_LEVEL]) (by rw [eP]; norm_num [SEA_LEVEL]; linarith) (by rw [eta, eθ])
    (by linarith [hsurf]) (by
      rw [hm, hm', eP]
      have : 0 < (θ - p.snow.t_s_0) / θ := div_pos (by linarith [hsurf]) (by linarith)
      linarith [hvf.2.2]) hg
  rw [hm, hm', eP] at k5
  rw [hm, hm', eP, ez, eu] at k3
  have x3' : 0 ≤ r.e := by
    rw [k5]; exact mul_nonneg k2.le (by linarith [hvf.2.2])
  have hlog : 6 ≤ Real.log ((zt - 4.9 * 0.005) / 0.005) := by
    rw [Real.le_log_iff_exp_le (div_pos (by linarith [hzt.1]) (by norm_num))]
    have h3 : Real.exp 6 = Real.exp 1 ^ 6 := by rw [← Real.exp_nat_mul]; norm_num
    have h1 : Real.exp 1 ≤ 2.7182818286 := Real.exp_one_lt_d9.le
    rw [h3, le_div_iff₀ (by norm_num)]
    calc Real.exp 1 ^ 6 * 0.005 ≤ 2.7182818286 ^ 6 * 0.005 := by gcongr
      _ ≤ _ := by norm_num; linarith [hzt.1]
  have hT : 263 ≤ √(θ * p.snow.t_s_0) := by
    apply Real.le_sqrt_of_sq_le
    have := hcool
    norm_num [FREEZE] at this hθ
    nlinarith
  have hd : moistDensity (√(610.71 * es)) SEA_LEVEL √(θ * p.snow.t_s_0) ≤ 1.345 := by
    unfold moistDensity
    rw [← add_div, div_le_iff₀ (mul_pos (by norm_num [RGAS]) (by linarith))]
    have := Real.sqrt_nonneg (610.71 * es)
    have hg : RGAS * 263 ≤ RGAS * √(θ * p.snow.t_s_0) :=
      mul_le_mul_of_nonneg_left hT (by norm_num [RGAS])
    have : MOL_AIR * (SEA_LEVEL - √(610.71 * es)) + MOL_H2O * √(610.71 * es) ≤ MOL_AIR * SEA_LEVEL := by
      unfold MOL_AIR MOL_H2O; linarith
    have hn : MOL_AIR * SEA_LEVEL ≤ 1.345 * (RGAS * 263) := by norm_num [MOL_AIR, RGAS, SEA_LEVEL]
    linarith
  have hl36 : 36 ≤ Real.log ((zt - 4.9 * 0.005) / 0.005) * Real.log ((zt - 4.9 * 0.005) / 0.005) := by nlinarith
  have hκ : κ ≤ 0.0001 := by
    refine k3.trans ?_
    rw [div_le_iff₀ (by linarith)]
    nlinarith
  have hdθ : θ - p.snow.t_s_0 ≤ 10.05 := by linarith [hcool]
  have he : r.e ≤ 0.00001 := by
    rw [k5]
    calc κ * (vapourFraction 610.71 SEA_LEVEL - vapourFraction es SEA_LEVEL) ≤ 0.0001 * 0.004 :=
          mul_le_mul hκ (by linarith [hvf.1, hvf.2.1]) (by linarith [hvf.2.2]) (by norm_num)
      _ ≤ _ := by norm_num
  refine ⟨r, _, k1, ?_, x3', he, ?_, fun hF => ?_⟩
  · rw [k4]
    calc κ * (CP_AIR * (θ - p.snow.t_s_0)) ≤ 0.0001 * (CP_AIR * 10.05) :=
          mul_le_mul hκ (mul_le_mul_of_nonneg_left hdθ (by norm_num [CP_AIR]))
            (mul_nonneg (by norm_num [CP_AIR]) (by linarith [hsurf])) (by norm_num)
      _ ≤ _ := by norm_num [CP_AIR]
  · obtain ⟨sv', es', _, _, _, _, _, _, _, hh⟩ := h_le_ok k1
    rw [(C34_latent_heat _ _ hh).1 hsurf]
    have : lh_sub p.snow.t_s_0 ≤ 3000000 := by
      have := hcool
      unfold lh_sub lh_vap lh_fus
      norm_num [FREEZE] at this ⊢
      linarith
    have h0 : 0 ≤ lh_sub p.snow.t_s_0 := by
      have := hsurf
      unfold lh_sub lh_vap lh_fus
      norm_num [FREEZE] at this ⊢
      linarith
    calc lh_sub p.snow.t_s_0 * r.e ≤ 3000000 * 0.00001 := mul_le_mul this he x3' (by norm_num)
      _ ≤ _ := by norm_num
  · have he0 : r.e = 0 := by
      rw [hF, sati_freeze] at hes
      cases hes
      rw [k5, sub_self, mul_zero]
    refine ⟨he0, ?_⟩
    obtain ⟨sv', es', _, _, _, _, _, _, _, hh⟩ := h_le_ok k1
    rw [(C34_latent_heat _ _ hh).1 hsurf, he0, mul_zero]

theorem mild_hle {p : Phys} (h : MildPack p.snow) (hi : p.input1 = mildRec.toInput) (hg : GuessP p) :
    ∃ r p1, h_le (calmEnv 0.01) p = .ok (r, p1) ∧ r.h ≤ 10 ∧ 0 ≤ r.e ∧ r.e ≤ 0.00001 ∧ r.le ≤ 30 := by
  obtain ⟨r, q, k1, k2, k3, k4, k5, _⟩ := mild_air (p := p)
    (h.inv.z_pos ((h.inv.lc_pos_iff (by norm_num [calmEnv])).mp (by rw [h.lc]; norm_num))) h.z_s h.cool h.thaw.surf.2
    (by rw [hi]; rfl) (by rw [hi]; rfl) (by rw [hi]; rfl) hg
  exact ⟨r, q, k1, k2, k3, k4, k5⟩

/-- The energy balance of a step. -/
theorem mild_energy {p p1 : Phys} (h : MildPack p.snow) (hi : p.input1 = mildRec.toInput) (hg : GuessP p)
    (hp : energy_balance (calmEnv 0.01) 3600 p = .ok p1) :
    p1.input1 = p.input1 ∧ ∃ E en, p1.snow = { p.snow with E := E, en := en } ∧ 0 ≤ E ∧ E ≤ 0.00001 ∧
      en.G_0 = en.G ∧ en.delta_Q_0 ≤ 200 := by
  obtain ⟨r, q, k1, k2, k3, k4, k5⟩ := mild_hle h hi hg
  have hR : net_radiation p.input1 p.snow ≤ 60 := by
    have e1 : p.input1.S_n = 0 := by rw [hi]; rfl
    have e2 : p.input1.I_lw = STEF_BOLTZ * FREEZE ^ 4 := by rw [hi]; rfl
    unfold net_radiation
    rw [e1, e2]
    have := h.cool
    have h4 : (FREEZE - 10) ^ 4 ≤ p.snow.t_s_0 ^ 4 := pow_le_pow_left₀ (by norm_num [FREEZE]) this 4
    norm_num [SNOW_EMISSIVITY, STEF_BOLTZ, FREEZE] at h4 ⊢
    linarith
  have hM : advec p.input1 3600 p.snow = .ok 0 := by
    unfold advec; rw [hi, if_neg (by rw [mild_now]; simp)]
  have hsoil : SoilOK (calmEnv 0.01) p.input1 := by rw [hi]; exact mild_soil
  have eg : p.input1.t_g = FREEZE := by rw [hi]; rfl
  have hz0 := (h.inv.lc_pos_iff (by norm_num [calmEnv])).mp (by rw [h.lc]; norm_num)
  have hz := h.inv.z_pos hz0
  have hr : 0 < p.snow.rho := by
    have := (h.inv.pack hz0).1
    have h80 := h.m_s
    by_contra hn
    nlinarith [not_lt.mp hn]
  rcases energy_balance_ok hp with ⟨_, r', q', G, G0, M, e1, e2, e3, e4⟩ | ⟨h0, _⟩
  swap
  · rw [h.lc] at h0; omega
  rw [k1] at e1
  obtain ⟨rfl, rfl⟩ := Prod.mk.inj (Except.ok.inj e1)
  have ein : q.input1 = p.input1 := by
    obtain ⟨sv, es, a1, _, a2, _⟩ := h_le_ok k1
    rw [a2]
    have : p.input1.t_a = FREEZE := by rw [hi]; rfl
    rw [this, sati_freeze] at a1
    cases a1
    have : min p.input1.e_a 610.71 = p.input1.e_a := by rw [hi]; exact min_self _
    simp only [this]
  have esn : q.snow = p.snow := by
    obtain ⟨_, _, _, _, _, a2, _⟩ := h_le_ok k1
    exact a2
  rw [ein, esn, hM] at e3
  cases e3
  rw [ein, esn] at e2
  unfold heat_transfer at e2
  rw [if_pos h.lc] at e2
  obtain ⟨g, hgs, e2⟩ := bind_eq_ok.mp e2
  simp only [pure_ok, Except.ok.injEq, Prod.mk.injEq] at e2
  obtain ⟨rfl, rfl⟩ := e2
  have hG : g ≤ 93 := by
    obtain ⟨es, el, a1, a2, a3⟩ := g_soil_law hsoil (by rw [eg]; exact boil_gt.le) hr (b := true)
      (by rw [if_pos rfl]; exact h.thaw.surf.2) hgs
    rw [eg, sati_freeze] at a2
    cases a2
    rw [if_pos rfl] at a1 a3
    have hes0 := sati_value_pos a1
    have hes : es ≤ 610.71 := sati_le_freeze h.thaw.surf.2 a1
    have e1 : (calmEnv 0.01).P_a = 101324.6 := rfl
    have e2 : (calmEnv 0.01).z_g = 0.5 := rfl
    rw [if_pos rfl, eg, e1, e2] at a3
    have e3 : FREEZE = 273.16 := rfl
    rw [e3] at a3
    have kg : effConduct 1.65 273.16 101324.6 610.71 ≤ 2.32 ∧ 0 < effConduct 1.65 273.16 101324.6 610.71 := by
      unfold effConduct diffusionHeat diffusivity vaporisation fusion
      norm_num
    obtain ⟨T, eT⟩ : ∃ T, T = p.snow.t_s_0 := ⟨_, rfl⟩
    have hT : 263.16 ≤ T ∧ T ≤ 273.16 := by
      have h1 := h.cool; have h2 := h.thaw.surf.2
      rw [← eT, e3] at h1 h2
      constructor <;> linarith
    rw [← eT] at a3
    have ks : 0 < effConduct (snowConduct p.snow.rho) T 101324.6 es := by
      unfold effConduct
      have i1 : 0 < snowConduct p.snow.rho := by unfold snowConduct; positivity
      have i2 : 0 < diffusionHeat T := by
        unfold diffusionHeat vaporisation fusion
        split_ifs <;> linarith [hT.1, hT.2]
      have i3 : 0 < diffusivity 101324.6 T := by
        unfold diffusivity
        have : 0 < T := by linarith [hT.1]
        positivity
      have i4 : 0 < 18.0153 * es / (28.9644 * (101324.6 - es)) := by
        apply div_pos <;> linarith
      positivity
    rw [a3]
    unfold conducted
    have p1 : 0 < p.snow.z_s_0 / (2 * effConduct (snowConduct p.snow.rho) T 101324.6 es) := by positivity
    have p2 : 0.5 / (2 * 2.32) ≤ 0.5 / (2 * effConduct 1.65 273.16 101324.6 610.71) := by
      have := kg.1; have := kg.2; gcongr
    rw [div_le_iff₀ (by linarith [show (0:ℝ) < 0.5 / (2 * 2.32) by norm_num])]
    nlinarith [hT.1, hT.2]
  rw [e4]
  refine ⟨ein, r.e, _, rfl, k3, k4, rfl, ?_⟩
  show net_radiation p.input1 p.snow + r.h + r.le + g + 0 ≤ 200
  linarith

/-- A step completes. -/
theorem mild_step {p : Phys} (h : MildPack p.snow) (hi : p.input1 = mildRec.toInput) (hg : GuessP p) (dl : InputData) :
    ∃ p', stepPhys (calmEnv 0.01) 3600 dl p = .ok p' := by
  have hap : applied dl p.input1 = mildRec.toInput := by rw [hi]; exact applied_dry mild_now
  have hw : MildPack (stepStart dl p).snow :=
    ⟨start_inv (by norm_num [calmEnv]) h.inv, h.lc, h.m_s, h.z_s, h.h2o, h.cool, h.mean,
      ⟨h.thaw.mass, h.thaw.surf, h.thaw.mean, h.thaw.cold, h.thaw.store, h.thaw.over⟩⟩
  have hgs : GuessP (stepStart dl p) := hg
  have eg : mildRec.toInput.t_g = FREEZE := rfl
  have hzl : p.snow.z_s_l = 0 := by
    rcases h.inv.zl.eq_or_lt with q | q
    · exact q.symm
    · have := (h.inv.toL ((h.inv.lc_pos_iff (by norm_num [calmEnv])).mp (by rw [h.lc]; norm_num))).lc.2 q
      rw [h.lc] at this; omega
  obtain ⟨_, o2, o3⟩ := h.inv.one hzl
  have fr : p.snow.Frozen := ⟨h.thaw.surf, h.thaw.mean, by rw [o3]; norm_num [T_NONE, MIN_SNOW_TEMP, FREEZE]⟩
  refine C52_step_completes (calmEnv 0.01) calmEnv_ok (by norm_num [calmEnv]) 3600 (by norm_num) dl p ?_
    (by rw [h.h2o]) (by rw [o2]) (fun hn => ?_) (fun _ => ?_) (fun _ p1 hp1 T hT v hv => ?_)
  · rw [hap]
    exact ⟨h.inv, mild_soil, by norm_num [calmEnv], by rw [eg]; exact boil_gt.le, fun _ => by linarith [h.m_s], fun _ => fr⟩
  · rw [hap, mild_now] at hn; cases hn
  · obtain ⟨r, q, hh, _⟩ := mild_hle hw (show (stepStart dl p).input1 = _ from hap) hgs
    exact ⟨_, hh⟩
  · obtain ⟨ein, E, en, es, hE, _, g3, g4⟩ := mild_energy hw (show (stepStart dl p).input1 = _ from hap) hgs hp1
    have hin : p1.input1 = mildRec.toInput := ein.trans hap
    have hn : 0 ≤ v := by
      rw [hin] at hv
      have hT' : 0 < T ∧ T ≤ FREEZE := by
        simp only [soilTemps, List.mem_cons, List.not_mem_nil, or_false] at hT
        rcases hT with e | e | e | e <;> rw [e]
        · exact h.thaw.surf
        · exact h.thaw.mean
        · rw [o3]; norm_num [T_NONE, MIN_SNOW_TEMP, FREEZE]
        · norm_num [T_NONE, MIN_SNOW_TEMP, FREEZE]
      exact soilExchange_nonneg mild_soil (by norm_num [calmEnv]) (by norm_num) hT'.1 hT'.2
        (by rw [eg]; exact hT'.2) (by rw [eg]; exact boil_gt.le) hv
    have hcap : meltCap 3600 p1.snow ≤ 3 := by
      unfold meltCap
      rw [es]
      dsimp only
      have hcc : (stepStart dl p).snow.cc_s_0 ≤ 0 := h.thaw.cold
      rw [g3, sub_self, zero_mul, max_self, add_zero, lf_eq, div_le_iff₀ (by norm_num)]
      exact max_le (by norm_num) (by linarith)
    have hi80 : 80 ≤ p.snow.ice := by unfold Snow.ice; rw [h.h2o]; linarith [h.m_s]
    rw [hin, mild_now, max_eq_left (by linarith : -v ≤ 0), es]
    rw [es] at hcap
    have : max 0 (-(E * 3600)) = 0 := max_eq_left (by linarith)
    simp only [Bool.false_eq_true, if_false]
    linarith

/-- Little vapour comes from the soil. -/
theorem mild_vapour {T v : ℝ} (h0 : FREEZE - 10 ≤ T) (h1 : T ≤ FREEZE)
    (hv : soilExchange (calmEnv 0.01) mildRec.toInput 3600 T = .ok v) : 0 ≤ v ∧ v ≤ 1 := by
  have hgT : mildRec.toInput.t_g = FREEZE := rfl
  have hT : 0 < T := by norm_num [FREEZE] at h0; linarith
  refine ⟨soilExchange_nonneg mild_soil (by norm_num [calmEnv]) (by norm_num) hT h1
        (by rw [hgT]; exact h1) (by rw [hgT]; exact boil_gt.le) hv, ?_⟩
  obtain ⟨es, eg, a1, a2, a3⟩ := soilExchange_law hv
  rw [hgT, sati_freeze] at a2
  cases a2
  have hes0 := sati_value_pos a1
  have hes : es ≤ 610.71 := sati_le_freeze h1 a1
  have e1 : (calmEnv 0.01).P_a = 101324.6 := rfl
  have e2 : (calmEnv 0.01).z_g = 0.5 := rfl
  rw [a3, hgT, e1, e2]
  unfold soilVapour
  obtain ⟨M, eM⟩ : ∃ M, M = (FREEZE + T) / 2 := ⟨_, rfl⟩
  have hM : 268 ≤ M ∧ M ≤ 273.16 := by
    rw [eM]; norm_num [FREEZE] at h0 h1 ⊢; constructor <;> linarith
  rw [← eM]
  have d1 : 28.9644 * 101324.6 / (8314.32 * M) ≤ 1.4 ∧ 0 ≤ 28.9644 * 101324.6 / (8314.32 * M) := by
    have : 0 < M := by linarith [hM.1]
    refine ⟨?_, by positivity⟩
    rw [div_le_iff₀ (by positivity)]
    nlinarith [hM.1]
  have d2 : diffusivity 101324.6 M ≤ 0.0001 ∧ 0 ≤ diffusivity 101324.6 M := by
    unfold diffusivity
    have : 0 < M := by linarith [hM.1]
    refine ⟨?_, by positivity⟩
    have : (M / 273.16) ^ 14 ≤ 1 := pow_le_one₀ (by positivity) (by rw [div_le_one (by norm_num)]; exact hM.2)
    norm_num at this ⊢
    linarith
  have d3 : 0 < 18.0153 * es / (18.0153 * es + 28.9644 * (101324.6 - es)) := by
    apply div_pos <;> linarith
  have d4 : 18.0153 * 610.71 / (18.0153 * 610.71 + 28.9644 * (101324.6 - 610.71)) ≤ (0.004:ℝ) := by norm_num
  have d5 : (18.0153 * 610.71 / (18.0153 * 610.71 + 28.9644 * (101324.6 - 610.71)) -
      18.0153 * es / (18.0153 * es + 28.9644 * (101324.6 - es))) / 0.5 ≤ 0.01 := by
    rw [div_le_iff₀ (by norm_num)]; linarith
  have d6 : 28.9644 * 101324.6 / (8314.32 * M) * diffusivity 101324.6 M ≤ 0.00014 := by
    calc _ ≤ 1.4 * 0.0001 := mul_le_mul d1.1 d2.1 d2.2 (by norm_num)
      _ ≤ _ := by norm_num
  have d7 : 0 ≤ 28.9644 * 101324.6 / (8314.32 * M) * diffusivity 101324.6 M := mul_nonneg d1.2 d2.2
  have d8 := mul_le_mul_of_nonneg_left d5 d7
  linarith

/-- The deeply frozen pack after a step: nothing has melted, some vapour has been deposited. -/
theorem mild_after {x : RStep Phys} (h : MildPack x.pre.snow) (hz : x.pre.snow.z_s ≤ 0.21) (hm : x.pre.snow.m_s ≤ 100)
    (hcc : x.pre.snow.cc_s_0 ≤ -1500000)
    (hi : x.pre.input1 = mildRec.toInput) (hg : GuessP x.pre) {dl : InputData}
    (hp : stepPhys (calmEnv 0.01) 3600 dl x.pre = .ok x.post) :
    x.post.snow.snowcover = true ∧ MildPack x.post.snow := by
  have hap : applied dl x.pre.input1 = mildRec.toInput := by rw [hi]; exact applied_dry mild_now
  have hw : MildPack (stepStart dl x.pre).snow :=
    ⟨start_inv (by norm_num [calmEnv]) h.inv, h.lc, h.m_s, h.z_s, h.h2o, h.cool, h.mean,
      ⟨h.thaw.mass, h.thaw.surf, h.thaw.mean, h.thaw.cold, h.thaw.store, h.thaw.over⟩⟩
  have hgs : GuessP (stepStart dl x.pre) := hg
  have hmax : 0 < (calmEnv 0.01).max_z_s_0 := by norm_num [calmEnv]
  obtain ⟨p1, q1, q2, q3⟩ := stepPhys_ok hp
  obtain ⟨ein, E, en, es, hE, hE2, g3, g4⟩ := mild_energy hw (show (stepStart dl x.pre).input1 = _ from hap) hgs q1
  have hin : x.post.input1 = mildRec.toInput := by rw [q3]; exact ein.trans hap
  obtain ⟨s0, s1, s2, s3, s4, s5, s6, k⟩ := step_chain hmax h.inv hp
  obtain ⟨f1, f2⟩ := mass_balance_flux q2
  have hen : x.post.snow.en = en := by rw [f1, es]
  have hE' : x.post.snow.E = E := by rw [f2, es]
  have hgT : mildRec.toInput.t_g = FREEZE := rfl
  have hzl : x.pre.snow.z_s_l = 0 := by
    rcases h.inv.zl.eq_or_lt with q | q
    · exact q.symm
    · have := (h.inv.toL ((h.inv.lc_pos_iff hmax).mp (by rw [h.lc]; norm_num))).lc.2 q
      rw [h.lc] at this; omega
  obtain ⟨_, o2, o3⟩ := h.inv.one hzl
  have hmelt := k.melt_bound hmax (by norm_num [calmEnv]) (by rw [o2]) h.thaw.mean.1.le
  rw [hen, lf_eq, g3, sub_self, zero_mul, max_self, add_zero, max_eq_left (by linarith)] at hmelt
  obtain ⟨_, _, m3, m4⟩ := k.melt_en hmax
  have hEs : 0 ≤ x.post.snow.E_s ∧ x.post.snow.E_s ≤ 2 := by
    cases hf : s3.snowcover
    · rw [k.dead3 hf]; norm_num
    · rcases evap_cond_out hmax k.i3 k.ec with ⟨hf', _⟩ | ⟨_, el, w, hel, _, _, e4, _⟩
      · rw [hf] at hf'; cases hf'
      have hT := k.base_temp hmax hf
      rw [soilEvap_eq, hin] at hel
      have hel' : soilExchange (calmEnv 0.01) mildRec.toInput 3600 (if s3.layer_count = 2 then s3.t_s_l else s3.t_s_0) = .ok el := hel
      have hT' : FREEZE - 10 ≤ (if s3.layer_count = 2 then s3.t_s_l else s3.t_s_0) ∧
          (if s3.layer_count = 2 then s3.t_s_l else s3.t_s_0) ≤ FREEZE := by
        unfold packTemps at hT
        rw [if_neg (by rw [h.lc]; norm_num)] at hT
        simp only [List.mem_cons, List.not_mem_nil, or_false] at hT
        rcases hT with e | e <;> rw [e]
        · exact ⟨h.cool, h.thaw.surf.2⟩
        · exact ⟨h.mean, h.thaw.mean.2⟩
      have hv := mild_vapour hT'.1 hT'.2 hel'
      rw [m4, e4, ← m3, hE']
      constructor <;> linarith [hv.1, hv.2]
  have hsn : x.post.snow.snowcover = true := by
    refine (k.lasts calmEnv_ok (by norm_num) (fun hn => ?_) (by rw [h.lc]; norm_num) ?_
      (M := x.pre.snow.m_s) ?_).1 ?_ ?_
    · rw [hin, mild_now] at hn; cases hn
    · norm_num [calmEnv]; linarith [h.m_s]
    · rw [hin, mild_now]; simp
    · linarith [h.m_s]
    · norm_num [calmEnv]; linarith [h.m_s, hEs.1]
  have hi' : Inv (calmEnv 0.01) x.post.snow := stepPhys_inv hmax h.inv hp
  obtain ⟨r0, rl, w, hb, hd, _⟩ := k.ledgers (g := coldCfg) calmEnv_ok (by norm_num [calmEnv, coldCfg, calmCfg]) (by norm_num)
    (by rw [h.h2o]) (fun hn => by rw [hin, mild_now] at hn; cases hn) hsn
  have kc := k.closed calmEnv_ok (by rw [h.h2o]) (fun hn => by rw [hin, mild_now] at hn; cases hn)
  have hpr : x.precip = 0 := by
    show stepPrecip x.post = 0
    unfold stepPrecip; rw [hin, mild_now]; simp
  have hwi : waterIn coldCfg x = 0 := by unfold waterIn; rw [hin, mild_now]; simp
  have hme : x.post.snow.melt = 0 := le_antisymm (by linarith) kc.melt
  have hw0 : w = 0 := by
    have h1 := hb.bound
    rw [h.h2o, hwi, hme] at h1
    rw [hb.left, h.h2o, hwi, hme, if_pos (by linarith [hb.surface_nonneg, hb.lower_nonneg])]
  have hout := hb.out
  rw [hw0] at hout
  simp only [afterVapour, lt_self_iff_false, if_false] at hout
  have hh2o : x.post.snow.h2o = 0 := le_antisymm (by linarith [kc.swi]) kc.h2o
  have hswi : x.post.snow.swi = 0 := le_antisymm (by linarith [kc.h2o]) kc.swi
  have hms := kc.alive hsn
  rw [show stepPrecip x.post = 0 from hpr, hswi, add_zero, sub_zero] at hms
  have z1 : s1.z_s ≤ 0.21 := by
    rcases lt_or_ge x.pre.snow.rho 550 with q | q
    · linarith [(hd.compact.2 q (by linarith [h.m_s])).1]
    · linarith [hd.compact.1 q]
  have z3 : s3.z_s = s1.z_s := by
    rw [hd.melt, if_neg (by rw [hme]; exact lt_irrefl _), hd.precip, hin, mild_now]; simp
  have z4 : s4.z_s ≤ 0.25 := by
    rw [hd.vapour, hout, hw0, hpr, add_zero, sub_zero, sub_zero, z3]
    refine max_le ?_ ?_
    · have : x.post.snow.E_s / (x.pre.snow.m_s / s1.z_s) ≤ 0.01 := by
        have hp1 := hd.pos.1
        have hmp : 0 < x.pre.snow.m_s := by linarith [h.m_s]
        rw [div_le_iff₀ (by positivity), mul_div_assoc', le_div_iff₀ hp1]
        nlinarith [h.m_s, hEs.1, hEs.2]
      linarith
    · rw [div_le_iff₀ (by norm_num)]; linarith [hEs.2]
  have zf : x.post.snow.z_s ≤ 0.25 := by
    have := (hd.wet _ rfl (by rw [hpr]; linarith [h.m_s, hEs.1])).1 (.inl (by
      rw [hme, hin, mild_now]; norm_num))
    linarith
  have hlc : x.post.snow.layer_count = 1 :=
    shallow_single hmax hi' zf ((hi'.lc_pos_iff hmax).mpr (hi'.flag hsn))
  obtain ⟨t1, t2⟩ := thaw_runStep calmEnv_ok cold_env calm_high (by norm_num [calmEnv, SEA_LEVEL]) (by norm_num [calmEnv])
    (by norm_num) h.inv hi' (by rw [h.h2o]) kc.h2o hg (by rw [hi]; exact mild_in) (by rw [hin]; exact mild_in) hp h.z_s
    (fun _ => h.thaw)
  have W := t2 (by rw [h.lc]; norm_num) (by linarith [h.m_s])
  obtain ⟨_, _, _, W4⟩ := W.lasts hsn
  have hco := h.cool.trans (W4 hlc).1
  exact ⟨hsn, hi', hlc, by linarith [h.m_s, hEs.1], zf, hh2o, hco, by rw [(k.single_temp hmax hsn hlc).1]; exact hco, t1 hlc⟩

/-- The pack the runs start with. -/
theorem mild_start : ∃ s, init_snow (calmEnv 0.01) (recordSnow coldCfg) = .ok s ∧ MildPack s ∧ s.z_s = 0.2 ∧ s.m_s = 80 ∧
    s.cc_s_0 ≤ -1500000 := by
  obtain ⟨s, hs⟩ := init_snow_total (calmEnv 0.01) (recordSnow coldCfg) (by
    simp [recordSnow, coldCfg, calmCfg])
  have p : StartPack coldCfg s := start_layers cold_env (by norm_num [coldCfg, calmCfg, defaultSteps])
    (by constructor <;> norm_num [coldCfg, calmCfg, defaultSteps]) hs
  have hi := init_snow_inv (c := calmEnv 0.01) (by norm_num [calmEnv]) hs rfl
  have hd : ¬ coldCfg.StartsDeep := by
    intro h; have := h.1; norm_num [coldCfg, calmCfg, defaultSteps] at this
  have hz : s.z_s = 0.2 := p.z_s
  have hm : s.m_s = 80 := by rw [p.m_s]; norm_num [coldCfg, calmCfg]
  have hl : s.layer_count = 1 := by rw [p.layers, if_neg hd]
  have e0 : s.t_s_0 = FREEZE - 10 := p.t_s_0
  have e1 : s.t_s = FREEZE - 10 := p.t_s
  refine ⟨s, hs, ⟨hi, hl, hm.ge, by rw [hz]; norm_num, ?_, e0.ge, e1.ge,
    start_thawing coldCfg_ok.1 coldCfg_ok.2.1 coldCfg_ok.2.2 cold_env hs hl⟩, hz, hm, ?_⟩
  · rw [p.h2o]; simp [coldCfg, calmCfg]
  · rw [p.cc_s_0, p.m_s_0, p.z_s_0, if_neg hd]
    show coldAt (FREEZE - 10) (400 * 0.2) ≤ _
    unfold coldAt
    rw [if_pos (by linarith)]
    norm_num [cp_ice, CAL_TO_J, FREEZE]

/-- A run of two data steps. -/
theorem mild_run : ∃ x y m, RunTrace coldCfg [mildRec, mildRec, mildRec] [[x], [y]] m ∧ MildPack x.pre.snow ∧
    MildPack y.pre.snow ∧ x.post.snow.snowcover = true ∧ x.post.snow = y.pre.snow := by
  obtain ⟨s0, hs0, f1, f2, f3, f4⟩ := mild_start
  have hthr : ∀ s : Snow, MildPack s → below_thold 60 s = false := by
    intro s hs
    unfold below_thold
    have hz0 := (hs.inv.lc_pos_iff (by norm_num [calmEnv])).mp (by rw [hs.lc]; norm_num)
    rw [if_neg (by rw [hs.lc]; norm_num), if_pos hs.lc]
    have := hs.m_s
    simp; linarith
  obtain ⟨p1, d1⟩ := mild_step (p := ⟨s0, mildRec.toInput, none, none⟩) f1 rfl (.inl ⟨rfl, rfl⟩)
    (deltaRec mildRec.toInput mildRec.toInput 1).toInput
  obtain ⟨d2, d3⟩ := mild_after (x := ⟨.normal, ⟨s0, mildRec.toInput, none, none⟩, p1⟩) f1 (by rw [f2]; norm_num)
    (by rw [f3]; norm_num) f4 rfl (.inl ⟨rfl, rfl⟩) d1
  have hg1 : GuessP p1 := stepPhys_guess d1 (.inl ⟨rfl, rfl⟩)
  obtain ⟨p2, n1⟩ := mild_step (p := ⟨p1.snow, mildRec.toInput, p1.init_ustar, p1.init_factor⟩) d3 rfl hg1
    (deltaRec mildRec.toInput mildRec.toInput 1).toInput
  have e36 : ((coldCfg.norm_time_step * 60 : ℤ) : ℝ) = 3600 := by norm_num [coldCfg, calmCfg, defaultSteps]
  obtain ⟨ls, m, h1, y, h2, h3⟩ := first_trace cold_tiled cold_env hs0 mild_new mild_new (rs := [mildRec])
    (hthr s0 f1) (p' := p1) (by rw [e36]; exact d1)
    (P := fun ls m => ∃ y : RStep Phys, ls = [[y]] ∧ y.pre.snow = p1.snow) (by
      intro ts m1 hts e1 e2 e3
      have ht := parse_tile cold_tiled hts
      obtain ⟨_, _, en, _, _⟩ := parse_ok hts
      have ep : ({ m1.phys with input1 := mildRec.toInput } : Phys) =
          ⟨p1.snow, mildRec.toInput, p1.init_ustar, p1.init_factor⟩ := by rw [e1]
      obtain ⟨m2, q1, q2, q3, q4, q5⟩ := executed_normal (c := calmEnv 0.01) (all := coldCfg.output_all)
        (i2 := mildRec.toInput) (m := m1) ht mild_new e2
        (by rw [en, e1]; exact hthr _ d3) (p' := p2) (by
          rw [en, ep]
          show stepPhys _ ((coldCfg.norm_time_step * 60 : ℤ) : ℝ) _ _ = _
          rw [e36]; exact n1)
      rw [ep] at q2
      exact ⟨_, m2, .cons mild_new q1 q2 (.nil _ _), _, rfl, rfl⟩)
  subst h2
  exact ⟨_, y, m, h1, f1, by rw [h3]; exact d3, d2, h3.symm⟩

/-- C83: the hypotheses of `C83_thaw_warms` and `C83_thaw_monotone` are met. -/
example : ∃ x y m ts, RunTrace coldCfg [mildRec, mildRec, mildRec] [[x], [y]] m ∧ parse_time_steps coldCfg = .ok ts ∧
    Warmed (ts x.lv).time_step x ∧ Warmed (ts y.lv).time_step y ∧ x.post.snow.snowcover = true ∧
    x.pre.snow.t_s_0 ≤ y.pre.snow.t_s_0 ∧ x.pre.snow.cc_s_0 ≤ y.pre.snow.cc_s_0 := by
  obtain ⟨x, y, m, h, hx, hy, hs, _⟩ := mild_run
  obtain ⟨w1, w2, w3⟩ := coldCfg_ok
  have P1 : 610.71 < (calmEnv 0.01).P_a := by norm_num [calmEnv, SEA_LEVEL]
  have ez : coldCfg.max_active = 0.25 := rfl
  have hz : (0:ℝ) < coldCfg.z_g := by norm_num [coldCfg, calmCfg, defaultSteps]
  have px : 0 < x.pre.snow.layer_count ∧ 0 < x.pre.snow.m_s := ⟨by rw [hx.lc]; norm_num, by linarith [hx.m_s]⟩
  have py : 0 < y.pre.snow.layer_count ∧ 0 < y.pre.snow.m_s := ⟨by rw [hy.lc]; norm_num, by linarith [hy.m_s]⟩
  obtain ⟨ts, hts, wx⟩ := C83_thaw_warms coldCfg cold_tiled w1 w2 w3 hz _ cold_env P1 _ mild_rows _ m h [] x [y] rfl
    (by simp [ez, hx.z_s]) px.1 px.2
  obtain ⟨ts', hts', wy⟩ := C83_thaw_warms coldCfg cold_tiled w1 w2 w3 hz _ cold_env P1 _ mild_rows _ m h [x] y [] rfl
    (by simp [ez, hx.z_s, hy.z_s]) py.1 py.2
  rw [hts] at hts'
  cases hts'
  obtain ⟨_, _, m1, m2⟩ := C83_thaw_monotone coldCfg cold_tiled w1 w2 w3 hz _ cold_env P1 _ mild_rows _ m h [] x [] y [] rfl
    (by simp [ez, hx.z_s, hy.z_s]) py.1 py.2
  exact ⟨x, y, m, ts, h, hts, wx, wy, hs, m1, m2⟩

end

end Pysnobal
