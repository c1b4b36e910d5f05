import Verif.Lemmas.WitnessRich

/-! # Concrete runs over a pack of two layers: calm air at the freezing point over ripe snow -/

namespace Pysnobal

noncomputable section

/-- Snow: two layers, the lower at the freezing point. -/
structure Deep (s : Snow) : Prop where
  z0 : s.z_s_0 = 0.25
  zl : 0 < s.z_s_l
  z : s.z_s = 0.25 + s.z_s_l
  z_le : s.z_s ≤ 1
  rho : 0 < s.rho
  heavy : 1 ≤ s.rho * s.z_s_l
  tl : s.t_s_l = FREEZE
  m : s.m_s = s.rho * s.z_s
  m0 : s.m_s_0 = s.rho * s.z_s_0
  ml : s.m_s_l = s.rho * s.z_s_l

/-- Snow: two layers at the freezing point without cold content. -/
structure RipeDeep (s : Snow) : Prop extends Deep s where
  t0 : s.t_s_0 = FREEZE
  t : s.t_s = FREEZE
  cc0 : s.cc_s_0 = 0
  ccl : s.cc_s_l = 0

theorem Deep.lc {s : Snow} (h : Deep s) : s.layer_count = 2 :=
  lc_eq_two.mpr ⟨by rw [h.z0]; norm_num, h.zl⟩

theorem Deep.z_pos {s : Snow} (h : Deep s) : 0 < s.z_s := by
  rw [h.z]; linarith [h.zl]

/-- The energy balance of ripe deep snow in calm weather: net radiation and nothing else. -/
theorem energy_deep {vol dt : ℝ} {p : Phys} (hs : RipeDeep p.snow) (hc : CalmInput p.input1)
    (hi : (p.init_ustar = none ∧ p.init_factor = none) ∨ (p.init_ustar = some 0 ∧ p.init_factor = some 0))
    (hM : advec p.input1 dt p.snow = .ok 0) :
    energy_balance (calmEnv vol) dt p = .ok
      { p with
        snow := { p.snow with
          E := 0
          en := ⟨net_radiation p.input1 p.snow, 0, 0, 0, 0, 0, net_radiation p.input1 p.snow,
            net_radiation p.input1 p.snow⟩ }
        init_ustar := some 0, init_factor := some 0 } := by
  unfold energy_balance
  rw [if_pos (by rw [hs.lc]; norm_num)]
  have hzz : p.snow.z_s ≤ 1 := hs.z_le
  have hzp : 0 < p.snow.z_s := hs.z_pos
  have hh : h_le (calmEnv vol) p = .ok ({ h := 0, le := 0, e := 0, status := 0, ustar := 0, factor := 0 },
      { p with init_ustar := some 0, init_factor := some 0 }) := by
    unfold h_le InputData.sat_vp Snow.e_s_0
    rw [hc.t_a, sati_freeze, bind_ok]
    dsimp only
    rw [if_neg (not_lt.mpr hc.e_a.2), hs.t0, sati_freeze, bind_ok]
    rw [hle1_calm]
    · rfl
    · have hea := hc.e_a
      refine ⟨?_, ?_, ?_, ?_, ?_, ?_, ?_, ?_, ?_, ?_, ?_⟩
      · norm_num [calmEnv]
      · simp only [calmEnv, Bool.false_eq_true, if_false]; norm_num; linarith
      · simp only [calmEnv, Bool.false_eq_true, if_false]; norm_num; linarith
      · simp only [calmEnv, Bool.false_eq_true, if_false]; norm_num; linarith
      · show 0 < p.input1.t_a; rw [hc.t_a]; norm_num [FREEZE]
      · norm_num [FREEZE]
      · exact hea.1
      · norm_num
      · refine lt_of_le_of_lt hea.2 ?_
        norm_num [calmEnv, SEA_LEVEL]
      · norm_num [calmEnv, SEA_LEVEL]
      · intro w hw
        have := freeze_sat_le hw hc.t_a
        show p.input1.e_a - 25 ≤ w
        linarith
    · exact hc.u
    · simp only [calmEnv, Bool.false_eq_true, if_false]; norm_num; linarith
    · simp only [calmEnv, Bool.false_eq_true, if_false]; norm_num; linarith
    · simp only [calmEnv, Bool.false_eq_true, if_false]; norm_num; linarith
    · exact hi
    · simp only [calmEnv, Bool.false_eq_true, if_false, hc.t_a]
      have : 0 < DALR := by norm_num [DALR, GRAVITY, CP_AIR]
      have h5 : 0 < 5 - p.snow.z_s := by linarith
      have := mul_pos this h5
      linarith
  have hg : heat_transfer (calmEnv vol) p.input1 p.snow = .ok (0, 0) := by
    unfold heat_transfer
    rw [if_neg (by rw [hs.lc]; norm_num)]
    unfold g_soil g_snow
    obtain ⟨v1, h1, h1'⟩ := efcon_freeze (k := KT_MOISTSAND) (by norm_num [KT_MOISTSAND])
    have hk : 0 < p.snow.kts := by
      unfold Snow.kts
      have := hs.rho
      have : (0:ℝ) < CAL_TO_J := by norm_num [CAL_TO_J]
      positivity
    obtain ⟨v2, h2, h2'⟩ := efcon_freeze hk
    simp only [Bool.false_eq_true, if_false, Snow.e_s_l, hs.tl, hs.t0, sati_freeze, bind_ok, lt_irrefl, gt_iff_lt,
      InputData.e_g, hc.t_g, if_true]
    have e : (calmEnv vol).P_a = SEA_LEVEL := rfl
    rw [e, h1, bind_ok, h2, bind_ok, ssxfr_same h2' h1' hs.zl (by norm_num [calmEnv])]
    rfl
  simp only [hh, bind_ok, hg, hM, pure_ok, add_zero, sub_zero]

theorem soilEvap_deep {vol dt : ℝ} {i : InputData} {s : Snow} (hc : i.t_g = FREEZE)
    (h1 : s.layer_count = 2) (ht : s.t_s_l = FREEZE) : soilEvap (calmEnv vol) i dt s = .ok 0 := by
  unfold soilEvap
  rw [h1]
  simp only [if_true, Snow.e_s_l, ht, InputData.e_g, hc, sati_freeze, bind_ok]
  have e : (calmEnv vol).P_a = SEA_LEVEL := rfl
  have ez : (calmEnv vol).z_g = 0.5 := rfl
  rw [e, ez]
  unfold spec_hum gas_density diffusion_coef vapor_flux
  rw [pdiv_of_ne (by norm_num [SEA_LEVEL, MOL_AIR, MOL_H2O]), bind_ok, bind_ok,
    pdiv_of_ne (by norm_num [RGAS, FREEZE]), bind_ok, pdiv_of_ne (by norm_num [SEA_LEVEL])]
  norm_num [pdiv]

/-- A two-layer pack deep enough for two layers keeps them. -/
theorem adj_layers_deep {vol : ℝ} {s : Snow} (h2 : s.layer_count = 2) (hm : 1 < s.m_s) (hz : 0.25 < s.z_s)
    (hl : 1 ≤ (s.z_s - 0.25) * s.rho) : adj_layers (calmEnv vol) s =
      { s with z_s_0 := 0.25, z_s_l := s.z_s - 0.25, m_s_0 := s.rho * 0.25, m_s_l := s.rho * (s.z_s - 0.25) } := by
  have hc : s.calc_layers (calmEnv vol) = { s with z_s_0 := 0.25, z_s_l := s.z_s - 0.25 } := by
    unfold Snow.calc_layers
    have hl' : ¬ s.m_s ≤ (calmEnv vol).small_threshold := not_le.mpr hm
    have e : (calmEnv vol).max_z_s_0 = 0.25 := rfl
    have e1 : (calmEnv vol).small_threshold = 1 := rfl
    have h0 : s.z_s - 0.25 > 0 := by linarith
    rw [if_neg hl', e, e1]
    simp only [h0, if_true, not_lt.mpr hl, if_false, add_sub_cancel]
  have hl2 : ({ s with z_s_0 := 0.25, z_s_l := s.z_s - 0.25 } : Snow).layer_count = 2 :=
    lc_eq_two.mpr ⟨by norm_num, by show 0 < s.z_s - 0.25; linarith⟩
  unfold adj_layers
  simp only [hc, h2]
  rw [if_neg (by rw [hl2]; norm_num)]
  have hm2 : (Snow.layer_mass { s with z_s_0 := 0.25, z_s_l := s.z_s - 0.25 }).layer_count = 2 := hl2
  rw [if_neg (by norm_num), if_neg (by rw [hm2]; norm_num)]
  simp [Snow.layer_mass]

/-- Melt of ripe deep snow at the maximum density. -/
theorem snowmelt_deep {vol dt : ℝ} {s : Snow} (hs : RipeDeep s) (hf : s.snowcover = true) (hr : s.rho = 600)
    (hG : s.en.G = s.en.G_0)
    (h0 : 0 ≤ s.h2o_total) {μ : ℝ} (hμ : s.en.delta_Q_0 * dt = 333600 * μ) (hp : 1e-8 < μ) (hlt : μ < s.m_s) :
    snowmelt (calmEnv vol) dt s = .ok { s with melt := μ, h2o_total := s.h2o_total + μ } := by
  have hQ : meltQ0 dt s = 333600 * μ := by unfold meltQ0; rw [hs.cc0, hμ, add_zero]
  have hQl : meltQl dt s = 0 := by unfold meltQl; rw [if_pos hs.lc, hG, hs.ccl]; ring
  have hQp : 0 < 333600 * μ := by linarith
  have hmelt : melt (333600 * μ) = μ := by
    unfold melt lh_fus; norm_num
  have hml : meltLayers dt s = { s with melt := μ, h2o_total := s.h2o_total + μ } := by
    unfold meltLayers
    have hlc := hs.lc
    unfold Snow.layer_count at hlc
    simp only [hQ, hQl]
    rw [if_pos hQp]
    simp only [Snow.layer_count, hlc, hmelt]
    simp [hs.cc0, hs.ccl]
  unfold snowmelt
  rw [if_neg (by rw [hf]; simp)]
  simp only [hml]
  have e1 : ∀ q, refreezeSurf q { s with melt := μ, h2o_total := s.h2o_total + μ } =
      .ok ({ s with melt := μ, h2o_total := s.h2o_total + μ }, 0) := by
    intro q
    unfold refreezeSurf
    rw [if_neg]
    simp [hs.cc0]
  have e2 : ∀ q r, refreezeLower q { s with melt := μ, h2o_total := s.h2o_total + μ } r =
      .ok ({ s with melt := μ, h2o_total := s.h2o_total + μ }, r) := by
    intro q r
    unfold refreezeLower
    rw [if_neg]
    simp [hs.ccl]
  have e3 : refreezeSnap { s with melt := μ, h2o_total := s.h2o_total + μ } 0 =
      { s with melt := μ, h2o_total := s.h2o_total + μ } := by
    unfold refreezeSnap
    rw [if_neg]
    · simp
    · simp only [sub_zero]
      rw [abs_of_nonneg (by linarith)]
      linarith
  rw [e1, bind_ok, e2, bind_ok, e3]
  rw [if_pos (by show 0 < μ; linarith)]
  have hrn : ({ s with melt := μ, h2o_total := s.h2o_total + μ } : Snow).rho ≠ 0 := hs.rho.ne'
  rw [pdiv_of_ne hrn, bind_ok, pure_ok]
  have hm : s.m_s = 600 * s.z_s := by rw [hs.m, hr]
  have hzm : s.m_s / 600 = s.z_s := by rw [hm]; ring
  have hz : s.z_s + -1 * μ / 600 = (s.m_s - μ) / 600 := by rw [hm]; ring
  have hzp : 0 < (s.m_s - μ) / 600 := div_pos (by linarith) (by norm_num)
  have e : (-1) * μ / s.rho = -1 * μ / 600 := by rw [hr]
  show Except.ok (adj_snow (calmEnv vol) ((-1) * μ / s.rho) 0 { s with melt := μ, h2o_total := s.h2o_total + μ }) = _
  rw [e, adj_snow_clip]
  · have e : ({ s with melt := μ, h2o_total := s.h2o_total + μ, z_s := (s.m_s + 0) / 600, m_s := s.m_s + 0, rho := 600 } : Snow).layer_count = 2 := hs.lc
    have hzl : (s.z_s - 0.25) = s.z_s_l := by rw [hs.z]; ring
    have heavy := hs.heavy
    rw [hr] at heavy
    rw [adj_layers_deep e]
    · simp only [add_zero, hzm, hzl, Except.ok.injEq, Snow.mk.injEq, true_and, and_true]
      refine ⟨hr.symm, hs.z0.symm, ?_, ?_⟩
      · rw [hs.m0, hr, hs.z0]
      · rw [hs.ml, hr]
    · show 1 < s.m_s + 0
      rw [add_zero, hm, hs.z]; linarith
    · show 0.25 < (s.m_s + 0) / 600
      rw [add_zero, hzm, hs.z]; linarith [hs.zl]
    · show 1 ≤ ((s.m_s + 0) / 600 - 0.25) * 600
      rw [add_zero, hzm, hzl]; linarith
  · unfold adjRho
    show (if s.z_s + -1 * μ / 600 ≠ 0 then (s.m_s + 0) / (s.z_s + -1 * μ / 600) else 0) > 600
    rw [hz, if_pos hzp.ne', add_zero, gt_iff_lt, lt_div_iff₀ hzp]
    linarith

/-- Nothing evaporates or condenses. -/
theorem evap_deep {vol dt : ℝ} {i : InputData} {s : Snow} (hs : Deep s) (hf : s.snowcover = true)
    (hi : i.t_g = FREEZE) (hE : s.E = 0) (hr : s.rho ≤ 600) :
    evap_cond (calmEnv vol) i dt s = .ok { s with E_s := 0 } := by
  have e0 : evapH2o s.h2o_total 0 = s.h2o_total := by
    unfold evapH2o
    split
    · rename_i h
      simp [not_le.mpr h]
    · rfl
  unfold evap_cond
  rw [if_neg (by rw [hf]; simp)]
  have hE' : s.E * dt = 0 := by rw [hE, zero_mul]
  simp only [hE', e0]
  have hlc := hs.lc
  have e1 : ({ s with h2o_total := s.h2o_total } : Snow) = s := rfl
  simp only [hlc, OfNat.ofNat_ne_zero, if_false, soilEvap_deep hi hlc hs.tl, bind_ok, pure_ok, e0, add_zero]
  have e2 : ({ s with E_s := 0 } : Snow).layer_count = 2 := hlc
  rw [if_pos (by rw [e2]; norm_num)]
  have hrn : ({ s with E_s := 0 } : Snow).rho ≠ 0 := hs.rho.ne'
  simp only [zero_add, sub_self]
  rw [pdiv_of_ne hs.rho.ne', bind_ok, zero_div, zero_div]
  have ea : adjRho 0 0 ({ s with E_s := 0 } : Snow) = s.rho := by
    unfold adjRho
    show (if s.z_s + 0 ≠ 0 then (s.m_s + 0) / (s.z_s + 0) else 0) = s.rho
    have : s.z_s ≠ 0 := hs.z_pos.ne'
    rw [add_zero, add_zero, if_pos this, hs.m]
    field_simp
  rw [adj_snow_still (by rw [ea]; simpa using hr), ea]
  simp only [add_zero, Except.ok.injEq, Snow.mk.injEq, true_and, and_true]
  exact ⟨hs.m0.symm, hs.ml.symm⟩

/-- Runoff of the water above the retention capacity. -/
theorem runoff_deep {vol cap : ℝ} {s : Snow} (hs : Deep s) (hf : s.snowcover = true)
    (hcap : cap = h2o_left s.z_s ((s.m_s - s.h2o_total) / s.z_s) vol) (hgt : cap < s.h2o_total)
    (hr : s.rho ≤ 600) {ρ : ℝ} (hρ : ρ = (s.m_s - (s.h2o_total - cap)) / s.z_s) :
    runoff (calmEnv vol) s = .ok
      { s with h2o_max := cap, swi := s.h2o_total - cap, h2o := cap, h2o_sat := 1, h2o_vol := vol
               m_s := s.m_s - (s.h2o_total - cap), rho := ρ
               m_s_0 := ρ * s.z_s_0, m_s_l := ρ * s.z_s_l } := by
  unfold runoff
  rw [if_neg (by rw [hf, hs.lc]; simp)]
  have hz : s.z_s ≠ 0 := hs.z_pos.ne'
  simp only [pdiv_of_ne hz, bind_ok]
  have e : h2o_left s.z_s ((s.m_s - s.h2o_total) / s.z_s) (calmEnv vol).max_h2o_vol = cap := by
    rw [hcap]; rfl
  simp only [e]
  rw [if_pos hgt]
  have ea : adjRho 0 (-(s.h2o_total - cap)) ({ s with h2o_max := cap, swi := s.h2o_total - cap, h2o := cap, h2o_sat := 1, h2o_vol := (calmEnv vol).max_h2o_vol } : Snow) = ρ := by
    unfold adjRho
    show (if s.z_s + 0 ≠ 0 then (s.m_s + -(s.h2o_total - cap)) / (s.z_s + 0) else 0) = _
    rw [add_zero, if_pos hz, hρ]
    ring
  rw [pure_ok, adj_snow_still, ea]
  · simp only [Except.ok.injEq, Snow.mk.injEq, true_and, and_true]
    exact ⟨by ring, rfl⟩
  · rw [ea, not_lt, hρ, div_le_iff₀ hs.z_pos]
    have h1 : s.m_s = s.rho * s.z_s := hs.m
    have h2 : s.rho * s.z_s ≤ 600 * s.z_s := mul_le_mul_of_nonneg_right hr hs.z_pos.le
    linarith

theorem temps_deep {s : Snow} (h2 : s.layer_count = 2) (h0 : s.t_s_0 = FREEZE) (hl : s.t_s_l = FREEZE) (ht : s.t_s = FREEZE)
    (hc : s.cc_s_0 = 0) (hcl : s.cc_s_l = 0) : s.adjust_layer_temps = .ok s := by
  unfold Snow.adjust_layer_temps
  rw [if_neg (by rw [h2]; norm_num), if_pos h2, if_pos]
  · rw [pure_ok, Except.ok.injEq]
    cases s
    simp_all
  · unfold Snow.isothermal
    simp [hc, hcl, Snow.cc_s, h2]

/-- Runoff when all water is retained. -/
theorem runoff_deep_dry {vol cap : ℝ} {s : Snow} (hs : Deep s) (hf : s.snowcover = true)
    (hcap : cap = h2o_left s.z_s ((s.m_s - s.h2o_total) / s.z_s) vol) (hle : s.h2o_total ≤ cap) (h0 : cap ≠ 0) :
    runoff (calmEnv vol) s = .ok
      { s with h2o_max := cap, swi := 0, h2o := s.h2o_total, h2o_sat := s.h2o_total / cap
               h2o_vol := s.h2o_total / cap * vol } := by
  unfold runoff
  rw [if_neg (by rw [hf, hs.lc]; simp)]
  have hz : s.z_s ≠ 0 := hs.z_pos.ne'
  simp only [pdiv_of_ne hz, bind_ok]
  have e : h2o_left s.z_s ((s.m_s - s.h2o_total) / s.z_s) (calmEnv vol).max_h2o_vol = cap := by
    rw [hcap]; rfl
  simp only [e]
  rw [if_neg (not_lt.mpr hle), pdiv_of_ne h0]
  rfl

/-- Cooling of ripe deep snow that refreezes the water of the surface layer. -/
theorem snowmelt_freeze {vol dt Q w : ℝ} {s : Snow} (hs : RipeDeep s) (hf : s.snowcover = true)
    (hG : s.en.G = s.en.G_0) (hQ : s.en.delta_Q_0 * dt = Q) (hneg : Q < 0)
    (hw : w = s.h2o_total * (s.z_s_0 / s.z_s)) (hw0 : 0 < s.h2o_total) (hleft : Q + w * 333600 ≤ 0)
    (hrest : 1e-8 < s.h2o_total - w) :
    snowmelt (calmEnv vol) dt s = .ok { s with melt := 0, cc_s_0 := Q + w * 333600, h2o_total := s.h2o_total - w } := by
  have hQ' : meltQ0 dt s = Q := by unfold meltQ0; rw [hs.cc0, hQ, add_zero]
  have hQl : meltQl dt s = 0 := by unfold meltQl; rw [if_pos hs.lc, hG, hs.ccl]; ring
  have hml : meltLayers dt s = { s with melt := 0, cc_s_0 := Q } := by
    unfold meltLayers
    have hlc := hs.lc
    unfold Snow.layer_count at hlc
    simp only [hQ', hQl]
    rw [if_neg (not_lt.mpr hneg.le), if_neg hneg.ne]
    simp only [Snow.layer_count, hlc]
    simp [← hs.ccl]
  have hz : s.z_s ≠ 0 := hs.z_pos.ne'
  unfold snowmelt
  rw [if_neg (by rw [hf]; simp)]
  simp only [hml, hQ', hQl]
  have e1 : refreezeSurf Q { s with melt := 0, cc_s_0 := Q } = .ok ({ s with melt := 0, cc_s_0 := Q + w * 333600 }, w) := by
    unfold refreezeSurf
    rw [if_pos ⟨hneg, hw0⟩]
    simp only [pdiv_of_ne hz, bind_ok, ← hw, lf_eq]
    rw [if_pos hleft, pure_ok]
  have e2 : refreezeLower 0 { s with melt := 0, cc_s_0 := Q + w * 333600 } w =
      .ok ({ s with melt := 0, cc_s_0 := Q + w * 333600 }, w) := by
    unfold refreezeLower
    rw [if_neg]
    simp [hs.ccl]
  have e3 : refreezeSnap { s with melt := 0, cc_s_0 := Q + w * 333600 } w =
      { s with melt := 0, cc_s_0 := Q + w * 333600, h2o_total := s.h2o_total - w } := by
    unfold refreezeSnap
    rw [if_neg]
    rw [abs_of_nonneg (by show 0 ≤ s.h2o_total - w; linarith)]
    show ¬ s.h2o_total - w ≤ 1e-8
    linarith
  rw [e1, bind_ok]
  dsimp only
  rw [e2, bind_ok, e3, if_neg (by simp)]
  rfl

/-- A calm step over ripe deep snow: no compaction, then precipitation, melt and drainage. -/
theorem stepPhys_deep {vol dt R : ℝ} {dl i : InputData} {p : Phys} (hs : RipeDeep p.snow)
    (ei : (if p.input1.precip_now then p.input1.update_precip_deltas dl else p.input1) = i)
    (hc : CalmInput i) (hr : 550 ≤ p.snow.rho) (hR : net_radiation i p.snow = R)
    (hi : (p.init_ustar = none ∧ p.init_factor = none) ∨ (p.init_ustar = some 0 ∧ p.init_factor = some 0))
    (hM : advec i dt p.snow = .ok 0) {s' : Snow}
    (h : (precip_event (calmEnv vol) i (radiated R p.snow) >>= afterPrecip (calmEnv vol) i dt) = .ok s') :
    stepPhys (calmEnv vol) dt dl p = .ok
      { snow := s', input1 := i, init_ustar := some 0, init_factor := some 0 } := by
  unfold stepPhys
  have e1 : (if p.input1.precip_now then { p with input1 := p.input1.update_precip_deltas dl } else p) =
      { p with input1 := i } := by
    rw [← ei]; split <;> rfl
  rw [e1]
  dsimp only
  have e2 : decide (({ p.snow with h2o_total := 0 } : Snow).layer_count > 0) = true := by
    have : ({ p.snow with h2o_total := 0 } : Snow).layer_count = 2 := hs.lc
    rw [this]; decide
  rw [e2]
  have hs' : RipeDeep { p.snow with h2o_total := 0, snowcover := true } :=
    ⟨⟨hs.z0, hs.zl, hs.z, hs.z_le, hs.rho, hs.heavy, hs.tl, hs.m, hs.m0, hs.ml⟩, hs.t0, hs.t, hs.cc0, hs.ccl⟩
  have eb := energy_deep (vol := vol) (dt := dt)
    (p := { p with snow := { p.snow with h2o_total := 0, snowcover := true }, input1 := i }) hs' hc hi hM
  have hR' : net_radiation i { p.snow with h2o_total := 0, snowcover := true } = R := hR
  simp only [hR'] at eb
  rw [eb, bind_ok]
  unfold mass_balance
  have tc : time_compact (calmEnv vol) dt (radiated R p.snow) = .ok (radiated R p.snow) := by
    unfold time_compact
    rw [if_pos (.inr hr)]
  have key : (do
      let s ← time_compact (calmEnv vol) dt (radiated R p.snow)
      let s ← precip_event (calmEnv vol) i s
      afterPrecip (calmEnv vol) i dt s) = .ok s' := by
    rw [tc, bind_ok]; exact h
  unfold afterPrecip radiated at key
  dsimp only at key ⊢
  rw [key, bind_ok]
  rfl

/-- Half a metre of ripe dry snow at the maximum density; water capacity 1 %, hourly normal steps. -/
def halfMetreCfg : Config := { calmCfg 60 0.01 0.5 600 0 with init_t_s_l := some FREEZE }

/-- Calm, dry weather at the freezing point with net radiation `R`. -/
def radRec (R : ℝ) : Rec := { calmRec 0 0 1 300 with I_lw := STEF_BOLTZ * FREEZE ^ 4 + R / SNOW_EMISSIVITY }

theorem halfMetreCfg_tiled : halfMetreCfg.Tiled := calmCfg_tiled 60 0.01 0.5 600 0

theorem halfMetreCfg_env : mkEnv halfMetreCfg = .ok (calmEnv 0.01) := calmCfg_env 60 0.01 0.5 600 0

theorem init_deep : ∃ s, init_snow (calmEnv 0.01) (recordSnow halfMetreCfg) = .ok s ∧ RipeDeep s ∧ s.rho = 600 ∧ s.z_s = 0.5 ∧
    s.h2o = 0 := by
  have hc : Snow.calc_layers (calmEnv 0.01) { recordSnow halfMetreCfg with
      m_s := (recordSnow halfMetreCfg).rho * (recordSnow halfMetreCfg).z_s } =
      { Snow.zero with
        z_s := 0.5, rho := 600, t_s_0 := FREEZE, t_s := FREEZE, h2o_sat := 0, t_s_l := FREEZE
        m_s := 300, z_s_0 := 0.25, z_s_l := 0.25 } := by
    unfold Snow.calc_layers
    norm_num [recordSnow, halfMetreCfg, calmCfg, defaultSteps, Snow.zero, calmEnv]
  have hl : ({ Snow.zero with
        z_s := 0.5, rho := 600, t_s_0 := FREEZE, t_s := FREEZE, h2o_sat := 0, t_s_l := FREEZE
        m_s := 300, z_s_0 := 0.25, z_s_l := 0.25 } : Snow).layer_count = 2 :=
    lc_eq_two.mpr ⟨by norm_num, by norm_num⟩
  unfold init_snow
  rw [hc]
  unfold initLayers
  rw [if_neg (by rw [hl]; norm_num)]
  unfold initWater initCold Snow.dry_snow_density cold_content
  simp only [hl, if_true, lt_irrefl, if_false, zero_mul, sub_zero, zero_div]
  rw [pdiv_of_ne (by norm_num), bind_ok, pure_ok]
  refine ⟨_, rfl, ⟨⟨rfl, ?_, ?_, ?_, ?_, ?_, rfl, ?_, rfl, rfl⟩, rfl, rfl, rfl, rfl⟩, rfl, rfl, rfl⟩ <;> norm_num

theorem radRec_new (R : ℝ) : InputData.new (radRec R) = .ok (radRec R).toInput := by
  rw [new_eq, if_neg]
  rintro ⟨_, _, h⟩
  exact absurd h (by norm_num [radRec, calmRec])

theorem radRec_dry (R : ℝ) : (radRec R).toInput.precip_now = false :=
  decide_eq_false (p := 0 < (radRec R).m_pp) (by norm_num [radRec, calmRec])

theorem radRec_calm (R : ℝ) : CalmInput (radRec R).toInput :=
  ⟨rfl, rfl, rfl, by norm_num [radRec, calmRec, Rec.toInput]⟩

theorem radRec_net (R : ℝ) {s : Snow} (h : s.t_s_0 = FREEZE) : net_radiation (radRec R).toInput s = R := by
  unfold net_radiation
  rw [h]
  simp only [Rec.toInput, radRec, calmRec, SNOW_EMISSIVITY]
  ring

/-- A day of the deep pack: up to 1 kg/m² melts and stays in the pack. -/
theorem deep_melt {μ : ℝ} (hμ : 1e-8 < μ) (hμ1 : μ ≤ 1) {dl : InputData} {p : Phys} (hs : RipeDeep p.snow) (hr : p.snow.rho = 600) (hz : p.snow.z_s = 0.5) (hw : p.snow.h2o = 0)
    (hi : (p.init_ustar = none ∧ p.init_factor = none) ∨ (p.init_ustar = some 0 ∧ p.init_factor = some 0))
    (e : p.input1 = (radRec (333600 * μ / 3600)).toInput) :
    ∃ p', stepPhys (calmEnv 0.01) 3600 dl p = .ok p' ∧ RipeDeep p'.snow ∧ p'.snow.rho = 600 ∧ p'.snow.z_s = 0.5 ∧ p'.snow.h2o = μ ∧
      p'.snow.snowcover = true ∧ p'.snow.melt = μ ∧ p'.snow.E = 0 ∧ p'.snow.E_s = 0 ∧ p'.snow.swi = 0 ∧
      p'.snow.en.delta_Q = 333600 * μ / 3600 ∧ p'.input1 = p.input1 ∧ p'.init_ustar = some 0 ∧ p'.init_factor = some 0 := by
  have hm : p.snow.m_s = 300 := by rw [hs.m, hr, hz]; norm_num
  have hnp : p.input1.precip_now = false := by rw [e]; exact radRec_dry _
  obtain ⟨q, hq⟩ : ∃ q : Snow, q = { radiated (333600 * μ / 3600) p.snow with h2o_total := 0 } := ⟨_, rfl⟩
  have hpe : precip_event (calmEnv 0.01) p.input1 (radiated (333600 * μ / 3600) p.snow) = .ok q := by
    unfold precip_event
    rw [if_neg (by rw [hnp]; simp), hq]
    simp [radiated, hw]
  have hrq : RipeDeep q := by
    rw [hq]
    exact ⟨⟨hs.z0, hs.zl, hs.z, hs.z_le, hs.rho, hs.heavy, hs.tl, hs.m, hs.m0, hs.ml⟩, hs.t0, hs.t, hs.cc0, hs.ccl⟩
  have hsm := snowmelt_deep (vol := 0.01) (dt := 3600) hrq (by rw [hq]; rfl) (by rw [hq]; exact hr) (by rw [hq]; rfl)
    (by rw [hq]) (μ := μ) (by rw [hq]; show 333600 * μ / 3600 * 3600 = _; ring) hμ
    (by rw [hq]; show μ < p.snow.m_s; rw [hm]; linarith)
  have hev := evap_deep (vol := 0.01) (dt := 3600) (i := p.input1) (s := { q with melt := μ, h2o_total := q.h2o_total + μ })
    ⟨hrq.z0, hrq.zl, hrq.z, hrq.z_le, hrq.rho, hrq.heavy, hrq.tl, hrq.m, hrq.m0, hrq.ml⟩ (by rw [hq]; rfl) (by rw [e]; rfl) (by rw [hq]; rfl)
    (by rw [hq]; exact hr.le)
  have e5 : ∀ t : Snow, 550 < t.rho → h2o_compact (calmEnv 0.01) p.input1 t = .ok t := by
    intro t ht
    unfold h2o_compact
    rw [if_pos (.inr ht)]
  have hD : Deep { q with melt := μ, h2o_total := q.h2o_total + μ, E_s := 0 } :=
    ⟨hrq.z0, hrq.zl, hrq.z, hrq.z_le, hrq.rho, hrq.heavy, hrq.tl, hrq.m, hrq.m0, hrq.ml⟩
  obtain ⟨cap, hcap⟩ : ∃ cap : ℝ, cap = h2o_left q.z_s ((q.m_s - (q.h2o_total + μ)) / q.z_s) 0.01 := ⟨_, rfl⟩
  have hqv : q.z_s = 0.5 ∧ q.m_s = 300 ∧ q.h2o_total = 0 := by rw [hq]; exact ⟨hz, hm, rfl⟩
  have hcap1 : 1 < cap := by
    rw [hcap, hqv.1, hqv.2.1, hqv.2.2]
    norm_num [h2o_left, RHO_ICE, RHO_W0]
    linarith
  have hro := runoff_deep_dry (vol := 0.01) hD (by rw [hq]; rfl) hcap
    (by show q.h2o_total + μ ≤ cap; rw [hqv.2.2]; linarith) (by linarith)
  have hnet := radRec_net (333600 * μ / 3600) hs.t0
  rw [← e] at hnet
  have hfin := stepPhys_deep (vol := 0.01) (dt := 3600) (dl := dl) (i := p.input1) (p := p) hs
    (by rw [if_neg (by rw [hnp]; simp)]) (by rw [e]; exact radRec_calm _) (by rw [hr]; norm_num)
    hnet hi (by unfold advec; rw [if_neg (by rw [hnp]; simp)])
    (by
      rw [hpe, bind_ok]
      unfold afterPrecip
      rw [hsm, bind_ok, hev, bind_ok, e5 _ (by show 550 < q.rho; rw [hq]; show 550 < p.snow.rho; rw [hr]; norm_num), bind_ok, hro, bind_ok]
      rw [if_pos (by rw [hq]; rfl)]
      exact temps_deep (lc_eq_two.mpr ⟨(by show 0 < q.z_s_0; rw [hrq.z0]; norm_num), hrq.zl⟩) hrq.t0 hrq.tl hrq.t hrq.cc0 hrq.ccl)
  refine ⟨_, hfin, ⟨⟨hrq.z0, hrq.zl, hrq.z, hrq.z_le, hrq.rho, hrq.heavy, hrq.tl, hrq.m, hrq.m0, hrq.ml⟩, hrq.t0, hrq.t, hrq.cc0, hrq.ccl⟩,
    ?_, hqv.1, ?_, ?_, rfl, ?_, rfl, rfl, ?_, rfl, rfl, rfl⟩
  · show q.rho = 600
    rw [hq]; exact hr
  · show q.h2o_total + μ = μ
    rw [hqv.2.2]; ring
  · show q.snowcover = true
    rw [hq]; rfl
  · show q.E = 0
    rw [hq]; rfl
  · show q.en.delta_Q = _
    rw [hq]; rfl

/-- A day of the deep pack: 1 kg/m² melts and stays in the pack. -/
theorem deep_day {dl : InputData} {p : Phys} (hs : RipeDeep p.snow) (hr : p.snow.rho = 600) (hz : p.snow.z_s = 0.5) (hw : p.snow.h2o = 0)
    (hi : (p.init_ustar = none ∧ p.init_factor = none) ∨ (p.init_ustar = some 0 ∧ p.init_factor = some 0))
    (e : p.input1 = (radRec (333600 / 3600)).toInput) :
    ∃ p', stepPhys (calmEnv 0.01) 3600 dl p = .ok p' ∧ RipeDeep p'.snow ∧ p'.snow.rho = 600 ∧ p'.snow.z_s = 0.5 ∧ p'.snow.h2o = 1 ∧
      p'.snow.snowcover = true ∧ p'.snow.melt = 1 ∧ p'.snow.E = 0 ∧ p'.snow.E_s = 0 ∧ p'.snow.swi = 0 ∧
      p'.snow.en.delta_Q = 333600 / 3600 ∧ p'.input1 = p.input1 ∧ p'.init_ustar = some 0 ∧ p'.init_factor = some 0 := by
  obtain ⟨p', h⟩ := deep_melt (μ := 1) (dl := dl) (by norm_num) (le_refl _) hs hr hz hw hi (by rw [mul_one]; exact e)
  rw [mul_one] at h
  exact ⟨p', h⟩

/-- A night of the deep pack: the water of the surface layer refreezes and the layer cools. -/
theorem deep_night {dl : InputData} {p : Phys} (hs : RipeDeep p.snow) (hr : p.snow.rho = 600) (hz : p.snow.z_s = 0.5) (hw : p.snow.h2o = 1)
    (hi : (p.init_ustar = none ∧ p.init_factor = none) ∨ (p.init_ustar = some 0 ∧ p.init_factor = some 0))
    (e : p.input1 = (radRec (-333600 / 3600)).toInput) :
    ∃ p', stepPhys (calmEnv 0.01) 3600 dl p = .ok p' ∧ Deep p'.snow ∧ p'.snow.rho = 600 ∧ p'.snow.z_s = 0.5 ∧ p'.snow.h2o = 0.5 ∧
      p'.snow.snowcover = true ∧ p'.snow.melt = 0 ∧ p'.snow.E = 0 ∧ p'.snow.E_s = 0 ∧ p'.snow.swi = 0 ∧
      p'.snow.en.delta_Q = -333600 / 3600 ∧ p'.snow.cc_s_0 = -166800 ∧ p'.snow.cc_s_l = 0 ∧ p'.input1 = p.input1 := by
  have hm : p.snow.m_s = 300 := by rw [hs.m, hr, hz]; norm_num
  have hnp : p.input1.precip_now = false := by rw [e]; exact radRec_dry _
  obtain ⟨q, hq⟩ : ∃ q : Snow, q = { radiated (-333600 / 3600) p.snow with h2o_total := 1 } := ⟨_, rfl⟩
  have hpe : precip_event (calmEnv 0.01) p.input1 (radiated (-333600 / 3600) p.snow) = .ok q := by
    unfold precip_event
    rw [if_neg (by rw [hnp]; simp), hq]
    simp [radiated, hw]
  have hrq : RipeDeep q := by
    rw [hq]
    exact ⟨⟨hs.z0, hs.zl, hs.z, hs.z_le, hs.rho, hs.heavy, hs.tl, hs.m, hs.m0, hs.ml⟩, hs.t0, hs.t, hs.cc0, hs.ccl⟩
  have hqv : q.z_s = 0.5 ∧ q.m_s = 300 ∧ q.h2o_total = 1 ∧ q.rho = 600 := by rw [hq]; exact ⟨hz, hm, rfl, hr⟩
  have hsm := snowmelt_freeze (vol := 0.01) (dt := 3600) (Q := -333600) (w := 0.5) hrq (by rw [hq]; rfl) (by rw [hq]; rfl)
    (by rw [hq]; show -333600 / 3600 * 3600 = _; norm_num) (by norm_num) (by rw [hqv.1, hqv.2.2.1, hrq.z0]; norm_num)
    (by rw [hqv.2.2.1]; norm_num) (by norm_num) (by rw [hqv.2.2.1]; norm_num)
  obtain ⟨u, hu⟩ : ∃ u : Snow, u = { q with melt := 0, cc_s_0 := -333600 + 0.5 * 333600, h2o_total := q.h2o_total - 0.5 } := ⟨_, rfl⟩
  rw [← hu] at hsm
  have hDu : Deep u := by
    rw [hu]; exact ⟨hrq.z0, hrq.zl, hrq.z, hrq.z_le, hrq.rho, hrq.heavy, hrq.tl, hrq.m, hrq.m0, hrq.ml⟩
  have huv : u.z_s = 0.5 ∧ u.m_s = 300 ∧ u.h2o_total = 0.5 ∧ u.rho = 600 ∧ u.snowcover = true ∧ u.E = 0 ∧ u.cc_s_0 = -166800 ∧
      u.cc_s_l = 0 ∧ u.t_s_0 = FREEZE ∧ u.t_s = FREEZE ∧ u.melt = 0 ∧ u.en.delta_Q = -333600 / 3600 := by
    rw [hu]
    refine ⟨hqv.1, hqv.2.1, ?_, hqv.2.2.2, by rw [hq]; rfl, by rw [hq]; rfl, by norm_num, hrq.ccl, hrq.t0, hrq.t, rfl, by rw [hq]; rfl⟩
    show q.h2o_total - 0.5 = 0.5
    rw [hqv.2.2.1]; norm_num
  obtain ⟨u1, u2, u3, u4, u5, u6, u7, u8, u9, u10, u11, u12⟩ := huv
  have hev := evap_deep (vol := 0.01) (dt := 3600) (i := p.input1) hDu u5 (by rw [e]; rfl) u6 u4.le
  have e5 : ∀ t : Snow, 550 < t.rho → h2o_compact (calmEnv 0.01) p.input1 t = .ok t := by
    intro t ht
    unfold h2o_compact
    rw [if_pos (.inr ht)]
  have hD : Deep { u with E_s := 0 } :=
    ⟨hDu.z0, hDu.zl, hDu.z, hDu.z_le, hDu.rho, hDu.heavy, hDu.tl, hDu.m, hDu.m0, hDu.ml⟩
  obtain ⟨cap, hcap⟩ : ∃ cap : ℝ, cap = h2o_left u.z_s ((u.m_s - u.h2o_total) / u.z_s) 0.01 := ⟨_, rfl⟩
  have hcap1 : 1 < cap := by
    rw [hcap, u1, u2, u3]
    norm_num [h2o_left, RHO_ICE, RHO_W0]
  have hro := runoff_deep_dry (vol := 0.01) hD u5 hcap (by show u.h2o_total ≤ cap; rw [u3]; linarith) (by linarith)
  obtain ⟨v, hv⟩ : ∃ v : Snow, v = { u with E_s := 0, h2o_max := cap, swi := 0, h2o := u.h2o_total, h2o_sat := u.h2o_total / cap, h2o_vol := u.h2o_total / cap * 0.01 } := ⟨_, rfl⟩
  have hro : runoff (calmEnv 0.01) { u with E_s := 0 } = .ok v := by rw [hv]; exact hro
  have hvc : v.cc_s_0 = -166800 ∧ v.cc_s_l = 0 ∧ v.t_s_l = FREEZE ∧ v.t_s_0 = FREEZE ∧ v.t_s = FREEZE ∧ v.m_s_0 = 150 ∧ v.m_s_l = 150 ∧
      v.m_s = 300 ∧ v.layer_count = 2 := by
    rw [hv]
    refine ⟨u7, u8, hDu.tl, u9, u10, ?_, ?_, u2, hDu.lc⟩
    · show u.m_s_0 = 150
      rw [hDu.m0, hDu.z0, u4]; norm_num
    · show u.m_s_l = 150
      have := hDu.z
      rw [u1] at this
      rw [hDu.ml, u4]; linarith
  obtain ⟨v1, v2, v3, v4, v5, v6, v7, v8, v9⟩ := hvc
  have hcp : cp_ice FREEZE ≠ 0 := by norm_num [cp_ice, FREEZE, CAL_TO_J]
  have htl : new_tsno v.m_s_l v.t_s_l v.cc_s_l = .ok FREEZE := by
    rw [v7, v3, v2]; exact new_tsno_ripe (by norm_num)
  obtain ⟨a, b, hadj⟩ : ∃ a b, v.adjust_layer_temps = .ok { v with t_s_0 := a, t_s_l := FREEZE, t_s := b } := by
    unfold Snow.adjust_layer_temps
    rw [if_neg (by rw [v9]; norm_num), if_pos v9, if_neg (by
      unfold Snow.isothermal Snow.cc_s
      rw [v1, v2]; norm_num), htl]
    unfold new_tsno
    rw [v4, v5, v6, v8]
    dsimp only
    rw [pdiv_of_ne (mul_ne_zero (by norm_num) hcp), pdiv_of_ne (mul_ne_zero (by norm_num) hcp)]
    exact ⟨_, _, rfl⟩
  have hnet := radRec_net (-333600 / 3600) hs.t0
  rw [← e] at hnet
  have hfin := stepPhys_deep (vol := 0.01) (dt := 3600) (dl := dl) (i := p.input1) (p := p) hs
    (by rw [if_neg (by rw [hnp]; simp)]) (by rw [e]; exact radRec_calm _) (by rw [hr]; norm_num)
    hnet hi (by unfold advec; rw [if_neg (by rw [hnp]; simp)])
    (by
      rw [hpe, bind_ok]
      unfold afterPrecip
      rw [hsm, bind_ok, hev, bind_ok, e5 _ (by show 550 < u.rho; rw [u4]; norm_num), bind_ok, hro, bind_ok]
      rw [if_pos (by rw [hv]; exact u5)]
      exact hadj)
  refine ⟨_, hfin, ?_, ?_⟩
  · rw [hv]
    exact ⟨hDu.z0, hDu.zl, hDu.z, hDu.z_le, hDu.rho, hDu.heavy, rfl, hDu.m, hDu.m0, hDu.ml⟩
  · rw [hv]
    exact ⟨u4, u1, u3, u5, u11, u6, rfl, rfl, u12, u7, u8, rfl⟩

/-- A day and a night of the deep pack, with the density it starts with. -/
theorem deep_run_full : ∃ x y m, RunTrace halfMetreCfg [radRec (333600 / 3600), radRec (-333600 / 3600), radRec (-333600 / 3600)] [[x], [y]] m ∧
    x.lv = .normal ∧ y.lv = .normal ∧ RipeDeep x.pre.snow ∧ RipeDeep x.post.snow ∧ Deep y.post.snow ∧
    x.post.snow.rho = 600 ∧ y.pre.snow = x.post.snow ∧ x.pre.snow.h2o = 0 ∧ x.pre.snow.m_s = 300 ∧
    (x.post.snow.snowcover = true ∧ x.post.snow.melt = 1 ∧ x.post.snow.h2o = 1 ∧ x.post.snow.swi = 0 ∧ x.post.snow.E = 0 ∧ x.post.snow.E_s = 0 ∧
      x.post.snow.en.delta_Q = 333600 / 3600 ∧ x.post.input1.precip_now = false ∧ x.post.snow.m_s = 300) ∧
    (y.post.snow.snowcover = true ∧ y.post.snow.melt = 0 ∧ y.post.snow.h2o = 0.5 ∧ y.post.snow.swi = 0 ∧ y.post.snow.E = 0 ∧ y.post.snow.E_s = 0 ∧
      y.post.snow.en.delta_Q = -333600 / 3600 ∧ y.post.input1.precip_now = false ∧ y.post.snow.cc_s_0 = -166800 ∧ y.post.snow.cc_s_l = 0) ∧ x.pre.snow.rho = 600 := by
  obtain ⟨s0, hs0, f1, f2, f3, f4⟩ := init_deep
  have hthr : ∀ s : Snow, RipeDeep s → s.rho = 600 → s.z_s = 0.5 → below_thold 60 s = false := by
    intro s hs hr hz
    unfold below_thold
    have := hs.z
    rw [hz] at this
    rw [if_neg (by rw [hs.lc]; norm_num), if_neg (by rw [hs.lc]; norm_num), hs.m0, hs.ml, hs.z0, hr]
    have : s.z_s_l = 0.25 := by linarith
    rw [this]; norm_num
  obtain ⟨p1, d1, d2, d3, d4, d5, d6, d7, d8, d9, d10, d11, d12, d13, d14⟩ :=
    deep_day (dl := (deltaRec (radRec (333600 / 3600)).toInput (radRec (-333600 / 3600)).toInput 1).toInput)
      (p := ⟨s0, (radRec (333600 / 3600)).toInput, none, none⟩) f1 f2 f3 f4 (.inl ⟨rfl, rfl⟩) rfl
  obtain ⟨p2, n1, n2, n3, n4, n5, n6, n7, n8, n9, n10, n11, n12, n13, n14⟩ :=
    deep_night (dl := (deltaRec (radRec (-333600 / 3600)).toInput (radRec (-333600 / 3600)).toInput 1).toInput)
      (p := ⟨p1.snow, (radRec (-333600 / 3600)).toInput, p1.init_ustar, p1.init_factor⟩) d2 d3 d4 d5 (.inr ⟨d13, d14⟩) rfl
  have hm1 : ∀ s : Snow, RipeDeep s → s.rho = 600 → s.z_s = 0.5 → s.m_s = 300 := by
    intro s hs hr hz
    rw [hs.m, hr, hz]; norm_num
  obtain ⟨ls, m, h1, y, h2, h3, h4, h5⟩ := first_trace halfMetreCfg_tiled halfMetreCfg_env hs0 (radRec_new _) (radRec_new _) (rs := [radRec (-333600 / 3600)])
    (hthr s0 f1 f2 f3) (p' := p1) (by
      have : ((halfMetreCfg.norm_time_step * 60 : ℤ) : ℝ) = 3600 := by norm_num [halfMetreCfg, calmCfg, defaultSteps]
      rw [this]; exact d1)
    (P := fun ls m => ∃ y : RStep Phys, ls = [[y]] ∧ y.lv = .normal ∧ y.pre.snow = p1.snow ∧ y.post = p2) (by
      intro ts m1 hts e1 e2 e3
      have ht := parse_tile halfMetreCfg_tiled hts
      obtain ⟨_, _, en, _, _⟩ := parse_ok hts
      have ep : ({ m1.phys with input1 := (radRec (-333600 / 3600)).toInput } : Phys) =
          ⟨p1.snow, (radRec (-333600 / 3600)).toInput, p1.init_ustar, p1.init_factor⟩ := by rw [e1]
      obtain ⟨m2, q1, q2, q3, q4, q5⟩ := executed_normal (c := calmEnv 0.01) (all := halfMetreCfg.output_all)
        (i2 := (radRec (-333600 / 3600)).toInput) (m := m1) ht (radRec_new _) e2
        (by rw [en, e1]; exact hthr _ d2 d3 d4) (p' := p2) (by
          rw [en, ep]
          have : ((halfMetreCfg.norm_time_step * 60 : ℤ) : ℝ) = 3600 := by norm_num [halfMetreCfg, calmCfg, defaultSteps]
          show stepPhys _ ((halfMetreCfg.norm_time_step * 60 : ℤ) : ℝ) _ _ = _
          rw [this]; exact n1)
      rw [ep] at q2
      exact ⟨_, m2, .cons (radRec_new _) q1 q2 (.nil _ _), _, rfl, rfl, rfl, rfl⟩)
  subst h2
  refine ⟨_, y, m, h1, rfl, h3, f1, d2, ?_, d3, h4, f4, hm1 _ f1 f2 f3, ⟨d6, d7, d5, d10, d8, d9, d11, ?_, hm1 _ d2 d3 d4⟩, ?_, f2⟩
  · rw [h5]; exact n2
  · rw [d12]; exact radRec_dry _
  · rw [h5]
    exact ⟨n6, n7, n5, n10, n8, n9, n11, by rw [n14]; exact radRec_dry _, n12, n13⟩

/-- A day and a night of the deep pack. -/
theorem deep_run : ∃ x y m, RunTrace halfMetreCfg [radRec (333600 / 3600), radRec (-333600 / 3600), radRec (-333600 / 3600)] [[x], [y]] m ∧
    x.lv = .normal ∧ y.lv = .normal ∧ RipeDeep x.pre.snow ∧ RipeDeep x.post.snow ∧ Deep y.post.snow ∧
    x.post.snow.rho = 600 ∧ y.pre.snow = x.post.snow ∧ x.pre.snow.h2o = 0 ∧ x.pre.snow.m_s = 300 ∧
    (x.post.snow.snowcover = true ∧ x.post.snow.melt = 1 ∧ x.post.snow.h2o = 1 ∧ x.post.snow.swi = 0 ∧ x.post.snow.E = 0 ∧ x.post.snow.E_s = 0 ∧
      x.post.snow.en.delta_Q = 333600 / 3600 ∧ x.post.input1.precip_now = false ∧ x.post.snow.m_s = 300) ∧
    (y.post.snow.snowcover = true ∧ y.post.snow.melt = 0 ∧ y.post.snow.h2o = 0.5 ∧ y.post.snow.swi = 0 ∧ y.post.snow.E = 0 ∧ y.post.snow.E_s = 0 ∧
      y.post.snow.en.delta_Q = -333600 / 3600 ∧ y.post.input1.precip_now = false ∧ y.post.snow.cc_s_0 = -166800 ∧ y.post.snow.cc_s_l = 0) := by
  obtain ⟨x, y, m, h, a1, a2, a3, a4, a5, a6, a7, a8, a9, a10, a11, _⟩ := deep_run_full
  exact ⟨x, y, m, h, a1, a2, a3, a4, a5, a6, a7, a8, a9, a10, a11⟩

end

end Pysnobal
