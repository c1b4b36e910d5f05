import Verif.Lemmas.OneStep
import Verif.Lemmas.Admissible
import Verif.Lemmas.HleTotal
import Verif.Lemmas.Hle
import Verif.Props.Functions

/-! # Concrete runs: calm air at the freezing point over snow at the freezing point

In this weather all turbulent, ground and advected heat fluxes vanish, so a run step can be computed
exactly.  Used for non-vacuity examples and counterexamples. -/

namespace Pysnobal

noncomputable section

/-- Saturation over water at the freezing point is above saturation over ice there. -/
theorem freeze_sat_le {t w : ℝ} (h : satw t = .ok w) (ht : t = FREEZE) : 610.71 ≤ w := by
  subst ht
  exact (satw_freeze_gt w h).le

/-- Calm conditions make `hle1` return zero fluxes. -/
theorem hle1_calm {a : HleIn} (v : HleValid a) (hw : a.wind_speed = 0)
    (hu : a.zu ≠ 5.9 * a.z0) (hq : a.zq ≠ 5.9 * a.z0) (ha : a.za ≠ 5.9 * a.z0)
    (hi : (a.init_ustar = none ∧ a.init_factor = none) ∨ (a.init_ustar = some 0 ∧ a.init_factor = some 0))
    (ht : a.air_temp + DALR * a.za ≠ a.surface_temp) :
    hle1 a = .ok { h := 0, le := 0, e := 0, status := 0, ustar := 0, factor := 0 } := by
  obtain ⟨w, _, hc⟩ := hleCheck_of v
  obtain ⟨k, hk, hd, _, _⟩ := hleConst_of v hc
  obtain ⟨qa, qs, vt, _, _, _, e1, e2, _, _, _, e3, _, e4, e5, e6, _, _⟩ := hleConst_ok hk
  have hne : ∀ z, 4.9 * a.z0 < z → z ≠ 5.9 * a.z0 →
      Real.log ((z - 2 * PAESCHKE * a.z0 / 3) / a.z0) ≠ 0 := by
    intro z h1 h2
    have p1 := (profileArg_pos v.z0).mpr h1
    have p2 : profileArg z a.z0 ≠ 1 := fun h => h2 ((profileArg_eq_one v.z0).mp h)
    unfold profileArg at p1 p2
    exact Real.log_ne_zero_of_pos_of_ne_one p1 p2
  have hm : k.ltsm ≠ 0 := by rw [e4]; exact hne _ v.zu hu
  have hh : k.ltsh ≠ 0 := by rw [e5]; exact hne _ v.za ha
  have hv : k.ltsv ≠ 0 := by rw [e6]; exact hne _ v.zq hq
  have hkw : k.wind_speed = 0 := by rw [e3, hw]
  unfold hle1
  rw [hc, bind_ok, hk, bind_ok]
  have hsol : hleSolve a k = .ok (some 49, { lo := none, ustar := 0, factor := 0, e := 0, h := 0 }) := by
    unfold hleSolve
    rw [if_neg (by rw [e1]; exact ht)]
    rcases hi with ⟨h1, h2⟩ | ⟨h1, h2⟩
    · rw [h1, h2]
      simp only [hw, mul_zero, pdiv, hm, if_false, zero_div, bind_ok, zero_mul, hv, hh]
      rw [hleLoop_calm hkw hm hv hh]
      simp [ITMAX]
    · rw [h1, h2]
      simp only [mul_zero, pdiv, if_false, zero_div, bind_ok, zero_mul, hv, hh, pure_ok]
      rw [hleLoop_calm hkw hm hv hh]
      simp [ITMAX]
  rw [hsol, bind_ok]
  simp [hleFinish, ITMAX]

/-- Sea level, sensors at 5 m, water holding capacity `vol`, small threshold 1 kg/m². -/
def calmEnv (vol : ℝ) : Env :=
  { P_a := SEA_LEVEL, z_u := 5, z_t := 5, z_g := 0.5, relative_hts := false, max_z_s_0 := 0.25,
    small_threshold := 1, max_h2o_vol := vol, z_0 := 0.005 }

/-- Forcing: calm air, air and soil at the freezing point. -/
structure CalmInput (i : InputData) : Prop where
  u : i.u = 0
  t_a : i.t_a = FREEZE
  t_g : i.t_g = FREEZE
  e_a : 0 < i.e_a ∧ i.e_a ≤ 610.71

/-- Snow: one layer at the freezing point without cold content. -/
structure RipeSnow (s : Snow) : Prop where
  z0 : 0 < s.z_s_0
  zl : s.z_s_l = 0
  z : s.z_s = s.z_s_0
  z_le : s.z_s_0 ≤ 0.25
  rho : 0 < s.rho
  t0 : s.t_s_0 = FREEZE
  t : s.t_s = FREEZE
  cc0 : s.cc_s_0 = 0
  ccl : s.cc_s_l = 0
  m : s.m_s = s.rho * s.z_s_0
  m0 : s.m_s_0 = s.rho * s.z_s_0
  ml : s.m_s_l = 0

theorem RipeSnow.lc {s : Snow} (h : RipeSnow s) : s.layer_count = 1 := by
  unfold Snow.layer_count
  rw [if_pos h.z0, if_neg (by rw [h.zl]; exact lt_irrefl _)]

theorem efcon_freeze {k : ℝ} (hk : 0 < k) : ∃ v, efcon k FREEZE SEA_LEVEL (some 610.71) = .ok v ∧ 0 < v := by
  unfold efcon diffusion_coef mix_ratio
  rw [pdiv_of_ne (by norm_num [SEA_LEVEL])]
  simp only [bind_ok, pure_ok]
  rw [pdiv_of_ne (by norm_num [SEA_LEVEL])]
  refine ⟨_, rfl, ?_⟩
  norm_num [FREEZE, lh_vap, lh_sub, lh_fus, SEA_LEVEL, MOL_H2O, MOL_AIR]
  linarith

theorem ssxfr_same {k1 k2 t d1 d2 : ℝ} (h1 : 0 < k1) (h2 : 0 < k2) (hd1 : 0 < d1) (hd2 : 0 < d2) :
    ssxfr k1 k2 t t d1 d2 = .ok 0 := by
  unfold ssxfr
  rw [pdiv_of_ne (by positivity)]
  simp

/-- The energy balance of ripe snow in calm weather: net radiation and nothing else. -/
theorem energy_calm {vol dt : ℝ} {p : Phys} (hs : RipeSnow p.snow) (hc : CalmInput p.input1)
    (hi : (p.init_ustar = none ∧ p.init_factor = none) ∨ (p.init_ustar = some 0 ∧ p.init_factor = some 0))
    (hM : advec p.input1 dt p.snow = .ok 0) :
    energy_balance (calmEnv vol) dt p = .ok
      { p with
        snow := { p.snow with
          E := 0
          en := ⟨net_radiation p.input1 p.snow, 0, 0, 0, 0, 0, net_radiation p.input1 p.snow,
            net_radiation p.input1 p.snow⟩ }
        init_ustar := some 0, init_factor := some 0 } := by
  unfold energy_balance
  rw [if_pos (by rw [hs.lc]; norm_num)]
  have hzz : p.snow.z_s ≤ 0.25 := by rw [hs.z]; exact hs.z_le
  have hzp : 0 < p.snow.z_s := by rw [hs.z]; exact hs.z0
  have hh : h_le (calmEnv vol) p = .ok ({ h := 0, le := 0, e := 0, status := 0, ustar := 0, factor := 0 },
      { p with init_ustar := some 0, init_factor := some 0 }) := by
    unfold h_le InputData.sat_vp Snow.e_s_0
    rw [hc.t_a, sati_freeze, bind_ok]
    dsimp only
    rw [if_neg (not_lt.mpr hc.e_a.2), hs.t0, sati_freeze, bind_ok]
    rw [hle1_calm]
    · rfl
    · have hea := hc.e_a
      refine ⟨?_, ?_, ?_, ?_, ?_, ?_, ?_, ?_, ?_, ?_, ?_⟩
      · norm_num [calmEnv]
      · simp only [calmEnv, Bool.false_eq_true, if_false]; norm_num; linarith
      · simp only [calmEnv, Bool.false_eq_true, if_false]; norm_num; linarith
      · simp only [calmEnv, Bool.false_eq_true, if_false]; norm_num; linarith
      · show 0 < p.input1.t_a; rw [hc.t_a]; norm_num [FREEZE]
      · norm_num [FREEZE]
      · exact hea.1
      · norm_num
      · refine lt_of_le_of_lt hea.2 ?_
        norm_num [calmEnv, SEA_LEVEL]
      · norm_num [calmEnv, SEA_LEVEL]
      · intro w hw
        have := freeze_sat_le hw hc.t_a
        show p.input1.e_a - 25 ≤ w
        linarith
    · exact hc.u
    · simp only [calmEnv, Bool.false_eq_true, if_false]; norm_num; linarith
    · simp only [calmEnv, Bool.false_eq_true, if_false]; norm_num; linarith
    · simp only [calmEnv, Bool.false_eq_true, if_false]; norm_num; linarith
    · exact hi
    · simp only [calmEnv, Bool.false_eq_true, if_false, hc.t_a]
      have : 0 < DALR := by norm_num [DALR, GRAVITY, CP_AIR]
      have h5 : 0 < 5 - p.snow.z_s := by linarith
      have := mul_pos this h5
      linarith
  have hg : heat_transfer (calmEnv vol) p.input1 p.snow = .ok (0, 0) := by
    unfold heat_transfer
    rw [if_pos hs.lc]
    unfold g_soil
    obtain ⟨v1, h1, h1'⟩ := efcon_freeze (k := KT_MOISTSAND) (by norm_num [KT_MOISTSAND])
    have hk : 0 < p.snow.kts := by
      unfold Snow.kts
      have := hs.rho
      have : (0:ℝ) < CAL_TO_J := by norm_num [CAL_TO_J]
      positivity
    obtain ⟨v2, h2, h2'⟩ := efcon_freeze hk
    simp only [if_true, Snow.e_s_0, hs.t0, sati_freeze, bind_ok, lt_irrefl, if_false, gt_iff_lt,
      InputData.e_g, hc.t_g]
    have e : (calmEnv vol).P_a = SEA_LEVEL := rfl
    rw [e, h1, bind_ok, h2, bind_ok, ssxfr_same h2' h1' hs.z0 (by norm_num [calmEnv])]
    rfl
  simp only [hh, bind_ok, hg, hM, pure_ok, add_zero, sub_zero]

/-- No exchange of vapour between ripe snow and soil at the freezing point. -/
theorem soilEvap_calm {vol dt : ℝ} {i : InputData} {s : Snow} (hc : i.t_g = FREEZE)
    (h1 : s.layer_count = 1) (ht : s.t_s_0 = FREEZE) : soilEvap (calmEnv vol) i dt s = .ok 0 := by
  unfold soilEvap
  rw [h1]
  simp only [OfNat.one_ne_ofNat, if_false, Snow.e_s_0, ht, InputData.e_g, hc, sati_freeze, bind_ok]
  have e : (calmEnv vol).P_a = SEA_LEVEL := rfl
  have ez : (calmEnv vol).z_g = 0.5 := rfl
  rw [e, ez]
  unfold spec_hum gas_density diffusion_coef vapor_flux
  rw [pdiv_of_ne (by norm_num [SEA_LEVEL, MOL_AIR, MOL_H2O]), bind_ok, bind_ok,
    pdiv_of_ne (by norm_num [RGAS, FREEZE]), bind_ok, pdiv_of_ne (by norm_num [SEA_LEVEL])]
  norm_num [pdiv]

theorem adj_layers_one {vol : ℝ} {s : Snow} (h1 : s.layer_count = 1) (hm : 1 < s.m_s) (hz : 0 < s.z_s)
    (hz' : s.z_s ≤ 0.25) : adj_layers (calmEnv vol) s =
      { s with z_s_0 := s.z_s, z_s_l := 0, m_s_0 := s.rho * s.z_s, m_s_l := 0 } := by
  have hc : s.calc_layers (calmEnv vol) = { s with z_s_0 := s.z_s, z_s_l := 0 } := by
    unfold Snow.calc_layers
    have hl : ¬ s.m_s ≤ (calmEnv vol).small_threshold := not_le.mpr hm
    have : ¬ s.z_s - (calmEnv vol).max_z_s_0 > 0 := by
      show ¬ s.z_s - 0.25 > 0
      linarith
    have h0 : 0 * s.rho < (calmEnv vol).small_threshold := by rw [zero_mul]; exact zero_lt_one
    rw [if_neg hl]
    simp only [this, if_false, h0, if_true, add_zero]
  have hl : (({ s with z_s_0 := s.z_s, z_s_l := 0 } : Snow)).layer_count = 1 := by
    unfold Snow.layer_count
    simp [hz]
  unfold adj_layers
  simp only [hc, h1]
  rw [if_neg (by rw [hl]; norm_num)]
  have hm2 : (Snow.layer_mass { s with z_s_0 := s.z_s, z_s_l := 0 }).layer_count = 1 := hl
  rw [if_neg (by rw [hm2]; norm_num), if_neg (by norm_num)]
  simp [Snow.layer_mass]

/-- Melt of ripe snow: the mass of melt water `μ`, and the depth taken from the pack. -/
theorem snowmelt_adj {c : Env} {dt : ℝ} {s : Snow} (hs : RipeSnow s) (hf : s.snowcover = true)
    (h0 : 0 ≤ s.h2o_total) {μ : ℝ} (hμ : s.en.delta_Q_0 * dt = 333600 * μ) (hp : 1e-8 < μ) :
    snowmelt c dt s = .ok (adj_snow c (-1 * μ / s.rho) 0 { s with melt := μ, h2o_total := s.h2o_total + μ }) := by
  have hQ : meltQ0 dt s = 333600 * μ := by unfold meltQ0; rw [hs.cc0, hμ, add_zero]
  have hQp : 0 < 333600 * μ := by linarith
  have hmelt : melt (333600 * μ) = μ := by
    unfold melt lh_fus; norm_num
  have hml : meltLayers dt s = { s with melt := μ, h2o_total := s.h2o_total + μ } := by
    unfold meltLayers
    have hlc := hs.lc
    unfold Snow.layer_count at hlc
    simp only [hQ]
    rw [if_pos hQp]
    simp only [Snow.layer_count, hlc, hmelt]
    simp [← hs.cc0]
  unfold snowmelt
  rw [if_neg (by rw [hf]; simp)]
  simp only [hml]
  have e1 : ∀ q, refreezeSurf q { s with melt := μ, h2o_total := s.h2o_total + μ } =
      .ok ({ s with melt := μ, h2o_total := s.h2o_total + μ }, 0) := by
    intro q
    unfold refreezeSurf
    rw [if_neg]
    simp [hs.cc0]
  have e2 : ∀ q r, refreezeLower q { s with melt := μ, h2o_total := s.h2o_total + μ } r =
      .ok ({ s with melt := μ, h2o_total := s.h2o_total + μ }, r) := by
    intro q r
    unfold refreezeLower
    rw [if_neg]
    simp [hs.ccl]
  have e3 : refreezeSnap { s with melt := μ, h2o_total := s.h2o_total + μ } 0 =
      { s with melt := μ, h2o_total := s.h2o_total + μ } := by
    unfold refreezeSnap
    rw [if_neg]
    · simp
    · simp only [sub_zero]
      rw [abs_of_nonneg (by linarith)]
      linarith
  rw [e1, bind_ok, e2, bind_ok, e3]
  rw [if_pos (by show 0 < μ; linarith)]
  have hrn : ({ s with melt := μ, h2o_total := s.h2o_total + μ } : Snow).rho ≠ 0 := hs.rho.ne'
  rw [pdiv_of_ne hrn, bind_ok]
  rfl

/-- Melt of ripe snow that compacts the pack to the maximum density. -/
theorem snowmelt_ripe {vol dt : ℝ} {s : Snow} (hs : RipeSnow s) (hf : s.snowcover = true)
    (h0 : 0 ≤ s.h2o_total) {μ : ℝ} (hμ : s.en.delta_Q_0 * dt = 333600 * μ) (hp : 1e-8 < μ) (hlt : μ < s.m_s)
    (hm : 1 < s.m_s) (hm' : s.m_s ≤ 150) (hr : 600 * (s.m_s - μ) < s.m_s * s.rho) :
    snowmelt (calmEnv vol) dt s = .ok
      { s with melt := μ, h2o_total := s.h2o_total + μ, rho := 600, z_s := s.m_s / 600
               z_s_0 := s.m_s / 600, m_s_0 := s.m_s } := by
  rw [snowmelt_adj hs hf h0 hμ hp]
  have hz : s.z_s + -1 * μ / s.rho = (s.m_s - μ) / s.rho := by
    have := hs.rho.ne'
    rw [hs.z, hs.m]; field_simp; ring
  have hzp : 0 < (s.m_s - μ) / s.rho := div_pos (by linarith) hs.rho
  rw [adj_snow_clip]
  · have e : ({ s with melt := μ, h2o_total := s.h2o_total + μ, z_s := (s.m_s + 0) / 600, m_s := s.m_s + 0, rho := 600 } : Snow).layer_count = 1 := hs.lc
    simp only [pure_ok]
    rw [adj_layers_one e]
    · simp only [add_zero, Except.ok.injEq, Snow.mk.injEq, true_and, and_true]
      refine ⟨hs.zl.symm, ?_, hs.ml.symm⟩
      ring
    · simpa using hm
    · show 0 < (s.m_s + 0) / 600
      rw [add_zero]; linarith
    · show (s.m_s + 0) / 600 ≤ 0.25
      rw [add_zero]; linarith
  · unfold adjRho
    show (if s.z_s + -1 * μ / s.rho ≠ 0 then (s.m_s + 0) / (s.z_s + -1 * μ / s.rho) else 0) > 600
    rw [hz, if_pos hzp.ne', add_zero, gt_iff_lt, lt_div_iff₀ hzp]
    rw [mul_div_assoc', div_lt_iff₀ hs.rho]
    exact hr

/-- Nothing evaporates or condenses. -/
theorem evap_ripe {vol dt : ℝ} {i : InputData} {s : Snow} (hs : RipeSnow s) (hf : s.snowcover = true)
    (hi : i.t_g = FREEZE) (hE : s.E = 0) (hr : s.rho ≤ 600) (h0 : 0 ≤ s.h2o_total) :
    evap_cond (calmEnv vol) i dt s = .ok { s with E_s := 0 } := by
  have e0 : evapH2o s.h2o_total 0 = s.h2o_total := by
    unfold evapH2o
    split
    · rename_i h
      simp [not_le.mpr h]
    · rfl
  unfold evap_cond
  rw [if_neg (by rw [hf]; simp)]
  have hE' : s.E * dt = 0 := by rw [hE, zero_mul]
  simp only [hE', e0]
  have hlc := hs.lc
  have e1 : ({ s with h2o_total := s.h2o_total } : Snow) = s := rfl
  simp only [hlc, one_ne_zero, if_false, soilEvap_calm hi hlc hs.t0, bind_ok, pure_ok, e0, add_zero]
  have e2 : ({ s with E_s := 0 } : Snow).layer_count = 1 := hlc
  rw [if_pos (by rw [e2]; norm_num)]
  have hrn : ({ s with E_s := 0 } : Snow).rho ≠ 0 := hs.rho.ne'
  simp only [zero_add, sub_self]
  rw [pdiv_of_ne hs.rho.ne', bind_ok, zero_div, zero_div]
  have ea : adjRho 0 0 ({ s with E_s := 0 } : Snow) = s.rho := by
    unfold adjRho
    show (if s.z_s + 0 ≠ 0 then (s.m_s + 0) / (s.z_s + 0) else 0) = s.rho
    have : s.z_s_0 ≠ 0 := hs.z0.ne'
    rw [add_zero, add_zero, hs.z, if_pos this, hs.m]
    field_simp
  rw [adj_snow_still (by rw [ea]; simpa using hr), ea]
  simp only [add_zero, Except.ok.injEq, Snow.mk.injEq, true_and, and_true]
  exact ⟨hs.m0.symm, by rw [hs.zl, hs.ml, mul_zero]⟩

theorem new_tsno_ripe {m : ℝ} (hm : m ≠ 0) : new_tsno m FREEZE 0 = .ok FREEZE := by
  unfold new_tsno
  have : cp_ice FREEZE ≠ 0 := by norm_num [cp_ice, FREEZE, CAL_TO_J]
  simp [pdiv_of_ne (mul_ne_zero hm this)]

/-- Runoff of the water above the retention capacity. -/
theorem runoff_ripe {vol cap : ℝ} {s : Snow} (hs : RipeSnow s) (hf : s.snowcover = true)
    (hcap : cap = h2o_left s.z_s_0 ((s.m_s - s.h2o_total) / s.z_s_0) vol) (hgt : cap < s.h2o_total)
    (hr : s.rho ≤ 600) :
    runoff (calmEnv vol) s = .ok
      { s with h2o_max := cap, swi := s.h2o_total - cap, h2o := cap, h2o_sat := 1, h2o_vol := vol
               m_s := s.m_s - (s.h2o_total - cap), rho := (s.m_s - (s.h2o_total - cap)) / s.z_s_0
               m_s_0 := s.m_s - (s.h2o_total - cap) } := by
  unfold runoff
  rw [if_neg (by rw [hf, hs.lc]; simp)]
  have hz : s.z_s ≠ 0 := by rw [hs.z]; exact hs.z0.ne'
  have hz0 := hs.z0.ne'
  simp only [pdiv_of_ne hz, bind_ok]
  have e : h2o_left s.z_s ((s.m_s - s.h2o_total) / s.z_s) (calmEnv vol).max_h2o_vol = cap := by
    rw [hcap, hs.z]; rfl
  simp only [e]
  rw [if_pos hgt]
  have ea : adjRho 0 (-(s.h2o_total - cap)) ({ s with h2o_max := cap, swi := s.h2o_total - cap, h2o := cap, h2o_sat := 1, h2o_vol := (calmEnv vol).max_h2o_vol } : Snow) =
      (s.m_s - (s.h2o_total - cap)) / s.z_s_0 := by
    unfold adjRho
    show (if s.z_s + 0 ≠ 0 then (s.m_s + -(s.h2o_total - cap)) / (s.z_s + 0) else 0) = _
    rw [add_zero, if_pos hz, hs.z]
    ring
  rw [pure_ok, adj_snow_still, ea]
  · simp only [Except.ok.injEq, Snow.mk.injEq, true_and, and_true]
    refine ⟨by ring, by field_simp, by rw [hs.zl, hs.ml, mul_zero], rfl⟩
  · rw [ea, not_lt, div_le_iff₀ hs.z0]
    have h1 : s.m_s = s.rho * s.z_s_0 := hs.m
    have h2 : s.rho * s.z_s_0 ≤ 600 * s.z_s_0 := mul_le_mul_of_nonneg_right hr hs.z0.le
    linarith

/-- Runoff when all water is retained. -/
theorem runoff_dry {vol cap : ℝ} {s : Snow} (hs : RipeSnow s) (hf : s.snowcover = true)
    (hcap : cap = h2o_left s.z_s_0 ((s.m_s - s.h2o_total) / s.z_s_0) vol) (hle : s.h2o_total ≤ cap)
    (h0 : cap ≠ 0) :
    runoff (calmEnv vol) s = .ok
      { s with h2o_max := cap, swi := 0, h2o := s.h2o_total, h2o_sat := s.h2o_total / cap
               h2o_vol := s.h2o_total / cap * vol } := by
  unfold runoff
  rw [if_neg (by rw [hf, hs.lc]; simp)]
  have hz : s.z_s ≠ 0 := by rw [hs.z]; exact hs.z0.ne'
  simp only [pdiv_of_ne hz, bind_ok]
  have e : h2o_left s.z_s ((s.m_s - s.h2o_total) / s.z_s) (calmEnv vol).max_h2o_vol = cap := by
    rw [hcap, hs.z]; rfl
  simp only [e]
  rw [if_neg (not_lt.mpr hle), pdiv_of_ne h0]
  rfl

/-- Melt without energy: nothing happens. -/
theorem snowmelt_quiet {vol dt : ℝ} {s : Snow} (hs : RipeSnow s) (hf : s.snowcover = true)
    (hQ : s.en.delta_Q_0 = 0) (h0 : s.h2o_total = 0 ∨ 1e-8 < s.h2o_total) :
    snowmelt (calmEnv vol) dt s = .ok { s with melt := 0 } := by
  have hQ' : meltQ0 dt s = 0 := by unfold meltQ0; rw [hs.cc0, hQ]; ring
  have hlc := hs.lc
  have hml : meltLayers dt s = { s with melt := 0 } := by
    unfold meltLayers
    unfold Snow.layer_count at hlc
    simp only [hQ']
    simp only [lt_irrefl, if_false, gt_iff_lt, if_true, Snow.layer_count]
    simp only [gt_iff_lt] at hlc
    simp only [hlc]
    simp [← hs.cc0]
  unfold snowmelt
  rw [if_neg (by rw [hf]; simp)]
  simp only [hml]
  have e1 : ∀ q, refreezeSurf q { s with melt := 0 } = .ok ({ s with melt := 0 }, 0) := by
    intro q
    unfold refreezeSurf
    rw [if_neg]
    simp [hs.cc0]
  have e2 : ∀ q r, refreezeLower q { s with melt := 0 } r = .ok ({ s with melt := 0 }, r) := by
    intro q r
    unfold refreezeLower
    rw [if_neg]
    simp [hs.ccl]
  have e3 : refreezeSnap { s with melt := 0 } 0 = { s with melt := 0 } := by
    unfold refreezeSnap
    rcases h0 with h0 | h0
    · simp [h0]
    · rw [if_neg]
      · simp
      · simp only [sub_zero]
        rw [abs_of_nonneg (by linarith)]
        linarith
  rw [e1, bind_ok, e2, bind_ok, e3]
  rw [if_neg (by show ¬ 0 < 0; exact lt_irrefl _)]
  rfl

theorem temps_ripe {s : Snow} (h1 : s.layer_count = 1) (h0 : s.t_s_0 = FREEZE) (ht : s.t_s = FREEZE)
    (hc : s.cc_s_0 = 0) (hm : s.m_s_0 ≠ 0) : s.adjust_layer_temps = .ok s := by
  unfold Snow.adjust_layer_temps
  rw [if_pos h1, h0, hc, new_tsno_ripe hm, bind_ok, pure_ok, Except.ok.injEq]
  cases s
  simp_all

/-- What follows the precipitation event in the mass balance. -/
def afterPrecip (c : Env) (i : InputData) (dt : ℝ) (s : Snow) : Except Err Snow := do
  let s ← snowmelt c dt s
  let s ← evap_cond c i dt s
  let s ← h2o_compact c i s
  let s ← runoff c s
  if s.snowcover then s.adjust_layer_temps else pure s

/-- Ripe snow melts by `μ` and drains. -/
theorem afterPrecip_melt {vol dt : ℝ} {i : InputData} {s : Snow} (hs : RipeSnow s) (hf : s.snowcover = true)
    (hi : i.t_g = FREEZE) (hE : s.E = 0) (h0 : 0 ≤ s.h2o_total) {μ : ℝ}
    (hμ : s.en.delta_Q_0 * dt = 333600 * μ) (hp : 1e-8 < μ) (hlt : μ < s.m_s)
    (hm : 1 < s.m_s) (hm' : s.m_s ≤ 150) (hr : 600 * (s.m_s - μ) < s.m_s * s.rho) {cap : ℝ}
    (hcap : cap = h2o_left (s.m_s / 600) ((s.m_s - (s.h2o_total + μ)) / (s.m_s / 600)) vol)
    (hgt : cap < s.h2o_total + μ) (hne : s.m_s - (s.h2o_total + μ - cap) ≠ 0) :
    afterPrecip (calmEnv vol) i dt s = .ok
      { s with melt := μ, h2o_total := s.h2o_total + μ, z_s := s.m_s / 600, z_s_0 := s.m_s / 600, E_s := 0
               h2o_max := cap, swi := s.h2o_total + μ - cap, h2o := cap, h2o_sat := 1, h2o_vol := vol
               m_s := s.m_s - (s.h2o_total + μ - cap)
               rho := (s.m_s - (s.h2o_total + μ - cap)) / (s.m_s / 600)
               m_s_0 := s.m_s - (s.h2o_total + μ - cap) } := by
  unfold afterPrecip
  rw [snowmelt_ripe hs hf h0 hμ hp hlt hm hm' hr, bind_ok]
  have hr3 : RipeSnow { s with melt := μ, h2o_total := s.h2o_total + μ, rho := 600, z_s := s.m_s / 600
                               z_s_0 := s.m_s / 600, m_s_0 := s.m_s } := by
    refine ⟨?_, hs.zl, rfl, ?_, by norm_num, hs.t0, hs.t, hs.cc0, hs.ccl, ?_, ?_, hs.ml⟩
    · show 0 < s.m_s / 600; linarith
    · show s.m_s / 600 ≤ 0.25; linarith
    · show s.m_s = 600 * (s.m_s / 600); ring
    · show s.m_s = 600 * (s.m_s / 600); ring
  rw [evap_ripe hr3 hf hi hE (le_refl _) (by show 0 ≤ s.h2o_total + μ; linarith), bind_ok]
  have e5 : ∀ t : Snow, t.rho = 600 → h2o_compact (calmEnv vol) i t = .ok t := by
    intro t ht
    unfold h2o_compact
    rw [if_pos (.inr (by rw [ht]; norm_num))]
  rw [e5 _ rfl, bind_ok]
  have hr4 : RipeSnow { s with melt := μ, h2o_total := s.h2o_total + μ, rho := 600, z_s := s.m_s / 600
                               z_s_0 := s.m_s / 600, m_s_0 := s.m_s, E_s := 0 } :=
    ⟨hr3.z0, hr3.zl, hr3.z, hr3.z_le, hr3.rho, hr3.t0, hr3.t, hr3.cc0, hr3.ccl, hr3.m, hr3.m0, hr3.ml⟩
  rw [runoff_ripe hr4 hf hcap hgt (le_refl _), bind_ok]
  rw [if_pos hf]
  rw [temps_ripe]
  · exact hr4.lc
  · exact hs.t0
  · exact hs.t
  · exact hs.cc0
  · exact hne

/-- Ripe snow without energy keeps its water. -/
theorem afterPrecip_quiet {vol dt : ℝ} {i : InputData} {s : Snow} (hs : RipeSnow s) (hf : s.snowcover = true)
    (hi : i.t_g = FREEZE) (hE : s.E = 0) (h0 : s.h2o_total = 0 ∨ 1e-8 < s.h2o_total)
    (hQ : s.en.delta_Q_0 = 0) (hr : 550 < s.rho) (hr' : s.rho ≤ 600) {cap : ℝ}
    (hcap : cap = h2o_left s.z_s_0 ((s.m_s - s.h2o_total) / s.z_s_0) vol) (hle : s.h2o_total ≤ cap)
    (hc0 : cap ≠ 0) :
    afterPrecip (calmEnv vol) i dt s = .ok
      { s with melt := 0, E_s := 0, h2o_max := cap, swi := 0, h2o := s.h2o_total
               h2o_sat := s.h2o_total / cap, h2o_vol := s.h2o_total / cap * vol } := by
  unfold afterPrecip
  rw [snowmelt_quiet hs hf hQ h0, bind_ok]
  have h0' : 0 ≤ s.h2o_total := by
    rcases h0 with h | h
    · rw [h]
    · linarith
  have hr3 : RipeSnow { s with melt := 0 } :=
    ⟨hs.z0, hs.zl, hs.z, hs.z_le, hs.rho, hs.t0, hs.t, hs.cc0, hs.ccl, hs.m, hs.m0, hs.ml⟩
  rw [evap_ripe hr3 hf hi hE hr' h0', bind_ok]
  have e5 : ∀ t : Snow, 550 < t.rho → h2o_compact (calmEnv vol) i t = .ok t := by
    intro t ht
    unfold h2o_compact
    rw [if_pos (.inr ht)]
  rw [e5 { s with melt := 0, E_s := 0 } hr, bind_ok]
  have hr4 : RipeSnow { s with melt := 0, E_s := 0 } :=
    ⟨hs.z0, hs.zl, hs.z, hs.z_le, hs.rho, hs.t0, hs.t, hs.cc0, hs.ccl, hs.m, hs.m0, hs.ml⟩
  rw [runoff_dry hr4 hf hcap hle hc0, bind_ok]
  rw [if_pos hf]
  rw [temps_ripe]
  · exact hr4.lc
  · exact hs.t0
  · exact hs.t
  · exact hs.cc0
  · show s.m_s_0 ≠ 0
    rw [hs.m0]; exact (mul_pos hs.rho hs.z0).ne'

end

end Pysnobal
