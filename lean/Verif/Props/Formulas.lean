import Mathlib.Analysis.SpecialFunctions.Log.Base
import Verif.Props.Vapour
import Verif.Props.Profile

/-! # C72: the fluxes of a run step as functions of the snow it starts with and of the forcing; C35: the published
form of the saturation vapour pressures

The specification uses no constant and no helper of the model, only literals, so that it can be compared with the
documentation of the code. -/

namespace Pysnobal

noncomputable section

/-! ## Specification -/

/-- Goff–Gratch equation over water, in its published form: the decimal logarithm of the saturation vapour pressure
(Pa) at temperature `T` (K). -/
def goffGratchWater (T : ℝ) : ℝ :=
  -7.90298 * (373.15 / T - 1) + 5.02808 * Real.logb 10 (373.15 / T)
    - 1.3816e-7 * ((10 : ℝ) ^ (11.344 * (1 - T / 373.15)) - 1)
    + 8.1328e-3 * ((10 : ℝ) ^ (-3.49149 * (373.15 / T - 1)) - 1) + Real.logb 10 101324.6

/-- Goff–Gratch equation over ice. -/
def goffGratchIce (T : ℝ) : ℝ :=
  -9.09718 * (273.16 / T - 1) - 3.56654 * Real.logb 10 (273.16 / T) + 0.876793 * (1 - T / 273.16)
    + Real.logb 10 610.71

/-- Heat capacity of ice, J/(kg K). -/
def iceHeat (T : ℝ) : ℝ := 4.186798188 * (24.928 + 1.76 * T)

/-- Heat capacity of water, J/(kg K). -/
def waterHeat (T : ℝ) : ℝ := 4217.7 - 2.55 * (T - 273.16)

/-- Conductivity of snow of density `rho` without vapour diffusion, W/(m K). -/
def snowConduct (rho : ℝ) : ℝ := 4.186798188 * 0.0077 * (rho / 1000) ^ 2

/-- Diffusivity of water vapour, m²/s, at pressure `P` and temperature `T`. -/
def diffusivity (P T : ℝ) : ℝ := 0.65e-4 * (101324.6 / P) * (T / 273.16) ^ 14

/-- Latent heat of vaporisation and of fusion, J/kg. -/
def vaporisation (T : ℝ) : ℝ := 2500000 - 2955.73 * (T - 273.16)
def fusion (T : ℝ) : ℝ := 333600 + 166.67 * (273.16 - T)

/-- Latent heat released by vapour that diffuses through a layer: of sublimation below freezing, of vaporisation above,
the mean of the two at the freezing point. -/
def diffusionHeat (T : ℝ) : ℝ :=
  if T < 273.16 then vaporisation T + fusion T
  else if T = 273.16 then vaporisation T + fusion T / 2
  else vaporisation T

/-- Conductivity `k` of a layer at temperature `T` increased by the diffusion of vapour of pressure `e`. -/
def effConduct (k T P e : ℝ) : ℝ :=
  k + diffusionHeat T * diffusivity P T * (18.0153 * e / (28.9644 * (P - e)))

/-- Heat conducted into layer 1 from layer 2: the temperature difference over the thermal resistance between the
middles of the layers. -/
def conducted (T1 k1 d1 T2 k2 d2 : ℝ) : ℝ := (T2 - T1) / (d1 / (2 * k1) + d2 / (2 * k2))

/-- Vapour diffusing from soil at `Tg` (saturated at `eg`) measured `z` metres below to a layer at `T` (saturated at `e`),
kg/(m² s): Fick's law with density and diffusivity of the air at the mean temperature. -/
def soilVapour (P z Tg eg T e : ℝ) : ℝ :=
  28.9644 * P / (8314.32 * ((Tg + T) / 2)) * diffusivity P ((Tg + T) / 2) *
    ((18.0153 * eg / (18.0153 * eg + 28.9644 * (P - eg)) - 18.0153 * e / (18.0153 * e + 28.9644 * (P - e))) / z)

/-- Heat advected by precipitation of a step of `dt` seconds, relative to the surface temperature `T`. -/
def advected (i : InputData) (dt T : ℝ) : ℝ :=
  if i.precip_now then (waterHeat i.t_rain * i.m_rain * (i.t_rain - T) + iceHeat i.t_snow * i.m_snow * (i.t_snow - T)) / dt
  else 0

/-! ## C35 -/

/-- C35: wherever they return, the saturation vapour pressures are those of the Goff–Gratch equations: over water for
`satw` and for `sati` above freezing, over ice for `sati` up to the freezing point. -/
theorem C35_goff_gratch (T v : ℝ) :
    (satw T = .ok v → Real.logb 10 v = goffGratchWater T) ∧
    (sati T = .ok v → T ≤ 273.16 → Real.logb 10 v = goffGratchIce T) ∧
    (sati T = .ok v → 273.16 < T → Real.logb 10 v = goffGratchWater T) := by
  have hw : satw T = .ok v → Real.logb 10 v = goffGratchWater T := by
    intro h
    have hT := satw_ok_iff.mp ⟨v, h⟩
    rw [satw_pos_eq hT] at h
    cases h
    rw [Real.logb_rpow (by norm_num) (by norm_num)]
    unfold satwExp goffGratchWater LOG_SEA_LEVEL SEA_LEVEL LOG_10 BOIL
    simp only [Real.logb]
    ring
  refine ⟨hw, fun h hle => ?_, fun h hlt => hw ?_⟩
  · have hT := sati_ok_iff.mp ⟨v, h⟩
    rw [sati_cold_eq hT hle] at h
    cases h
    rw [Real.logb_mul (by norm_num) (by positivity), Real.logb_rpow (by norm_num) (by norm_num)]
    have e : Real.logb 10 610.71 = Real.logb 10 100 + Real.log 6.1071 / Real.log 10 := by
      rw [← Real.logb, ← Real.logb_mul (by norm_num) (by norm_num)]
      norm_num
    unfold satiExp goffGratchIce LOG_10 FREEZE
    rw [e]
    simp only [Real.logb]
    ring
  · rw [← sati_warm_eq hlt]; exact h

/-! ## C72 -/

theorem kts_law (s : Snow) : s.kts = snowConduct s.rho := by
  unfold Snow.kts snowConduct CAL_TO_J
  ring

theorem efcon_law {k T P e x : ℝ} (h : efcon k T P (some e) = .ok x) : x = effConduct k T P e := by
  unfold efcon diffusion_coef mix_ratio at h
  obtain ⟨D, hD, h⟩ := bind_eq_ok.mp h
  obtain ⟨q, hq, hD⟩ := bind_eq_ok.mp hD
  dsimp only at h
  rw [pure_ok, bind_ok] at h
  obtain ⟨r, hr, h⟩ := bind_eq_ok.mp h
  simp only [pure_ok, Except.ok.injEq] at h hD
  rw [pdiv_eq_ok] at hq hr
  have hL : (if T > FREEZE then lh_vap T else if T = FREEZE then (lh_vap T + lh_sub T) / 2 else lh_sub T) =
      diffusionHeat T := by
    unfold diffusionHeat lh_sub lh_vap lh_fus vaporisation fusion FREEZE
    rcases lt_trichotomy T 273.16 with h1 | h1 | h1
    · rw [if_neg (not_lt.mpr h1.le), if_neg h1.ne, if_pos h1]
    · rw [if_neg (not_lt.mpr h1.le), if_pos h1, if_neg (not_lt.mpr h1.ge), if_pos h1]
      ring
    · rw [if_pos h1, if_neg (not_lt.mpr h1.le), if_neg h1.ne']
  rw [hL] at h
  have hD' : D = diffusivity P T := by
    rw [← hD, hq.2]; unfold diffusivity SEA_LEVEL FREEZE; norm_num; ring
  have hr' : r = 18.0153 * e / (28.9644 * (P - e)) := by
    rw [hr.2]; unfold MOL_H2O MOL_AIR
    have := hr.1
    field_simp
  rw [← h, hD', hr']
  rfl

theorem ssxfr_law {k1 k2 t1 t2 d1 d2 q : ℝ} (h1 : 0 < k1) (h2 : 0 < k2) (h : ssxfr k1 k2 t1 t2 d1 d2 = .ok q) :
    q = conducted t1 k1 d1 t2 k2 d2 := by
  unfold ssxfr at h
  rw [pdiv_eq_ok] at h
  rw [h.2]
  unfold conducted
  have e : d1 / (2 * k1) + d2 / (2 * k2) = (k2 * d1 + k1 * d2) / (2 * (k1 * k2)) := by
    field_simp
  rw [e, div_div_eq_mul_div]
  congr 1
  ring

variable {c : Env} {dt : ℝ}

theorem soilExchange_law {i : InputData} {T v : ℝ} (h : soilExchange c i dt T = .ok v) :
    ∃ es eg, sati T = .ok es ∧ sati i.t_g = .ok eg ∧ v = soilVapour c.P_a c.z_g i.t_g eg T es * dt := by
  unfold soilExchange InputData.e_g spec_hum gas_density diffusion_coef vapor_flux at h
  obtain ⟨e, he, h⟩ := bind_eq_ok.mp h
  obtain ⟨q, hq, h⟩ := bind_eq_ok.mp h
  obtain ⟨eg, heg, h⟩ := bind_eq_ok.mp h
  obtain ⟨qg, hqg, h⟩ := bind_eq_ok.mp h
  obtain ⟨ra, hra, h⟩ := bind_eq_ok.mp h
  obtain ⟨k, hk, h⟩ := bind_eq_ok.mp h
  obtain ⟨E, hE, h⟩ := bind_eq_ok.mp h
  obtain ⟨k', hk', hk⟩ := bind_eq_ok.mp hk
  obtain ⟨E', hE', hE⟩ := bind_eq_ok.mp hE
  simp only [pure_ok, Except.ok.injEq] at h hk hE
  rw [pdiv_eq_ok] at hq hqg hra hk' hE'
  refine ⟨e, eg, he, heg, ?_⟩
  rw [← h, ← hE, ← hk, hE'.2, hk'.2, hra.2, hq.2, hqg.2]
  unfold soilVapour diffusivity MOL_H2O MOL_AIR RGAS SEA_LEVEL FREEZE
  congr 1
  have a1 : ∀ e : ℝ, e * 18.0153 / (28.9644 * c.P_a + e * (18.0153 - 28.9644)) =
      18.0153 * e / (18.0153 * e + 28.9644 * (c.P_a - e)) := fun e => by
    congr 1 <;> ring
  rw [a1, a1, mul_comm c.P_a 28.9644]
  norm_num
  left
  left
  ring

theorem g_soil_law {i : InputData} (h : SoilOK c i) (hb : i.t_g ≤ BOIL)
    {s : Snow} (hr : 0 < s.rho) {b : Bool} 
    (hT : (if b then s.t_s_0 else s.t_s_l) ≤ FREEZE) {g : ℝ} (hg : g_soil c i b s = .ok g) :
    ∃ es eg, sati (if b then s.t_s_0 else s.t_s_l) = .ok es ∧ sati i.t_g = .ok eg ∧
      g = conducted (if b then s.t_s_0 else s.t_s_l)
        (effConduct (snowConduct s.rho) (if b then s.t_s_0 else s.t_s_l) c.P_a es) (if b then s.z_s_0 else s.z_s_l)
        i.t_g (effConduct 1.65 i.t_g c.P_a eg) c.z_g := by
  obtain ⟨T, d, hT', hd', key⟩ : ∃ T d, T = (if b then s.t_s_0 else s.t_s_l) ∧ d = (if b then s.z_s_0 else s.z_s_l) ∧
      g_soil c i b s = (do
      let es ← sati T
      let e_g ← i.e_g
      let k_g ← efcon KT_MOISTSAND i.t_g c.P_a (some e_g)
      let k_s ← efcon s.kts T c.P_a (some es)
      ssxfr k_s k_g T i.t_g d c.z_g) := by
    cases b
    · simp only [Bool.false_eq_true, if_false] at hT
      refine ⟨s.t_s_l, s.z_s_l, by simp, by simp, ?_⟩
      unfold g_soil Snow.e_s_l
      simp only [Bool.false_eq_true, if_false, gt_iff_lt, not_lt.mpr hT]
    · simp only [if_true] at hT
      refine ⟨s.t_s_0, s.z_s_0, by simp, by simp, ?_⟩
      unfold g_soil Snow.e_s_0
      simp only [if_true, gt_iff_lt, not_lt.mpr hT, if_false]
  rw [← hT', ← hd'] 
  rw [← hT'] at hT
  rw [key] at hg
  unfold InputData.e_g at hg
  obtain ⟨es, hes, hg⟩ := bind_eq_ok.mp hg
  obtain ⟨eg, heg, hg⟩ := bind_eq_ok.mp hg
  obtain ⟨kg, hkg, hg⟩ := bind_eq_ok.mp hg
  obtain ⟨ks, hks, hg⟩ := bind_eq_ok.mp hg
  obtain ⟨kg', hkg1, hkg2⟩ := efcon_prog (k := KT_MOISTSAND) (by norm_num [KT_MOISTSAND]) h.warm hb
    (sati_value_pos heg) (h.vapour eg heg)
  obtain ⟨ks', hks1, hks2⟩ := efcon_prog (kts_pos hr) (sati_pos hes) (hT.trans boil_gt.le) (sati_value_pos hes)
    (lt_of_le_of_lt (sati_le_freeze hT hes) h.press)
  rw [hkg] at hkg1; cases hkg1
  rw [hks] at hks1; cases hks1
  refine ⟨es, eg, hes, heg, ?_⟩
  rw [ssxfr_law hks2 hkg2 hg, efcon_law hkg, efcon_law hks, kts_law]
  rfl

theorem g_snow_law (hP : 610.71 < c.P_a) {s : Snow} (hr : 0 < s.rho) 
    (hT0 : s.t_s_0 ≤ FREEZE) (hTl : s.t_s_l ≤ FREEZE) (hp0 : 0 < s.t_s_0) (hpl : 0 < s.t_s_l) {g : ℝ} (hg : g_snow c s = .ok g) :
    ∃ e0 el, sati s.t_s_0 = .ok e0 ∧ sati s.t_s_l = .ok el ∧
      g = conducted s.t_s_0 (effConduct (snowConduct s.rho) s.t_s_0 c.P_a e0) s.z_s_0
        s.t_s_l (effConduct (snowConduct s.rho) s.t_s_l c.P_a el) s.z_s_l := by
  unfold g_snow at hg
  obtain ⟨e0, he0⟩ := sati_ok_iff.mpr hp0
  obtain ⟨el, hel⟩ := sati_ok_iff.mpr hpl
  refine ⟨e0, el, he0, hel, ?_⟩
  split at hg
  · rename_i h
    simp only [Except.ok.injEq] at hg
    unfold conducted
    rw [← hg, h, sub_self, zero_div]
  · unfold Snow.e_s_0 Snow.e_s_l at hg
    rw [he0, bind_ok] at hg
    obtain ⟨k0, hk0, hg⟩ := bind_eq_ok.mp hg
    rw [hel, bind_ok] at hg
    obtain ⟨kl, hkl, hg⟩ := bind_eq_ok.mp hg
    obtain ⟨k0', a1, a2⟩ := efcon_prog (kts_pos hr) (sati_pos he0) (hT0.trans boil_gt.le) (sati_value_pos he0)
      (lt_of_le_of_lt (sati_le_freeze hT0 he0) hP)
    obtain ⟨kl', b1, b2⟩ := efcon_prog (kts_pos hr) (sati_pos hel) (hTl.trans boil_gt.le) (sati_value_pos hel)
      (lt_of_le_of_lt (sati_le_freeze hTl hel) hP)
    rw [hk0] at a1; cases a1
    rw [hkl] at b1; cases b1
    rw [ssxfr_law a2 b2 hg, efcon_law hk0, efcon_law hkl, kts_law]

theorem advec_law {i : InputData} {s : Snow} {M : ℝ} (h : advec i dt s = .ok M) : M = advected i dt s.t_s_0 := by
  unfold advec at h
  unfold advected
  split at h
  · rename_i hp
    rw [pdiv_eq_ok] at h
    rw [if_pos hp, h.2]
    congr 1
    have e : ∀ T, cp_ice T = iceHeat T := fun T => by unfold cp_ice iceHeat CAL_TO_J; ring
    rw [e]
    rfl
  · rename_i hp
    cases h
    rw [if_neg hp]

/-- C72: in every run step that starts with a pack of positive mass, not above the freezing point, on soil whose vapour
exchange can be computed, the reported fluxes are these functions of the pack at the start of the step and of the
forcing of the step: net radiation, heat advected by precipitation, heat conducted from the soil and from the lower
layer; and, if the cover lasts, the reported vapour exchange is that at the surface plus the diffusion from the soil to
a layer with one of the temperatures of the pack. -/
theorem C72_flux_laws_step (g : Config) (hmax : 0 < g.max_active) (rows : List Rec)
    (ls : List (List (RStep Phys))) (m : Model) (h : RunTrace g rows ls m) (c : Env) (ts : Tsteps)
    (hc : mkEnv g = .ok c) (hts : parse_time_steps g = .ok ts) :
    ∀ l ∈ ls, ∀ x ∈ l, 0 < x.pre.snow.m_s → SoilOK c x.post.input1 → x.post.input1.t_g ≤ BOIL →
      (∀ T ∈ packTemps x.pre.snow, T ≤ FREEZE) →
      x.post.snow.en.R_n = x.post.input1.S_n + 0.98 * (x.post.input1.I_lw - 5.67032e-8 * x.pre.snow.t_s_0 ^ 4) ∧
      x.post.snow.en.M = advected x.post.input1 (ts x.lv).time_step x.pre.snow.t_s_0 ∧
      (x.pre.snow.layer_count = 1 → ∃ es eg, sati x.pre.snow.t_s_0 = .ok es ∧ sati x.post.input1.t_g = .ok eg ∧
        x.post.snow.en.G = conducted
          x.pre.snow.t_s_0 (effConduct (snowConduct x.pre.snow.rho) x.pre.snow.t_s_0 c.P_a es) x.pre.snow.z_s_0
          x.post.input1.t_g (effConduct 1.65 x.post.input1.t_g c.P_a eg) c.z_g) ∧
      (x.pre.snow.layer_count = 2 → ∃ es el eg, sati x.pre.snow.t_s_0 = .ok es ∧ sati x.pre.snow.t_s_l = .ok el ∧
        sati x.post.input1.t_g = .ok eg ∧
        x.post.snow.en.G = conducted
          x.pre.snow.t_s_l (effConduct (snowConduct x.pre.snow.rho) x.pre.snow.t_s_l c.P_a el) x.pre.snow.z_s_l
          x.post.input1.t_g (effConduct 1.65 x.post.input1.t_g c.P_a eg) c.z_g ∧
        x.post.snow.en.G_0 = conducted
          x.pre.snow.t_s_0 (effConduct (snowConduct x.pre.snow.rho) x.pre.snow.t_s_0 c.P_a es) x.pre.snow.z_s_0
          x.pre.snow.t_s_l (effConduct (snowConduct x.pre.snow.rho) x.pre.snow.t_s_l c.P_a el) x.pre.snow.z_s_l) ∧
      (x.post.snow.snowcover = true → ∃ T ∈ packTemps x.pre.snow, ∃ es eg, sati T = .ok es ∧
        sati x.post.input1.t_g = .ok eg ∧
        x.post.snow.E_s = (x.post.snow.E + soilVapour c.P_a c.z_g x.post.input1.t_g eg T es) * (ts x.lv).time_step) := by
  obtain ⟨c', ts', hc', hts', hm, hx⟩ := trace_step hmax h
  rw [hc] at hc'; cases hc'
  rw [hts] at hts'; cases hts'
  intro l hl x hxl hms hso hb hpt
  obtain ⟨d, hi, _, h3⟩ := hx l hl x hxl
  have hl0 : 0 < x.pre.snow.layer_count := by
    rcases Nat.eq_zero_or_pos x.pre.snow.layer_count with h0 | h0
    · have := (hi.lc_zero_iff hm).mp h0
      rw [(hi.bare this).1] at hms
      exact absurd hms (lt_irrefl _)
    · exact h0
  have hT0 : x.pre.snow.t_s_0 ≤ FREEZE := hpt _ (by unfold packTemps; split <;> simp)
  obtain ⟨s0, s1, s2, s3, s4, s5, s6, k⟩ := step_chain hm hi h3
  refine ⟨?_, ?_, ?_⟩
  · have := (C25_energy_budget_step g rows ls m h l hl x hxl).2.1 hl0
    rw [this]; rfl
  all_goals rcases stepPhys_energy h3 with ⟨hlp, r, p1, G, G0, M, k1, k2, kM, k4, k5⟩ | ⟨h0, _⟩
  · rw [k5]; exact advec_law kM
  · omega
  · have h0 := (hi.lc_pos_iff hm).mp hlp
    have hzp := hi.z_pos h0
    have hr : 0 < x.pre.snow.rho := by rw [hi.dens h0]; exact div_pos hms hzp
    have eG : x.post.snow.en.G = G ∧ x.post.snow.en.G_0 = G0 := by rw [k5]; exact ⟨rfl, rfl⟩
    rw [eG.1, eG.2]
    unfold heat_transfer at k2
    refine ⟨fun h1 => ?_, fun h2 => ?_, fun hs => ?_⟩
    · rw [if_pos h1] at k2
      obtain ⟨y, hy, k2⟩ := bind_eq_ok.mp k2
      simp only [pure_ok, Except.ok.injEq, Prod.mk.injEq] at k2
      rw [← k2.1]
      exact g_soil_law hso hb hr (b := true) hT0 hy
    · rw [if_neg (by omega)] at k2
      obtain ⟨y, hy, k2⟩ := bind_eq_ok.mp k2
      obtain ⟨y', hy', k2⟩ := bind_eq_ok.mp k2
      simp only [pure_ok, Except.ok.injEq, Prod.mk.injEq] at k2
      have hTl : x.pre.snow.t_s_l ≤ FREEZE := hpt _ (by unfold packTemps; rw [if_pos h2]; simp)
      obtain ⟨q1, q2⟩ := k.temps hl0
      obtain ⟨el, eg, a1, a2, a3⟩ := g_soil_law hso hb hr (b := false) hTl hy
      obtain ⟨es, el', b1, b2, b3⟩ := g_snow_law hso.press hr hT0 hTl q1 (q2 h2) hy'
      have a1' : sati x.pre.snow.t_s_l = .ok el := a1
      rw [b2] at a1'; cases a1'
      rw [← k2.1, ← k2.2]
      exact ⟨es, el, eg, b1, b2, a2, a3, b3⟩
    · obtain ⟨f6, f5, f4, f3, f2, f1, f0, hlc⟩ := k.persist hm hs
      obtain ⟨x1, x2, x3⟩ := k.fluxE hm f5
      obtain ⟨_, _, el, w, hel, hw, hE, st4, _⟩ := k.flag4 hm f4
      have hT := k.base_temp hm f3
      rw [soilEvap_eq] at hel
      have hlc3 : Snow.layer_count { s3 with h2o_total := evapH2o s3.h2o_total (s3.E * (ts x.lv).time_step) } =
        s3.layer_count := rfl
      rw [hlc3] at hel
      dsimp only at hel
      obtain ⟨es, eg, a1, a2, a3⟩ := soilExchange_law hel
      refine ⟨_, hT, es, eg, a1, a2, ?_⟩
      rw [x1, x2, hE, a3]; ring
  · omega

/-- C72, heat capacities and latent heats are the documented linear functions of temperature; that of ice is positive
at every absolute temperature, and between 2100 and 2118 J/(kg K) within 1 K below the freezing point. -/
theorem C72_heat_capacities (T : ℝ) :
    cp_ice T = iceHeat T ∧ cp_water T = waterHeat T ∧ lh_vap T = vaporisation T ∧ lh_fus T = fusion T ∧
    lh_sub T = vaporisation T + fusion T ∧
    (0 ≤ T → 0 < cp_ice T) ∧ (272.16 ≤ T → T ≤ 273.16 → 2100 < cp_ice T ∧ cp_ice T < 2118) := by
  have e : cp_ice T = iceHeat T := by unfold cp_ice iceHeat CAL_TO_J; ring
  refine ⟨e, rfl, rfl, rfl, rfl, fun h => ?_, fun h1 h2 => ?_⟩
  · rw [e]; unfold iceHeat; positivity
  · rw [e]; unfold iceHeat; constructor <;> linarith

/-- C72, a finding: without vapour diffusion the conductivity of snow as the code computes it lies, at every density the
model allows (C29), below 0.012 W/(m K), half that of still air (0.024); the factor 100 between the units of the
published coefficient (per cm) and the documented unit (per m) is missing. -/
theorem C72_snow_conductivity (s : Snow) (h0 : 0 ≤ s.rho) (h : s.rho ≤ 600) :
    s.kts = snowConduct s.rho ∧ s.kts < 0.012 := by
  refine ⟨kts_law s, ?_⟩
  rw [kts_law]
  unfold snowConduct
  have : (s.rho / 1000) ^ 2 ≤ 0.36 := by
    have h1 : 0 ≤ s.rho / 1000 := by positivity
    have h2 : s.rho / 1000 ≤ 0.6 := by linarith
    nlinarith
  linarith

end

end Pysnobal
