import Verif.Lemmas.WitnessDeep

/-! # A concrete run for C74: a shallow wet pack that freezes through in one hour -/

namespace Pysnobal

noncomputable section

/-- Snow: one layer whose surface is at the freezing point, with any cold content. -/
structure FrostSnow (s : Snow) : Prop where
  z0 : 0 < s.z_s_0
  zl : s.z_s_l = 0
  z : s.z_s = s.z_s_0
  rho : 0 < s.rho
  t0 : s.t_s_0 = FREEZE
  m : s.m_s = s.rho * s.z_s_0
  m0 : s.m_s_0 = s.rho * s.z_s_0
  ml : s.m_s_l = 0

theorem FrostSnow.lc {s : Snow} (h : FrostSnow s) : s.layer_count = 1 := by
  unfold Snow.layer_count
  rw [if_pos h.z0, if_neg (by rw [h.zl]; exact lt_irrefl _)]

theorem evap_frost {vol dt : ℝ} {i : InputData} {s : Snow} (hs : FrostSnow s) (hf : s.snowcover = true)
    (hi : i.t_g = FREEZE) (hE : s.E = 0) (hr : s.rho ≤ 600) :
    evap_cond (calmEnv vol) i dt s = .ok { s with E_s := 0 } := by
  have e0 : evapH2o s.h2o_total 0 = s.h2o_total := by
    unfold evapH2o
    split
    · rename_i h
      simp [not_le.mpr h]
    · rfl
  unfold evap_cond
  rw [if_neg (by rw [hf]; simp)]
  have hE' : s.E * dt = 0 := by rw [hE, zero_mul]
  simp only [hE', e0]
  have hlc := hs.lc
  have e1 : ({ s with h2o_total := s.h2o_total } : Snow) = s := rfl
  simp only [hlc, one_ne_zero, if_false, soilEvap_calm hi hlc hs.t0, bind_ok, pure_ok, e0, add_zero]
  have e2 : ({ s with E_s := 0 } : Snow).layer_count = 1 := hlc
  rw [if_pos (by rw [e2]; norm_num)]
  have hrn : ({ s with E_s := 0 } : Snow).rho ≠ 0 := hs.rho.ne'
  simp only [zero_add, sub_self]
  rw [pdiv_of_ne hs.rho.ne', bind_ok, zero_div, zero_div]
  have ea : adjRho 0 0 ({ s with E_s := 0 } : Snow) = s.rho := by
    unfold adjRho
    show (if s.z_s + 0 ≠ 0 then (s.m_s + 0) / (s.z_s + 0) else 0) = s.rho
    have : s.z_s_0 ≠ 0 := hs.z0.ne'
    rw [add_zero, add_zero, hs.z, if_pos this, hs.m]
    field_simp
  rw [adj_snow_still (by rw [ea]; simpa using hr), ea]
  simp only [add_zero, Except.ok.injEq, Snow.mk.injEq, true_and, and_true]
  exact ⟨hs.m0.symm, by rw [hs.zl, hs.ml, mul_zero]⟩

/-- Cooling that refreezes all the water of a ripe one-layer pack. -/
theorem snowmelt_frost {vol dt Q : ℝ} {s : Snow} (hs : RipeSnow s) (hf : s.snowcover = true)
    (hQ : s.en.delta_Q_0 * dt = Q) (hneg : Q < 0) (hw0 : 0 < s.h2o_total) (hleft : Q + s.h2o_total * 333600 ≤ 0) :
    snowmelt (calmEnv vol) dt s = .ok { s with melt := 0, cc_s_0 := Q + s.h2o_total * 333600, h2o_total := 0 } := by
  have hQ' : meltQ0 dt s = Q := by unfold meltQ0; rw [hs.cc0, hQ, add_zero]
  have hlc := hs.lc
  have hml : meltLayers dt s = { s with melt := 0, cc_s_0 := Q } := by
    unfold meltLayers
    unfold Snow.layer_count at hlc
    simp only [hQ']
    rw [if_neg (not_lt.mpr hneg.le), if_neg hneg.ne]
    simp only [Snow.layer_count, hlc]
    simp
  have hz : s.z_s ≠ 0 := by rw [hs.z]; exact hs.z0.ne'
  have hzz : s.z_s_0 / s.z_s = 1 := by rw [hs.z]; exact div_self hs.z0.ne'
  unfold snowmelt
  rw [if_neg (by rw [hf]; simp)]
  simp only [hml, hQ']
  have e1 : refreezeSurf Q { s with melt := 0, cc_s_0 := Q } =
      .ok ({ s with melt := 0, cc_s_0 := Q + s.h2o_total * 333600 }, s.h2o_total) := by
    unfold refreezeSurf
    rw [if_pos ⟨hneg, hw0⟩]
    simp only [pdiv_of_ne hz, bind_ok, lf_eq, hzz, mul_one]
    rw [if_pos hleft, pure_ok]
  have e2 : ∀ q, refreezeLower q { s with melt := 0, cc_s_0 := Q + s.h2o_total * 333600 } s.h2o_total =
      .ok ({ s with melt := 0, cc_s_0 := Q + s.h2o_total * 333600 }, s.h2o_total) := by
    intro q
    unfold refreezeLower
    rw [if_neg]
    simp [hs.ccl]
  have e3 : refreezeSnap { s with melt := 0, cc_s_0 := Q + s.h2o_total * 333600 } s.h2o_total =
      { s with melt := 0, cc_s_0 := Q + s.h2o_total * 333600, h2o_total := 0 } := by
    unfold refreezeSnap
    rw [if_pos (by show |s.h2o_total - s.h2o_total| ≤ 1e-8; rw [sub_self, abs_zero]; norm_num)]
  rw [e1, bind_ok]
  dsimp only
  rw [e2, bind_ok, e3, if_neg (by simp)]
  rfl

theorem runoff_frost {vol cap : ℝ} {s : Snow} (hs : FrostSnow s) (hf : s.snowcover = true)
    (hcap : cap = h2o_left s.z_s_0 (s.m_s / s.z_s_0) vol) (hw : s.h2o_total = 0) (h0 : 0 < cap) :
    runoff (calmEnv vol) s = .ok { s with h2o_max := cap, swi := 0, h2o := 0, h2o_sat := 0, h2o_vol := 0 } := by
  unfold runoff
  rw [if_neg (by rw [hf, hs.lc]; simp)]
  have hz : s.z_s ≠ 0 := by rw [hs.z]; exact hs.z0.ne'
  simp only [pdiv_of_ne hz, bind_ok, hw, sub_zero]
  have e : h2o_left s.z_s (s.m_s / s.z_s) (calmEnv vol).max_h2o_vol = cap := by
    rw [hcap, hs.z]; rfl
  simp only [e]
  rw [if_neg (not_lt.mpr h0.le), pdiv_of_ne h0.ne', bind_ok]
  simp

/-- A sixth of a metre of ripe snow at the maximum density, half saturated. -/
def wetCfg : Config := calmCfg 60 0.01 (1 / 6) 600 (1 / 2)

theorem wetCfg_tiled : wetCfg.Tiled := calmCfg_tiled _ _ _ _ _

theorem frost_night {dl : InputData} {p : Phys} (hs : RipeSnow p.snow) (hr : p.snow.rho = 600)
    (hz : p.snow.z_s_0 = 1 / 6) (hw : 0 < p.snow.h2o) (hw1 : p.snow.h2o < 1)
    (h1 : p.init_ustar = none) (h2 : p.init_factor = none) (e : p.input1 = (radRec (-333600 / 3600)).toInput) :
    ∃ p', stepPhys (calmEnv 0.01) 3600 dl p = .ok p' ∧ p'.snow.snowcover = true ∧
      p'.snow.cc_s_0 = -333600 * (1 - p.snow.h2o) ∧ p'.input1 = p.input1 := by
  have hnp : p.input1.precip_now = false := by rw [e]; exact radRec_dry _
  obtain ⟨q, hq⟩ : ∃ q : Snow, q = { radiated (-333600 / 3600) p.snow with h2o_total := p.snow.h2o } := ⟨_, rfl⟩
  have hpe : precip_event (calmEnv 0.01) p.input1 (radiated (-333600 / 3600) p.snow) = .ok q := by
    unfold precip_event
    rw [if_neg (by rw [hnp]; simp), hq]
    simp [radiated]
  have hrq : RipeSnow q := by
    rw [hq]
    exact ⟨hs.z0, hs.zl, hs.z, hs.z_le, hs.rho, hs.t0, hs.t, hs.cc0, hs.ccl, hs.m, hs.m0, hs.ml⟩
  have hqw : q.h2o_total = p.snow.h2o := by rw [hq]
  have hsm := snowmelt_frost (vol := 0.01) (dt := 3600) (Q := -333600) hrq (by rw [hq]; rfl)
    (by rw [hq]; show -333600 / 3600 * 3600 = _; norm_num) (by norm_num) (by rw [hqw]; exact hw) (by rw [hqw]; linarith)
  obtain ⟨u, hu⟩ : ∃ u : Snow, u = { q with melt := 0, cc_s_0 := -333600 + q.h2o_total * 333600, h2o_total := 0 } := ⟨_, rfl⟩
  rw [← hu] at hsm
  have hFu : FrostSnow u := by
    rw [hu]; exact ⟨hrq.z0, hrq.zl, hrq.z, hrq.rho, hrq.t0, hrq.m, hrq.m0, hrq.ml⟩
  obtain ⟨u1, u2, u3, u4, u5⟩ : u.z_s_0 = 1 / 6 ∧ u.rho = 600 ∧ u.snowcover = true ∧ u.E = 0 ∧
      u.cc_s_0 = -333600 * (1 - p.snow.h2o) := by
    rw [hu]
    refine ⟨by rw [hq]; exact hz, by rw [hq]; exact hr, by rw [hq]; rfl, by rw [hq]; rfl, ?_⟩
    show -333600 + q.h2o_total * 333600 = _
    rw [hqw]; ring
  have hev := evap_frost (vol := 0.01) (dt := 3600) (i := p.input1) hFu u3 (by rw [e]; rfl) u4 u2.le
  have e5 : ∀ t : Snow, 550 < t.rho → h2o_compact (calmEnv 0.01) p.input1 t = .ok t := by
    intro t ht
    unfold h2o_compact
    rw [if_pos (.inr ht)]
  have hFv : FrostSnow { u with E_s := 0 } := ⟨hFu.z0, hFu.zl, hFu.z, hFu.rho, hFu.t0, hFu.m, hFu.m0, hFu.ml⟩
  obtain ⟨cap, hcap⟩ : ∃ cap : ℝ, cap = h2o_left u.z_s_0 (u.m_s / u.z_s_0) 0.01 := ⟨_, rfl⟩
  have hcap1 : 0 < cap := by
    rw [hcap, hFu.m, u1, u2]
    norm_num [h2o_left, RHO_ICE, RHO_W0]
  have hro := runoff_frost (vol := 0.01) hFv u3 hcap (by rw [hu]) hcap1
  obtain ⟨v, hv⟩ : ∃ v : Snow, v = { u with E_s := 0, h2o_max := cap, swi := 0, h2o := 0, h2o_sat := 0, h2o_vol := 0 } := ⟨_, rfl⟩
  have hro : runoff (calmEnv 0.01) { u with E_s := 0 } = .ok v := by rw [hv]; exact hro
  have hcp : cp_ice FREEZE ≠ 0 := by norm_num [cp_ice, FREEZE, CAL_TO_J]
  obtain ⟨a, hadj⟩ : ∃ a, v.adjust_layer_temps = .ok { v with t_s_0 := a, t_s := a } := by
    unfold Snow.adjust_layer_temps
    have hl : v.layer_count = 1 := by rw [hv]; exact hFu.lc
    rw [if_pos hl]
    have e1 : v.m_s_0 = 100 ∧ v.t_s_0 = FREEZE := by
      rw [hv]
      refine ⟨?_, hFu.t0⟩
      show u.m_s_0 = 100
      rw [hFu.m0, u1, u2]; norm_num
    unfold new_tsno
    rw [e1.1, e1.2]
    dsimp only
    rw [pdiv_of_ne (mul_ne_zero (by norm_num) hcp)]
    exact ⟨_, rfl⟩
  have hnet := radRec_net (-333600 / 3600) hs.t0
  rw [← e] at hnet
  have hfin := stepPhys_calm (vol := 0.01) (dt := 3600) (dl := dl) (i := p.input1) (p := p) hs
    (by rw [if_neg (by rw [hnp]; simp)]) (by rw [e]; exact radRec_calm _) (by rw [hr]; norm_num)
    hnet (.inl ⟨h1, h2⟩) (by unfold advec; rw [if_neg (by rw [hnp]; simp)])
    (by
      rw [hpe, bind_ok]
      unfold afterPrecip
      rw [hsm, bind_ok, hev, bind_ok, e5 _ (by show 550 < u.rho; rw [u2]; norm_num), bind_ok, hro, bind_ok]
      rw [if_pos (by rw [hv]; exact u3)]
      exact hadj)
  refine ⟨_, hfin, ?_, ?_, rfl⟩
  · rw [hv]; exact u3
  · rw [hv]; exact u5

/-- A cold hour over the wet pack. -/
theorem frost_run : ∃ x m, RunTrace wetCfg [radRec (-333600 / 3600), radRec (-333600 / 3600)] [[x]] m ∧
    x.post.snow.snowcover = true ∧ x.post.input1.precip_now = false ∧
    x.pre.snow.m_s = 100 ∧ x.pre.snow.z_s = 1 / 6 ∧ 0 < x.pre.snow.h2o ∧ x.pre.snow.h2o < 1 ∧
    x.post.snow.cc_s_0 = -333600 * (1 - x.pre.snow.h2o) := by
  have hinit := init_calm (thr := 60) (vol := 0.01) (z := 1 / 6) (rho := 600) (sat := 1 / 2) (d := _)
    (by norm_num) (by norm_num) (by norm_num) (by norm_num [RHO_W0, RHO_ICE]) rfl
  obtain ⟨s0, hs0, f1, f2, f3, f4, f5, f6⟩ : ∃ s0, init_snow (calmEnv 0.01) (recordSnow wetCfg) = .ok s0 ∧
      RipeSnow s0 ∧ s0.rho = 600 ∧ s0.m_s = 100 ∧ s0.z_s_0 = 1 / 6 ∧ 0 < s0.h2o ∧ s0.h2o < 1 := by
    refine ⟨_, hinit, ⟨?_, rfl, rfl, ?_, ?_, rfl, rfl, rfl, rfl, rfl, rfl, rfl⟩, rfl, ?_, rfl, ?_, ?_⟩ <;>
      norm_num [h2o_left, RHO_ICE, RHO_W0]
  obtain ⟨p', d1, d2, d3, d4⟩ := frost_night
    (dl := (deltaRec (radRec (-333600 / 3600)).toInput (radRec (-333600 / 3600)).toInput 1).toInput)
    (p := ⟨s0, (radRec (-333600 / 3600)).toInput, none, none⟩) f1 f2 f4 f5 f6 rfl rfl rfl
  obtain ⟨ls, m, h1, h2⟩ := first_trace wetCfg_tiled (calmCfg_env _ _ _ _ _) hs0 (radRec_new _) (radRec_new _) (rs := [])
    (by
      unfold below_thold
      rw [if_neg (by rw [f1.lc]; norm_num), if_pos f1.lc, f3]
      norm_num [wetCfg, calmCfg]) (p' := p') (by
      have : ((wetCfg.norm_time_step * 60 : ℤ) : ℝ) = 3600 := by norm_num [wetCfg, calmCfg, defaultSteps]
      rw [this]; exact d1)
    (P := fun ls m => ls = []) (fun ts m1 _ _ _ _ => ⟨[], m1, .nil _ _, rfl⟩)
  subst h2
  exact ⟨_, m, h1, d2, by rw [d4]; exact radRec_dry _, f3, f1.z.trans f4, f5, f6, d3⟩

end

end Pysnobal
