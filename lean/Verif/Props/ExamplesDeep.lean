import Verif.Lemmas.WitnessDeep
import Verif.Props.PackEnergy
import Verif.Props.Thermal
import Verif.Props.Surplus
import Verif.Props.Examples

/-! # Examples for C24 and C60: a one-layer pack that melts, a two-layer pack that melts and refreezes, two layers that merge -/

namespace Pysnobal

noncomputable section

theorem halfMetreCfg_ok : halfMetreCfg.AdmissibleStart := by
  refine ⟨⟨?_, ?_, ?_, ?_⟩, ?_, ?_, ?_⟩ <;>
    norm_num [halfMetreCfg, calmCfg, defaultSteps, RHO_W0, RHO_ICE, FREEZE]

theorem radRec_admissible (R : ℝ) : (radRec R).Admissible := by
  intro h
  norm_num [radRec, calmRec] at h

/-- C24, two layers: a day on which 1 kg/m² melts and a night in which half of it refreezes, whose energy
ledger shows 333600 J/m² of heat spent on melt, then 166800 J/m² of refreezing and 166800 J/m² of cooling. -/
example : ∃ x y m, RunTrace halfMetreCfg [radRec (333600 / 3600), radRec (-333600 / 3600), radRec (-333600 / 3600)] [[x], [y]] m ∧
    halfMetreCfg.Tiled ∧ halfMetreCfg.AdmissibleStart ∧
    x.pre.snow.layer_count = 2 ∧ x.post.snow.layer_count = 2 ∧ x.post.snow.melt = 1 ∧ x.post.snow.E = 0 ∧ x.post.snow.E_s = 0 ∧
    y.pre.snow.layer_count = 2 ∧ y.post.snow.layer_count = 2 ∧ y.post.snow.melt = 0 ∧ y.post.snow.E = 0 ∧ y.post.snow.E_s = 0 ∧
    y.post.snow.cc_s_0 = -166800 ∧ ∃ r0 rl w, WaterBooks halfMetreCfg 3600 y r0 rl w ∧ r0 + rl = 0.5 := by
  obtain ⟨x, y, m, h, hx, hy, a1, a2, a3, a4, a5, a6, a6', ⟨b1, b2, b3, b4, b5, b6, b7, b8, b9⟩, ⟨c1, c2, c3, c4, c5, c6, c7, c8, c9, c10⟩⟩ := deep_run
  obtain ⟨ts, hts, k⟩ := C24_two_layer_step halfMetreCfg halfMetreCfg_tiled halfMetreCfg_ok _ (by
    intro r hr
    simp only [List.mem_cons, List.not_mem_nil, or_false] at hr
    rcases hr with rfl | rfl | rfl <;> exact radRec_admissible _) _ m h
  have hdt : (ts y.lv).time_step = 3600 := by
    obtain ⟨_, _, en, _, _⟩ := parse_ok hts
    rw [hy, en]
    norm_num [halfMetreCfg, calmCfg, defaultSteps]
  obtain ⟨r0, rl, w, z1, z2, z3, z4, hw, hz, e⟩ := k [y] (by simp) y (by simp) c1 c8 (by rw [a5, b9]; norm_num)
    (by rw [a5]; exact a2.lc) a3.lc (by rw [c5]) (by rw [c5, c6]; simp)
  have hz1 : z1 = y.pre.snow.z_s := hz.compact.1 (by rw [a5, a4]; norm_num)
  have hq := e (by rw [hz1, a5, a2.m, a4])
  rw [hdt] at hq hw
  refine ⟨x, y, m, h, halfMetreCfg_tiled, halfMetreCfg_ok, a1.lc, a2.lc, b2, b5, b6, by rw [a5]; exact a2.lc, a3.lc, c2, c5, c6, c9, r0, rl, w, hw, ?_⟩
  rw [c7, c9, c10, c2, a5, a2.cc0, a2.ccl, lf_eq] at hq
  linarith

/-- C60: at the end of that night the surface layer and the pack are below freezing, in the ratio of their cold content. -/
example : ∃ x y m, RunTrace halfMetreCfg [radRec (333600 / 3600), radRec (-333600 / 3600), radRec (-333600 / 3600)] [[x], [y]] m ∧
    y.post.snow.snowcover = true ∧ y.post.snow.layer_count = 2 ∧ y.post.snow.cc_s_0 + y.post.snow.cc_s_l ≠ 0 ∧
    y.post.snow.t_s_0 < y.post.snow.t_s ∧ y.post.snow.t_s < FREEZE ∧ y.post.snow.t_s_l = FREEZE := by
  obtain ⟨x, y, m, h, hx, hy, a1, a2, a3, a4, a5, a6, a6', ⟨b1, b2, b3, b4, b5, b6, b7, b8, b9⟩, ⟨c1, c2, c3, c4, c5, c6, c7, c8, c9, c10⟩⟩ := deep_run
  have hne : y.post.snow.cc_s_0 + y.post.snow.cc_s_l ≠ 0 := by rw [c9, c10]; norm_num
  obtain ⟨q1, q2, q3⟩ := (C60_temperature_step halfMetreCfg (by norm_num [halfMetreCfg, calmCfg, defaultSteps]) _ _ m h [y] (by simp) y (by simp)).2.2.1 c1 a3.lc hne
  rw [a5, a2.t0, c9] at q1
  rw [a5, a2.t, c9, c10] at q3
  have hcp : 0 < cp_ice FREEZE := by norm_num [cp_ice, FREEZE, CAL_TO_J]
  have hm0 : 0 < y.post.snow.m_s_0 := by rw [a3.m0, a3.z0]; linarith [a3.rho]
  have hmm : y.post.snow.m_s_0 < y.post.snow.m_s := by
    rw [a3.m0, a3.m]
    apply mul_lt_mul_of_pos_left _ a3.rho
    rw [a3.z, a3.z0]; linarith [a3.zl]
  obtain ⟨u, hu⟩ : ∃ u, u = y.post.snow.t_s_0 - FREEZE := ⟨_, rfl⟩
  obtain ⟨v, hv⟩ : ∃ v, v = y.post.snow.t_s - FREEZE := ⟨_, rfl⟩
  rw [← hu] at q1
  rw [← hv] at q3
  have hv0 : v < 0 := by
    by_contra hn
    have : 0 ≤ cp_ice FREEZE * y.post.snow.m_s * v := mul_nonneg (mul_nonneg hcp.le (by linarith)) (not_lt.mp hn)
    linarith
  have huv : u < v := by
    by_contra hn
    have h1 : cp_ice FREEZE * y.post.snow.m_s * v < cp_ice FREEZE * y.post.snow.m_s_0 * v :=
      mul_lt_mul_of_neg_right (mul_lt_mul_of_pos_left hmm hcp) hv0
    have h2 : cp_ice FREEZE * y.post.snow.m_s_0 * v ≤ cp_ice FREEZE * y.post.snow.m_s_0 * u :=
      mul_le_mul_of_nonneg_left (not_lt.mp hn) (mul_nonneg hcp.le hm0.le)
    linarith
  exact ⟨x, y, m, h, c1, a3.lc, hne, by linarith, by linarith, a3.tl⟩

/-- C24, one layer: 3 kg/m² of a dry pack of 100 kg/m² melt with 1000800 J/m², and nothing refreezes. -/
example : ∃ x m, RunTrace stormCfg [calmRec 278 0 1 300, quietRec] [[x]] m ∧ stormCfg.Tiled ∧ stormCfg.AdmissibleStart ∧
    x.post.snow.snowcover = true ∧ x.post.input1.precip_now = false ∧ 0 < x.pre.snow.m_s ∧
    x.pre.snow.layer_count = 1 ∧ x.pre.snow.z_s ≤ stormCfg.max_active ∧ x.post.snow.melt = 3 ∧
    ∃ w, WaterBooks stormCfg 3600 x 0 0 w := by
  have hinit := init_calm (thr := 60) (vol := 0.01) (z := 1 / 6) (rho := 600) (sat := 0) (d := 600)
    (by norm_num) (by norm_num) (by norm_num) (by norm_num) (by norm_num)
  obtain ⟨s0, hs0, f1, f2, f3, f5⟩ : ∃ s0, init_snow (calmEnv 0.01) (recordSnow stormCfg) = .ok s0 ∧
      RipeSnow s0 ∧ s0.rho = 600 ∧ s0.m_s = 100 ∧ s0.h2o = 0 := by
    refine ⟨_, hinit, ⟨?_, rfl, rfl, ?_, ?_, rfl, rfl, rfl, rfl, rfl, rfl, rfl⟩, rfl, ?_, ?_⟩ <;> norm_num
  have hc : mkEnv stormCfg = .ok (calmEnv 0.01) := calmCfg_env _ _ _ _ _
  obtain ⟨hg, ha, hma, _⟩ := stormCfg_ok
  obtain ⟨p', d1, d2, d3, d4, d5⟩ := melt_step (vol := 0.01) (S := 278) (μ := 3) (ps := 1) (r := 300)
    (i2 := quietRec.toInput) f1 f2 f5 (by norm_num) (by norm_num) (by rw [f3]; norm_num) (by rw [f3]; norm_num) (by rw [f3]; norm_num) rfl
    (by rw [f3]; norm_num [h2o_left, RHO_ICE, RHO_W0]) (by rw [f3]; norm_num [h2o_left, RHO_ICE, RHO_W0])
  obtain ⟨ls, m, h1, h2⟩ := first_trace hg hc hs0 (calmRec_new (S := 278) (m := 0) (ps := 1) (r := 300) (by norm_num)) (r2 := quietRec) (calmRec_new (by norm_num)) (rs := [])
    (by
      unfold below_thold
      rw [if_neg (by rw [f1.lc]; norm_num), if_pos f1.lc, f3]
      norm_num [stormCfg, calmCfg]) (p' := p') (by
      have : ((stormCfg.norm_time_step * 60 : ℤ) : ℝ) = 3600 := by norm_num [stormCfg, calmCfg, defaultSteps]
      rw [this]; exact d1)
    (P := fun ls m => ls = []) (fun ts m1 _ _ _ _ => ⟨[], m1, .nil _ _, rfl⟩)
  subst h2
  have hdry : p'.input1.precip_now = false := by rw [d4]; exact calm_not_now (lt_irrefl _)
  have hz : s0.z_s ≤ stormCfg.max_active := by
    have e : stormCfg.max_active = 0.25 := by norm_num [stormCfg, calmCfg, defaultSteps]
    rw [f1.z, e]; exact f1.z_le
  obtain ⟨ts, hts, k⟩ := C24_one_layer_step stormCfg hg ha _ (by
    intro r hr
    simp only [List.mem_cons, List.not_mem_nil, or_false] at hr
    rcases hr with rfl | rfl <;> intro h <;> norm_num [quietRec, calmRec] at h) _ m h1
  obtain ⟨r0, w, hw, he⟩ := k _ (List.mem_singleton.mpr rfl) _ (List.mem_singleton.mpr rfl) (by show p'.snow.snowcover = true; rw [d5]; rfl) hdry
    (by show 0 < s0.m_s; rw [f3]; norm_num) f1.lc hz
  have hdt : (ts .normal).time_step = 3600 := by
    obtain ⟨_, _, en, _, _⟩ := parse_ok hts
    rw [en]
    norm_num [stormCfg, calmCfg, defaultSteps]
  have hr0 : r0 = 0 := by
    have he : p'.snow.en.delta_Q * (ts .normal).time_step = (p'.snow.cc_s_0 - s0.cc_s_0) + lh_fus FREEZE * (p'.snow.melt - r0) := he
    rw [hdt, lf_eq, d5] at he
    have he : (278 : ℝ) * 3600 = (s0.cc_s_0 - s0.cc_s_0) + 333600 * (3 - r0) := he
    linarith
  rw [hr0] at hw
  have hw : WaterBooks stormCfg (ts .normal).time_step _ 0 0 w := hw
  rw [hdt] at hw
  exact ⟨_, m, h1, hg, ha, by rw [d5]; rfl, hdry, by rw [f3]; norm_num, f1.lc, hz, by rw [d5], w, hw⟩

/-- C24, merging: 3 kg/m² of melt reduce a pack of two layers to one, and 21507.7 J/m² of the lower layer's cold content are lost. -/
example : ∃ s s', Inv (calmEnv 0.01) s ∧ 0 ≤ s.h2o_total ∧ snowmelt (calmEnv 0.01) 3600 s = .ok s' ∧ s'.snowcover = true ∧
    s.layer_count = 2 ∧ s'.layer_count = 1 ∧
    energyIn 3600 s - ((s'.cc_s_0 + s'.cc_s_l) - (s.cc_s_0 + s.cc_s_l) + lh_fus FREEZE * (s'.h2o_total - s.h2o_total)) =
      -(60000 - 333600 * 3 / 26) := by
  obtain ⟨s, hs⟩ : ∃ s : Snow, s = { Snow.zero with
    z_s := 0.26, z_s_0 := 0.25, z_s_l := 0.01, rho := 300, m_s := 78, m_s_0 := 75, m_s_l := 3, cc_s_l := -60000, t_s := 270, t_s_0 := FREEZE, t_s_l := 262, en := ⟨278, 0, 0, 0, 0, 0, 278, 278⟩, snowcover := true } := ⟨_, rfl⟩
  have hlc : s.layer_count = 2 := by rw [hs]; exact lc_eq_two.mpr ⟨by norm_num, by norm_num⟩
  have hi : Inv (calmEnv 0.01) s := by
    rw [hs]
    refine ⟨by norm_num, by norm_num, fun _ => rfl, fun h => ?_, fun h => ?_, fun _ => by norm_num, fun _ => by norm_num⟩ <;>
      norm_num at h
  have hml : meltLayers 3600 s = { s with melt := 3, h2o_total := 3 } := by
    have : meltQ0 3600 s = 1000800 := by rw [hs]; norm_num [meltQ0, Snow.zero]
    have h2 : meltQl 3600 s = -60000 := by unfold meltQl; rw [if_pos hlc, hs]; norm_num
    have hlc' : ∀ a b : ℝ, ({ s with melt := a, cc_s_0 := b } : Snow).layer_count = 2 := fun a b => hlc
    unfold meltLayers
    simp only [this, h2]
    rw [if_pos (show (1000800 : ℝ) > 0 by norm_num)]
    rw [if_pos (hlc' _ _), if_neg (by norm_num), if_neg (by norm_num), hs]
    norm_num [melt, lh_fus, FREEZE, Snow.zero]
  obtain ⟨u, hu⟩ : ∃ u : Snow, u = { s with melt := 3, h2o_total := 3 } := ⟨_, rfl⟩
  have e1 : ∀ q, refreezeSurf q u = .ok (u, 0) := by
    intro q
    unfold refreezeSurf
    rw [if_neg]
    rw [hu, hs]; norm_num [Snow.zero]
  have e2 : refreezeLower (meltQl 3600 s) u 0 = .ok ({ u with cc_s_l := -60000 + 333600 * 3 / 26 }, 3 / 26) := by
    have h2 : meltQl 3600 s = -60000 := by unfold meltQl; rw [if_pos hlc, hs]; norm_num
    have hul : u.layer_count = 2 := by rw [hu]; exact hlc
    unfold refreezeLower
    rw [if_pos ⟨⟨hul, by rw [hu, hs]; norm_num⟩, by rw [hu]; norm_num⟩]
    have f : pdiv u.z_s_l u.z_s = .ok (1 / 26) := by
      rw [hu, hs, pdiv_of_ne (by norm_num)]; norm_num
    have g : u.h2o_total = 3 := by rw [hu]
    rw [f, bind_ok]
    dsimp only
    rw [g, h2, lf_eq, if_pos (by norm_num), pure_ok]
    norm_num
  have hsm : snowmelt (calmEnv 0.01) 3600 s = .ok (adj_snow (calmEnv 0.01) (-0.01) 0
      { u with cc_s_l := -60000 + 333600 * 3 / 26, h2o_total := 3 - 3 / 26 }) := by
    unfold snowmelt
    rw [if_neg (by rw [hs]; simp)]
    dsimp only
    rw [hml, ← hu, e1, bind_ok]
    dsimp only
    rw [e2, bind_ok]
    have e3 : refreezeSnap { u with cc_s_l := -60000 + 333600 * 3 / 26 } (3 / 26) =
        { u with cc_s_l := -60000 + 333600 * 3 / 26, h2o_total := 3 - 3 / 26 } := by
      have g : u.h2o_total = 3 := by rw [hu]
      unfold refreezeSnap
      dsimp only
      rw [g, if_neg]
      rw [abs_of_pos (by norm_num)]; norm_num
    dsimp only
    rw [e3, if_pos (by rw [hu]; norm_num)]
    dsimp only
    have : pdiv (-1 * u.melt) u.rho = .ok (-0.01) := by
      rw [hu, hs, pdiv_of_ne (by norm_num)]; norm_num
    rw [this]
    rfl
  obtain ⟨v, hv⟩ : ∃ v : Snow, v = { u with cc_s_l := -60000 + 333600 * 3 / 26, h2o_total := 3 - 3 / 26 } := ⟨_, rfl⟩
  rw [← hv] at hsm
  have hvl : v.layer_count = 2 := by rw [hv, hu]; exact hlc
  have hadj : adj_snow (calmEnv 0.01) (-0.01) 0 v = { v with z_s := 0.25, z_s_0 := 0.25, z_s_l := 0, rho := 312, m_s_0 := 78, m_s_l := 0, t_s_l := MIN_SNOW_TEMP + FREEZE, cc_s_l := 0 } := by
    have hr : adjRho (-0.01) 0 v = 312 := by
      unfold adjRho; rw [hv, hu, hs]; norm_num
    rw [adj_snow_move (by rw [hr]; norm_num) (by norm_num), hr]
    have hcl : Snow.calc_layers (calmEnv 0.01) { v with z_s := v.z_s + -0.01, m_s := v.m_s + 0, rho := 312 } =
        { v with z_s := 0.25, z_s_0 := 0.25, z_s_l := 0, rho := 312 } := by
      unfold Snow.calc_layers
      rw [hv, hu, hs]
      norm_num [calmEnv]
    have hl2 : ({ v with z_s := v.z_s + -0.01, m_s := v.m_s + 0, rho := 312 } : Snow).layer_count = 2 := hvl
    have hl1 : ({ v with z_s := 0.25, z_s_0 := 0.25, z_s_l := 0, rho := 312 } : Snow).layer_count = 1 := by
      unfold Snow.layer_count; norm_num
    have hl1' : (Snow.layer_mass { v with z_s := 0.25, z_s_0 := 0.25, z_s_l := 0, rho := 312 }).layer_count = 1 := hl1
    unfold adj_layers
    dsimp only
    rw [hcl, hl2, hl1, if_neg (by norm_num), hl1', if_neg (by norm_num), if_pos (by norm_num)]
    norm_num [Snow.layer_mass]
  refine ⟨s, _, hi, by rw [hs]; norm_num [Snow.zero], hsm, ?_, hlc, ?_, ?_⟩
  · rw [hadj, hv, hu, hs]
  · rw [hadj]
    unfold Snow.layer_count; norm_num
  · rw [hadj, lf_eq]
    unfold energyIn
    rw [if_pos hlc, hv, hu, hs]
    norm_num [Snow.zero]

end

end Pysnobal
