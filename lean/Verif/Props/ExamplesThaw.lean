import Verif.Lemmas.WitnessThaw
import Verif.Props.StepLedger

/-! # Examples: the run step of a cold pack on warmer soil -/

namespace Pysnobal

noncomputable section

open Classical

theorem windCfg_ok : windCfg.Tiled ∧ windCfg.AdmissibleStart ∧ 0 < windCfg.max_active := by
  refine ⟨wind_tiled, ⟨⟨?_, ?_, ?_, ?_⟩, ?_, ?_, ?_⟩, ?_⟩ <;>
    norm_num [windCfg, calmCfg, defaultSteps, RHO_W0, RHO_ICE, FREEZE]

theorem thaw_rows : ∀ r ∈ [thawRec, thawRec], r.Admissible := by
  intro r hr
  have : r = thawRec := by simpa using hr
  rw [this]
  intro h
  norm_num [thawRec, windRec] at h

/-- C72, C24, C55, C56: a step on a two-layer pack at 10 K below freezing on soil at the freezing point meets the
hypotheses; the soil heats the pack, vapour diffuses into it, nothing is conducted between the layers, and the pack (of
300 kg/m³) settles. -/
example : ∃ x m c ts, RunTrace windCfg [thawRec, thawRec] [[x]] m ∧ mkEnv windCfg = .ok c ∧
    parse_time_steps windCfg = .ok ts ∧ 0 < x.pre.snow.m_s ∧ SoilOK c x.post.input1 ∧ x.post.input1.t_g ≤ BOIL ∧
    (∀ T ∈ packTemps x.pre.snow, T ≤ FREEZE) ∧ x.pre.snow.layer_count = 2 ∧ x.post.snow.snowcover = true ∧
    0 < x.post.snow.en.G ∧ x.post.snow.en.G_0 = 0 ∧ x.post.snow.E * (ts x.lv).time_step < x.post.snow.E_s ∧
    x.pre.snow.cc_s_l ≤ 0 ∧ 0 ≤ x.pre.snow.t_s ∧
    ∃ w z1 z2 z3 z4, DepthBooks (ts x.lv).time_step x w z1 z2 z3 z4 ∧ z1 < x.pre.snow.z_s := by
  obtain ⟨x, m, h, hlv, hw, hin, hcov⟩ := thaw_run
  obtain ⟨hg, ha, hm⟩ := windCfg_ok
  obtain ⟨ts, hts, h55⟩ := C55_depth_step windCfg hg ha _ thaw_rows _ m h
  have hT : ∀ T ∈ packTemps x.pre.snow, T = FREEZE - 10 := by
    intro T hT
    unfold packTemps at hT
    rw [if_pos hw.lc] at hT
    simpa [hw.t_s_0, hw.t_s, hw.t_s_l] using hT
  have hm0 : 0 < x.pre.snow.m_s := by rw [hw.m_s]; norm_num
  have hso : SoilOK (calmEnv 0.01) x.post.input1 := by rw [hin]; exact thaw_soil
  have eg : x.post.input1.t_g = FREEZE := by rw [hin]; rfl
  have hb : x.post.input1.t_g ≤ BOIL := by rw [eg]; exact boil_gt.le
  have hz : 0 < (calmEnv 0.01).z_g := by norm_num [calmEnv]
  have hle : ∀ T ∈ packTemps x.pre.snow, T ≤ FREEZE := fun T h => by rw [hT T h]; linarith
  obtain ⟨_, _, _, h2, _⟩ := C72_flux_laws_step windCfg hm _ _ m h _ ts wind_env hts [x] (by simp) x (by simp) hm0 hso hb hle
  obtain ⟨es, el, eg', _, _, _, _, hG0⟩ := h2 hw.lc
  have hG := (C37_heat_flow_step windCfg hm _ _ m h _ wind_env [x] (by simp) x (by simp) hm0 hso hz hb).2 hw.lc
  have hv := ((C56_vapour_budget_step windCfg hg hm _ _ m h _ ts wind_env hts [x] (by simp) x (by simp) hcov).2
      hso hz hb hle)
  obtain ⟨r0, rl, w, _, z1, z2, z3, z4, hd⟩ := h55 [x] (by simp) x (by simp) hcov
  refine ⟨x, m, _, ts, h, wind_env, hts, hm0, hso, hb, hle, hw.lc, hcov, ?_, ?_, ?_, by linarith [hw.cc_s_l],
    by rw [hw.t_s]; norm_num [FREEZE], w, z1, z2, z3, z4, hd, ?_⟩
  · exact (hG (by rw [hw.t_s_0]; linarith) (by rw [hw.t_s_l]; linarith)).1.1.mpr (by rw [hw.t_s_l, eg]; linarith)
  · rw [hG0, hw.t_s_0, hw.t_s_l]
    unfold conducted
    rw [sub_self, zero_div]
  · exact hv.1 (fun T h => by rw [hT T h, eg]; linarith)
  · exact (hd.compact.2 (by rw [hw.rho]; norm_num) hm0).1

end

end Pysnobal
