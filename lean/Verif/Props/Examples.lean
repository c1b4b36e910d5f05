import Verif.Lemmas.WitnessRich
import Verif.Props.Surplus
import Verif.Props.Energy
import Verif.Props.Retention
import Verif.Props.Compaction
import Verif.Props.Cold
import Verif.Props.NonNeg
import Verif.Props.Bare
import Verif.Props.Pack
import Verif.Props.Mass
import Verif.Props.Water

/-! # Concrete cases that meet the hypotheses of the run theorems

`storm_run n` is a completed simulation of `n + 1` data steps: a storm with snow, rain, melt and runoff on
100 kg/m² of ripe snow, followed by `n` quiet hours.  The examples below feed it to the theorems about
completed simulations; the other examples are packs that compact, and bare ground. -/

namespace Pysnobal

noncomputable section

theorem stormCfg_ok : stormCfg.Tiled ∧ stormCfg.AdmissibleStart ∧ 0 < stormCfg.max_active ∧
    0 ≤ stormCfg.init_t_s ∧ 0 ≤ stormCfg.init_z_s := by
  refine ⟨calmCfg_tiled _ _ _ _ _, ⟨⟨?_, ?_, ?_, ?_⟩, ?_, ?_, ?_⟩, ?_, ?_, ?_⟩ <;>
    norm_num [stormCfg, calmCfg, defaultSteps, RHO_W0, RHO_ICE, FREEZE]

theorem storm_rows (n : ℕ) : ∀ r ∈ stormRec :: quietRec :: List.replicate n quietRec,
    r.Admissible ∧ r.rho_snow ≤ 600 := by
  intro r hr
  rcases List.mem_cons.mp hr with rfl | hr
  · exact ⟨fun _ => ⟨by norm_num [stormRec, calmRec], by norm_num [stormRec, calmRec], fun _ => by
      norm_num [stormRec, calmRec, RHO_ICE, FREEZE]⟩, by norm_num [stormRec, calmRec]⟩
  · have : r = quietRec := by
      rcases List.mem_cons.mp hr with h | h
      · exact h
      · exact List.eq_of_mem_replicate h
    rw [this]
    exact ⟨fun h => absurd h (lt_irrefl _), by norm_num [quietRec, calmRec]⟩

/-- The steps of the storm run: all keep the snow cover, none sublimates, and the first has 10 kg/m² of
precipitation, 3 kg/m² of melt and more than 7 kg/m² of runoff. -/
theorem storm_facts (n : ℕ) : ∃ x ls m,
    RunTrace stormCfg (stormRec :: quietRec :: List.replicate n quietRec) ([x] :: ls) m ∧ StormStep x ∧
    ls.length = n ∧ ∀ l ∈ [x] :: ls, ∀ y ∈ l, y.lv = .normal ∧ y.post.snow.snowcover = true ∧
      y.post.snow.melt ≤ 3 ∧ y.post.snow.E = 0 ∧ y.post.snow.E_s = 0 ∧ 100 ≤ y.pre.snow.m_s ∧
      0 ≤ y.precip ∧ y.pre.snow.h2o ≤ 1 ∧ y.pre.snow.layer_count = 1 ∧ y.post.snow.layer_count = 1 ∧
      (∀ c, mkEnv stormCfg = .ok c → 0 ≤ iceIn c y) := by
  obtain ⟨x, ls, m, h1, h2, h3, h4⟩ := storm_run n
  refine ⟨x, ls, m, h1, h2, h3, ?_⟩
  intro l hl y hy
  rcases List.mem_cons.mp hl with rfl | hl
  · rw [List.mem_singleton.mp hy]
    have hp : x.precip = 10 := by
      unfold RStep.precip
      rw [h2.now]; simp [h2.m_pp]
    refine ⟨h2.lv, h2.cover, le_of_eq h2.melt, h2.E, h2.E_s, le_of_eq h2.pre_m.symm, by rw [hp]; norm_num,
      by rw [h2.pre_h2o]; norm_num, h2.pre_ripe.lc, h2.ripe.lc, fun c hc => ?_⟩
    have hv : c.max_h2o_vol = 0.01 := (mkEnv_ok hc).2.2.1
    unfold iceIn
    rw [if_pos h2.now, h2.m_snow, h2.z_snow, h2.rho_snow, h2.sat_snow, hv]
    norm_num [h2o_left, RHO_W0, RHO_ICE]
  · obtain ⟨a1, a2, a3, a4, a5, a6, a7, a8, a9, a10⟩ := h4 l hl y hy
    have := h2.swi.2
    have := h2.h2o.2
    refine ⟨a1, a5, by rw [a6]; norm_num, a7, a8, by rw [a2.m, h2.m]; linarith, ?_, by rw [a4]; linarith,
      a2.ripe.lc, a3.ripe.lc, fun c hc => ?_⟩
    · unfold RStep.precip
      rw [a10]; simp
    · unfold iceIn
      rw [a10]; simp

/-- C19: the mass balance of the whole storm run, with 100 kg/m² of initial snow and 10 of precipitation. -/
example (n : ℕ) : ∃ ls m r, RunTrace stormCfg (stormRec :: quietRec :: List.replicate n quietRec) ls m ∧
    ls.length = n + 1 ∧ m.output_list.length = n + 1 ∧ m.output_list.getLast? = some r ∧
      r.m_s = 110 + (m.output_list.map (·.E_s_sum)).sum - (m.output_list.map (·.swi_sum)).sum := by
  obtain ⟨x, ls, m, h1, h2, h3, h4⟩ := storm_facts n
  obtain ⟨hg, ha, hm, _⟩ := stormCfg_ok
  have hlen := C07_normal_count stormCfg rfl _ _ m h1.simulate
  have hne : m.output_list ≠ [] := by
    intro h
    rw [h] at hlen
    simp at hlen
  refine ⟨_, m, m.output_list.getLast hne, h1, by simp [h3], by rw [hlen]; simp, List.getLast?_eq_some_getLast hne, ?_⟩
  have := C19_mass_balance_run stormCfg hg hm _ _ m h1 (fun l hl y hy => (h4 l hl y hy).2.1) _
    (List.getLast?_eq_some_getLast hne)
  have e : ((stormRec :: quietRec :: List.replicate n quietRec).dropLast.map fun r => max r.m_pp 0).sum = 10 := by
    have hq : ∀ k : ℕ, ((quietRec :: List.replicate k quietRec).dropLast.map fun r => max r.m_pp 0).sum = 0 := by
      intro k
      apply List.sum_eq_zero
      intro a ha
      obtain ⟨r, hr, rfl⟩ := List.mem_map.mp ha
      have hr := List.mem_of_mem_dropLast hr
      have : r = quietRec := by
        rcases List.mem_cons.mp hr with h | h
        · exact h
        · exact List.eq_of_mem_replicate h
      rw [this]
      exact max_self _
    rw [List.dropLast_cons_of_ne_nil (by simp), List.map_cons, List.sum_cons, hq n]
    norm_num [stormRec, calmRec]
  rw [e] at this
  rw [this]
  norm_num [stormCfg, calmCfg, defaultSteps]

/-- C23: the storm run meets the hypotheses on melt and vapour loss, so mass and depth stay non-negative. -/
example (n : ℕ) : ∃ ls m, RunTrace stormCfg (stormRec :: quietRec :: List.replicate n quietRec) ls m ∧
    ls.length = n + 1 ∧ ∀ r ∈ m.output_list, 0 ≤ r.m_s ∧ 0 ≤ r.z_s := by
  obtain ⟨x, ls, m, h1, h2, h3, h4⟩ := storm_facts n
  obtain ⟨hg, ha, hm, _, hz⟩ := stormCfg_ok
  obtain ⟨c, ts, hc, hts, _⟩ := trace_step hm h1
  have hv : ∀ (y : RStep Phys), y.post.snow.E = 0 → y.post.snow.E_s = 0 →
      vapourLoss (ts y.lv).time_step y.post.snow = 0 := by
    intro y e1 e2
    simp [vapourLoss, e1, e2]
  refine ⟨_, m, h1, by simp [h3], ?_⟩
  refine C23_mass_depth_records stormCfg hg ha hz _ (fun r hr => (storm_rows n r hr).1) _ m h1 c ts hc hts ?_ ?_
  · intro l hl y hy _
    obtain ⟨_, _, b1, b2, b3, b4, b5, b6, _, _, b7⟩ := h4 l hl y hy
    rw [hv y b2 b3]
    have := b7 c hc
    unfold Snow.ice
    linarith
  · intro l hl y hy
    obtain ⟨_, _, b1, b2, b3, b4, b5, b6, _, _, b7⟩ := h4 l hl y hy
    rw [hv y b2 b3]
    constructor <;> linarith

/-- C26, C29, C30, C14, C25: the hypotheses are the tiled admissible configuration and admissible rows; the
first record of the run has runoff, so the pack is saturated. -/
example (n : ℕ) : ∃ x ls m, RunTrace stormCfg (stormRec :: quietRec :: List.replicate n quietRec) ([x] :: ls) m ∧
    0 < x.post.snow.swi ∧ x.post.snow.h2o_sat = 1 ∧ 0 < x.post.snow.h2o ∧ 
    (∀ r ∈ m.output_list, r.rho ≤ 600 ∧ 0 ≤ r.swi_sum) := by
  obtain ⟨x, ls, m, h1, h2, h3, h4⟩ := storm_facts n
  obtain ⟨hg, ha, hm, _, hz⟩ := stormCfg_ok
  have hr := fun r hr => (storm_rows n r hr).1
  have hs : 0 < x.post.snow.swi := by linarith [h2.swi.1]
  refine ⟨x, ls, m, h1, hs, ?_, by linarith [h2.h2o.1], fun r hro => ⟨?_, ?_⟩⟩
  · exact ((C26_retention_step stormCfg hg ha _ hr _ m h1 [x] (by simp) x (by simp) h2.cover).2.2.2.2.1 hs).1
  · exact C29_density_clipped_records stormCfg hg ha _ hr (fun r hr => (storm_rows n r hr).2) m h1.simulate r hro
  · exact (C30_water_nonneg_records stormCfg hg ha _ hr m h1.simulate r hro).2.1

/-- C24: in the storm step 3 kg/m² melt, so the energy left after warming the surface layer is positive. -/
example (n : ℕ) : ∃ ls m, RunTrace stormCfg (stormRec :: quietRec :: List.replicate n quietRec) ls m ∧
    ∃ l ∈ ls, ∃ x ∈ l, x.post.snow.snowcover = true ∧ x.post.snow.melt = 3 ∧ x.post.snow.cc_s_0 = 0 := by
  obtain ⟨x, ls, m, h1, h2, h3, h4⟩ := storm_facts n
  exact ⟨_, m, h1, [x], by simp, x, by simp, h2.cover, h2.melt, h2.ripe.cc0⟩

/-- C16, C17: the storm run starts at a temperature above absolute zero, has no second layer, and stays at the
freezing point. -/
example (n : ℕ) : ∃ ls m, RunTrace stormCfg (stormRec :: quietRec :: List.replicate n quietRec) ls m ∧
    (∀ r ∈ m.output_list, r.cc_s ≤ 0 ∧ (0 < r.m_s → r.t_s ≤ FREEZE)) := by
  obtain ⟨x, ls, m, h1, h2, h3, h4⟩ := storm_facts n
  obtain ⟨hg, ha, hm, ht, hz⟩ := stormCfg_ok
  have hr := fun r hr => (storm_rows n r hr).1
  have h2l : ∀ l ∈ [x] :: ls, ∀ y ∈ l, y.pre.snow.layer_count = 2 → 0 ≤ y.pre.snow.t_s := by
    intro l hl y hy h
    rw [(h4 l hl y hy).2.2.2.2.2.2.2.2.1] at h
    cases h
  refine ⟨_, m, h1, fun r hro => ⟨?_, fun hm0 => ?_⟩⟩
  · exact ((C16_cold_content_records stormCfg hg ha ht _ hr _ m h1).2 h2l r hro).2
  · exact ((C17_temperature_records stormCfg hg ha ht _ hr _ m h1).2 h2l r hro hm0).2.1

/-- C27, C28: a pack of 100 kg/m² and half a metre. -/
example (s : Snow) (c : Env) (hc : 0 < c.max_z_s_0) (hs : c.small_threshold = 60) : ∃ p p' : Snow,
    OnGround p ∧ p.m_s = 100 ∧ time_compact c 3600 p = .ok p' ∧ 200 < p'.rho := by
  refine ⟨{ s with rho := 200, m_s := 100, z_s := 1 / 2, snowcover := true }, ?_⟩
  have hg : OnGround { s with rho := 200, m_s := 100, z_s := 1 / 2, snowcover := true } :=
    ⟨rfl, by norm_num, by norm_num, by norm_num⟩
  obtain ⟨s', h1, _, h2, _⟩ := C27_gravity_compaction c hc 3600 (by norm_num) _ hg
  exact ⟨s', hg, rfl, h1, (h2 (by norm_num) (by rw [hs]; norm_num)).1.rho⟩

/-- C15, C20, C45: rain on bare ground, for any number of hours. -/
example (n : ℕ) : ∃ m, simulate (calmCfg 60 0.01 0 0 0)
      (List.replicate (n + 2) (calmRec 0 7 0 0)) = .ok m ∧
    m.output_list.map (·.swi_sum) = List.replicate (n + 1) 7 := by
  obtain ⟨m, h1, h2, _⟩ := C20_rain_runs_off (calmCfg 60 0.01 0 0 0) (calmCfg_tiled _ _ _ _ _)
    (by norm_num [calmCfg, defaultSteps]) (.inr (le_refl _)) ⟨_, calmCfg_env 60 0.01 0 0 0⟩
    (calmRec 0 7 0 0) (List.replicate (n + 1) (calmRec 0 7 0 0)) (fun r hr _ => by
      have : r ∈ List.replicate (n + 2) (calmRec 0 7 0 0) := hr
      rw [List.eq_of_mem_replicate this]; rfl)
  refine ⟨m, h1, ?_⟩
  rw [h2]
  have : (calmRec 0 7 0 0 :: List.replicate (n + 1) (calmRec 0 7 0 0)) = List.replicate (n + 2) (calmRec 0 7 0 0) := rfl
  rw [this, List.dropLast_replicate, List.map_replicate]
  norm_num [calmRec]

end

end Pysnobal
