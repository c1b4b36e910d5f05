import Verif.Props.Examples
import Verif.Props.Capacity
import Verif.Props.StepLedger
import Verif.Props.Vapour
import Verif.Props.Start
import Verif.Props.Thermal

/-! # Concrete cases that meet the hypotheses of C37 and C53 – C57

The storm step of `storm_run`: 100 kg/m² of ripe snow receive 5 kg/m² of wet snow and 5 of rain, 3 melt and
more than 7 run off. -/

namespace Pysnobal

noncomputable section

/-- The liquid-water ledger of the storm step. -/
theorem storm_water (n : ℕ) : ∃ x ls m,
    RunTrace stormCfg (stormRec :: quietRec :: List.replicate n quietRec) ([x] :: ls) m ∧ StormStep x ∧
    ∃ ts, parse_time_steps stormCfg = .ok ts ∧
    WaterBooks stormCfg (ts .normal).time_step x 0 0 (8 + poreWater 0.01 (1 / 60) 5) ∧
    ∃ z1 z2 z3 z4, DepthBooks (ts .normal).time_step x (8 + poreWater 0.01 (1 / 60) 5) z1 z2 z3 z4 := by
  obtain ⟨x, ls, m, h1, h2, h3, h4⟩ := storm_facts n
  obtain ⟨hg, ha, hm, _, hz⟩ := stormCfg_ok
  refine ⟨x, ls, m, h1, h2, ?_⟩
  obtain ⟨ts, hts, hw⟩ := C55_depth_step stormCfg hg ha _ (fun r hr => (storm_rows n r hr).1) _ m h1
  refine ⟨ts, hts, ?_⟩
  obtain ⟨r0, rl, w, hb, hd⟩ := hw [x] (by simp) x (by simp) h2.cover
  rw [h2.lv] at hb hd
  have hin : waterIn stormCfg x = 5 + poreWater 0.01 (1 / 60) 5 := by
    unfold waterIn
    rw [if_pos h2.now, h2.m_rain, h2.sat_snow, h2.z_snow, h2.m_snow, one_mul]
    rfl
  have hp : 0 < poreWater 0.01 (1 / 60) 5 := by norm_num [poreWater, RHO_W0, RHO_ICE]
  have hl0 : 0 < lh_fus FREEZE := by norm_num [lh_fus, FREEZE]
  have hdt := (parse_tile hg hts).step_pos .normal
  have e0 : r0 = 0 := by
    have e1 := hb.surface
    have : (0:ℝ) ≤ 0 + 278 * (ts .normal).time_step := by positivity
    rw [h2.ripe.cc0, h2.pre_ripe.cc0, h2.heat, min_eq_left this, sub_zero] at e1
    exact (mul_eq_zero.mp e1).resolve_left hl0.ne'
  have el : rl = 0 := by
    by_contra h
    rcases hb.lower h with h | h | h
    · rw [h2.pre_ripe.ccl] at h; exact lt_irrefl _ h
    · rw [h2.pre_ripe.t] at h; exact lt_irrefl _ h
    · rw [h2.heat] at h; exact lt_irrefl _ h
  have ew : w = 8 + poreWater 0.01 (1 / 60) 5 := by
    rw [hb.left, e0, el, h2.pre_h2o, hin, h2.melt, if_neg (by norm_num; linarith)]
    ring
  rw [e0, el, ew] at hb
  rw [ew] at hd
  exact ⟨hb, hd⟩

/-- C53, C54: what is retained after the storm step is the pore water; retained water and runoff add up to rain,
water of the wet snow and melt. -/
example (n : ℕ) : ∃ x ls m, RunTrace stormCfg (stormRec :: quietRec :: List.replicate n quietRec) ([x] :: ls) m ∧
    StormStep x ∧
    x.post.snow.h2o_max = 0.01 * RHO_W0 *
      (x.post.snow.z_s - (x.post.snow.m_s - x.post.snow.h2o) / RHO_ICE) ∧
    x.post.snow.h2o + x.post.snow.swi = 8 + poreWater 0.01 (1 / 60) 5 := by
  obtain ⟨x, ls, m, h1, h2, ts, hts, hb, _⟩ := storm_water n
  obtain ⟨hg, ha, hm, _, hz⟩ := stormCfg_ok
  refine ⟨x, ls, m, h1, h2, ?_, ?_⟩
  · exact C53_capacity_step stormCfg hm _ _ m h1 [x] (by simp) x (by simp) (by rw [h2.ripe.lc]; norm_num)
  · have hp : 0 < poreWater 0.01 (1 / 60) 5 := by norm_num [poreWater, RHO_W0, RHO_ICE]
    have hv : ∀ w : ℝ, 0 < w → afterVapour w 0 = w := fun w hw => by
      unfold afterVapour
      rw [if_pos hw, zero_mul, add_zero, max_eq_right hw.le]
    have hw : 0 < 8 + poreWater 0.01 (1 / 60) 5 := by linarith
    rw [hb.out, h2.E, h2.E_s, zero_mul, sub_zero, hv _ hw, hv _ hw]

/-- C55: the pack of the storm step is so dense that it does not compact; the new snow makes it 1/60 m deeper,
and melt makes it shallower, down to the depth of a density of 600 kg/m³. -/
example (n : ℕ) : ∃ x ls m, RunTrace stormCfg (stormRec :: quietRec :: List.replicate n quietRec) ([x] :: ls) m ∧
    StormStep x ∧ ∃ dt w z1 z2 z3 z4, DepthBooks dt x w z1 z2 z3 z4 ∧
      z2 = clipDepth (x.pre.snow.z_s + 1 / 60) 110 ∧ 110 / 600 ≤ z3 := by
  obtain ⟨x, ls, m, h1, h2, ts, hts, hb, z1, z2, z3, z4, hd⟩ := storm_water n
  have hp : x.precip = 10 := by
    unfold RStep.precip
    rw [h2.now]; simp [h2.m_pp]
  refine ⟨x, ls, m, h1, h2, _, _, z1, z2, z3, z4, hd, ?_, ?_⟩
  · have e := hd.precip
    rw [if_pos h2.now, hd.compact.1 (by rw [h2.pre_rho]; norm_num), h2.z_snow, h2.pre_m, hp] at e
    rw [e]; norm_num
  · have e := hd.melt
    rw [if_pos (by rw [h2.melt]; norm_num), h2.pre_m, hp] at e
    rw [e]
    unfold clipDepth
    refine le_trans ?_ (le_max_right _ _)
    norm_num

/-- C37, C56: pack and soil of the storm step are both at the freezing point, so no heat is conducted and no
vapour exchanged. -/
example (n : ℕ) : ∃ x ls m, RunTrace stormCfg (stormRec :: quietRec :: List.replicate n quietRec) ([x] :: ls) m ∧
    StormStep x ∧ ∃ c ts, mkEnv stormCfg = .ok c ∧ parse_time_steps stormCfg = .ok ts ∧
      SoilOK c x.post.input1 ∧ (∀ T ∈ packTemps x.pre.snow, T = x.post.input1.t_g) ∧
      x.post.snow.E_s = x.post.snow.E * (ts x.lv).time_step ∧
      ¬ 0 < x.post.snow.en.G ∧ ¬ x.post.snow.en.G < 0 := by
  obtain ⟨x, ls, m, h1, h2, ts, hts, hb, _⟩ := storm_water n
  obtain ⟨hg, ha, hm, _, hz⟩ := stormCfg_ok
  have hc : mkEnv stormCfg = .ok (calmEnv 0.01) := calmCfg_env _ _ _ _ _
  have hT : ∀ T ∈ packTemps x.pre.snow, T = FREEZE := by
    intro T hT
    unfold packTemps at hT
    rw [h2.pre_ripe.lc, if_neg (by norm_num)] at hT
    simp only [List.mem_cons, List.not_mem_nil, or_false, h2.pre_ripe.t0, h2.pre_ripe.t, or_self] at hT
    exact hT
  have hso : SoilOK (calmEnv 0.01) x.post.input1 := calm_soil _ h2.t_g
  have hb' : x.post.input1.t_g ≤ BOIL := by rw [h2.t_g]; exact boil_gt.le
  have hz : 0 < (calmEnv 0.01).z_g := by norm_num [calmEnv]
  refine ⟨x, ls, m, h1, h2, _, ts, hc, hts, hso, fun T h => by rw [hT T h, h2.t_g], ?_⟩
  constructor
  · exact ((C56_vapour_budget_step stormCfg hg hm _ _ m h1 _ ts hc hts [x] (by simp) x (by simp) h2.cover).2
      hso hz hb' (fun T h => le_of_eq (hT T h))).2.2 (fun T h => by rw [hT T h, h2.t_g])
  · have := (C37_heat_flow_step stormCfg hm _ _ m h1 _ hc [x] (by simp) x (by simp) (by rw [h2.pre_m]; norm_num)
      hso hz hb').1 h2.pre_ripe.lc (le_of_eq h2.pre_ripe.t0)
    rw [h2.pre_ripe.t0, h2.t_g] at this
    exact ⟨fun h => lt_irrefl _ (this.1.mp h), fun h => lt_irrefl _ (this.2.mp h)⟩

/-- C57: the storm run starts from the configured 100 kg/m² in one layer; a metre of the same snow would start
in two layers. -/
example (n : ℕ) : ∃ x ls m, RunTrace stormCfg (stormRec :: quietRec :: List.replicate n quietRec) ([x] :: ls) m ∧
    StormStep x ∧ StartPack stormCfg x.pre.snow ∧ ¬ stormCfg.StartsDeep ∧
    ({ stormCfg with init_z_s := 1 } : Config).StartsSnowy ∧
    ({ stormCfg with init_z_s := 1 } : Config).StartsDeep := by
  obtain ⟨x, ls, m, h1, h2, _⟩ := storm_facts n
  have hs : stormCfg.StartsSnowy := by constructor <;> norm_num [stormCfg, calmCfg, defaultSteps]
  obtain ⟨_, s, hu, hp, _⟩ := C57_history stormCfg stormCfg_ok.2.2.1 _ _ m h1
  have e : x.pre.snow = s := hu.1
  refine ⟨x, ls, m, h1, h2, by rw [e]; exact hp hs, ?_, ?_, ?_⟩
  · intro h
    have := h.1
    norm_num [stormCfg, calmCfg, defaultSteps] at this
  · constructor <;> norm_num [stormCfg, calmCfg, defaultSteps]
  · constructor <;> norm_num [stormCfg, calmCfg, defaultSteps]

/-- C60: the storm step ends with a snow cover of one layer. -/
example (n : ℕ) : ∃ x ls m, RunTrace stormCfg (stormRec :: quietRec :: List.replicate n quietRec) ([x] :: ls) m ∧
    StormStep x ∧ x.post.snow.snowcover = true ∧ x.post.snow.layer_count = 1 ∧
    x.post.snow.t_s = x.post.snow.t_s_0 ∧
    x.post.snow.cc_s_0 = cp_ice FREEZE * x.post.snow.m_s_0 * (x.post.snow.t_s_0 - FREEZE) := by
  obtain ⟨x, ls, m, h1, h2, _⟩ := storm_facts n
  obtain ⟨a, _, b⟩ := (C60_temperature_step stormCfg stormCfg_ok.2.2.1 _ _ m h1 [x] (by simp) x (by simp)).1
    h2.cover h2.ripe.lc
  exact ⟨x, ls, m, h1, h2, h2.cover, h2.ripe.lc, a, by rw [b, h2.pre_ripe.t0]⟩

end

end Pysnobal
