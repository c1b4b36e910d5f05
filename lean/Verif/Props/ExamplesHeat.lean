import Verif.Props.HeatBudget
import Verif.Props.MeltBound
import Verif.Props.MeltOut
import Verif.Props.ExamplesDeep

/-! # Examples for C76: a day and a night on half a metre of ripe snow; 100 kg/m² of snow under the heat that melts 150 -/

namespace Pysnobal

noncomputable section

theorem stormCfg_ok76 : stormCfg.AdmissibleStart := by
  refine ⟨⟨?_, ?_, ?_, ?_⟩, ?_, ?_, ?_⟩ <;> norm_num [stormCfg, calmCfg, defaultSteps, RHO_W0, RHO_ICE]

/-- C76: by day 1 kg/m² melts, by night half of it refreezes and the pack cools; both steps meet the conditions, and the ledger over both says
that no heat is left over: what was lost in ice plus the cold content makes up for it. -/
example : ∃ x y m ts, RunTrace halfMetreCfg [radRec (333600 / 3600), radRec (-333600 / 3600), radRec (-333600 / 3600)] [[x], [y]] m ∧
    halfMetreCfg.StartsSnowy ∧ parse_time_steps halfMetreCfg = .ok ts ∧
    (∀ z ∈ [x, y], QuietStep (ts z.lv).time_step z ∧ KeepsLayers halfMetreCfg (ts z.lv).time_step z) ∧
    0 < x.post.snow.en.delta_Q ∧ y.post.snow.en.delta_Q < 0 ∧
    ∃ s, StartPack halfMetreCfg s ∧
      |(m.output_list.map fun r => r.delta_Q_bar * (60 * (halfMetreCfg.norm_time_step : ℝ))).sum -
        (333600 * (s.ice - m.phys.snow.ice) + (m.phys.snow.cc_s - s.cc_s))| ≤ 0.01 := by
  obtain ⟨x, y, m, h, hx, hy, a1, a2, a3, a4, a5, a6, a6', ⟨b1, b2, b3, b4, b5, b6, b7, b8, b9⟩, ⟨c1, c2, c3, c4, c5, c6, c7, c8, c9, c10⟩⟩ := deep_run
  have hsn : halfMetreCfg.StartsSnowy := by
    constructor <;> norm_num [halfMetreCfg, calmCfg, defaultSteps]
  obtain ⟨ts, s, hts, hs, hq⟩ := C76_heat_budget_records halfMetreCfg halfMetreCfg_tiled halfMetreCfg_ok rfl hsn _ (by
    intro r hr
    simp only [List.mem_cons, List.not_mem_nil, or_false] at hr
    rcases hr with rfl | rfl | rfl <;> exact radRec_admissible _) _ m h
  have hdt : (ts .normal).time_step = 3600 := by
    obtain ⟨_, _, en, _, _⟩ := parse_ok hts
    rw [en]
    norm_num [halfMetreCfg, calmCfg, defaultSteps]
  have hz1 : x.pre.snow.z_s = 0.5 := by
    obtain ⟨_, s', hu, hs', _⟩ := C57_history halfMetreCfg (by norm_num [halfMetreCfg, calmCfg, defaultSteps]) _ _ m h
    have : x.pre.snow = s' := hu.1
    rw [this, (hs' hsn).z_s]
    norm_num [halfMetreCfg, calmCfg, defaultSteps]
  have qx : QuietStep (ts x.lv).time_step x ∧ KeepsLayers halfMetreCfg (ts x.lv).time_step x := by
    have hr6 : x.pre.snow.rho = 600 := by
      have := a1.m
      rw [a6', hz1] at this
      linarith
    rw [hx, hdt]
    exact ⟨⟨b1, by rw [a6']; norm_num, b8, b5.le, by rw [b5, b6]; norm_num⟩, .inr ⟨a1.lc, a2.lc, by
      rw [if_neg (by rw [hr6]; norm_num), hr6]⟩⟩
  have qy : QuietStep (ts y.lv).time_step y ∧ KeepsLayers halfMetreCfg (ts y.lv).time_step y := by
    rw [hy, hdt]
    exact ⟨⟨c1, by rw [a5, b9]; norm_num, c8, c5.le, by rw [c5, c6]; norm_num⟩, .inr ⟨by rw [a5]; exact a2.lc, a3.lc, by
      rw [a5, if_neg (by rw [a4]; norm_num), a4]⟩⟩
  obtain ⟨k1, k2⟩ := hq (by
    intro l hl z hz
    simp only [List.mem_cons, List.not_mem_nil, or_false] at hl
    rcases hl with rfl | rfl <;> rw [List.mem_singleton.mp hz]
    · exact qx
    · exact qy)
  refine ⟨x, y, m, ts, h, hsn, hts, ?_, by rw [b7]; norm_num, by rw [c7]; norm_num, s, hs, ?_⟩
  · intro z hz
    simp only [List.mem_cons, List.not_mem_nil, or_false] at hz
    rcases hz with rfl | rfl
    · exact qx
    · exact qy
  · have hE : (m.output_list.map (·.E_s_sum)).sum = 0 := by
      obtain ⟨c, ts', i1, m0, r, rs, e0, e1, e2, e3, e4, e5⟩ := h
      rw [hts] at e1; cases e1
      obtain ⟨out, q1, _, q3⟩ := dataSteps_heat halfMetreCfg_tiled hts e5 (mkModel_ok e4).2.2.1
      rw [(mkModel_ok e4).2.1, List.nil_append] at q1
      rw [q1, q3]
      simp [b6, c6]
    have hlen : ([[x], [y]].flatten.length : ℝ) = 2 := by norm_num
    rw [hE] at k1
    rw [hlen] at k2
    rw [abs_le]
    constructor <;> linarith

/-- C76: 100 kg/m² of snow at freezing under the heat that would melt 150 kg/m² do not last. -/
example : ∃ x m ts, RunTrace stormCfg [calmRec (150 * 333600 / 3600) 0 1 300, quietRec] [[x]] m ∧ parse_time_steps stormCfg = .ok ts ∧
    333600 * (x.pre.snow.m_s - x.pre.snow.h2o + 1e-8 * [x].length) - x.pre.snow.cc_s < ([x].map fun z => heatRate z * (ts z.lv).time_step).sum ∧
    x.post.snow.snowcover = false := by
  obtain ⟨x, m, h1, a1, a2, a3, a4, a5, a6, a7, a8, a9, b1, b2, b3, b4, _⟩ := meltOut_run (μ := 150) (by norm_num)
  have hr : ∀ r ∈ [calmRec (150 * 333600 / 3600) 0 1 300, quietRec], Rec.Admissible r := by
    intro r hr
    rcases List.mem_cons.mp hr with rfl | hr
    · exact fun h => absurd h (lt_irrefl _)
    · rw [List.mem_singleton.mp hr]
      exact fun h => absurd h (lt_irrefl _)
  obtain ⟨ts, hts, hx⟩ := C76_enough_heat_ends_cover stormCfg (calmCfg_tiled _ _ _ _ _) stormCfg_ok76 _ hr _ m h1
  obtain ⟨ts', hts', hb⟩ := C24_melt_bound_step stormCfg (by norm_num [stormCfg, calmCfg, defaultSteps])
    (by norm_num [stormCfg, calmCfg, defaultSteps]) _ _ m h1
  rw [hts] at hts'; cases hts'
  have hb := hb [x] (by simp) x (by simp) a9.le (by rw [b1]; norm_num [FREEZE])
  have hQ := ((C25_energy_budget_step stormCfg _ _ m h1 [x] (by simp) x (by simp)).2.2.1 a1).2
  have hheat : heatRate x = x.post.snow.en.delta_Q_0 := by
    unfold heatRate
    rw [hQ]; simp
  have hdt : 0 < (ts x.lv).time_step := (parse_tile (calmCfg_tiled _ _ _ _ _) hts).step_pos _
  rw [a6, b2, b3, sub_zero, zero_mul, max_self, add_zero, a8, zero_add, max_eq_right (mul_nonneg b4 hdt.le)] at hb
  have hgt : 333600 * (x.pre.snow.m_s - x.pre.snow.h2o + 1e-8 * [x].length) - x.pre.snow.cc_s <
      ([x].map fun z => heatRate z * (ts z.lv).time_step).sum := by
    have : x.pre.snow.cc_s = 0 := by unfold Snow.cc_s; rw [a8, a9]; ring
    rw [a2, a3, this]
    simp only [List.map_cons, List.map_nil, List.sum_cons, List.sum_nil, List.length_cons, List.length_nil, hheat]
    norm_num
    linarith
  obtain ⟨z, hz, hc⟩ := hx [] x [] [] rfl (by
    intro z hz hc
    rw [List.mem_singleton.mp hz, a5] at hc
    cases hc) hgt
  rw [List.mem_singleton.mp hz] at hc
  exact ⟨x, m, ts, h1, hts, hgt, hc⟩

end

end Pysnobal
