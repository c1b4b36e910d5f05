import Verif.Props.SmallThreshold
import Verif.Props.ExamplesDeep

/-! # Examples for C93 -/

namespace Pysnobal

noncomputable section

/-- C93: a storm and any number of quiet hours on 100 kg/m² of snow: every small mass threshold up to 50 kg/m² gives the same run. -/
example (n : ℕ) (v : ℝ) (h0 : 0 ≤ v) (h50 : v ≤ 50) : ∃ m m', simulate stormCfg (stormRec :: quietRec :: List.replicate n quietRec) = .ok m ∧
    simulate { stormCfg with small_threshold := v } (stormRec :: quietRec :: List.replicate n quietRec) = .ok m' ∧
    m'.output_list = m.output_list ∧ m'.phys = m.phys := by
  obtain ⟨x, ls, m, h, h1, _, h3⟩ := storm_run n
  obtain ⟨hg, ha, _⟩ := stormCfg_ok
  obtain ⟨ts, hts⟩ := parse_of_ne (g := stormCfg) hg.2.1.ne' hg.2.2.1.ne'
  have hpost : 100 < x.post.snow.m_s ∧ x.post.snow.m_s < 110 := by
    rw [h1.m]
    constructor <;> linarith [h1.swi.1, h1.swi.2]
  obtain ⟨m', k1, k2, k3, _⟩ := C93_small_threshold_unused stormCfg hg ha 0 50 v (by norm_num [stormCfg, calmCfg, defaultSteps])
    (by norm_num [stormCfg, calmCfg, defaultSteps]) h0 h50
    (.inr ⟨by norm_num [stormCfg, calmCfg, defaultSteps], .inl (by norm_num [stormCfg, calmCfg, defaultSteps])⟩) _
    (fun r hr => (storm_rows n r hr).1) _ m h ts hts (by
    intro l hl y hy
    rcases List.mem_cons.mp hl with rfl | hl
    · rw [List.mem_singleton.mp hy]
      refine ⟨fun _ => ?_, fun _ => ?_, fun hlc => ?_⟩
      · rw [h1.pre_m]; norm_num
      · linarith [hpost.1]
      · have := h1.pre_ripe.lc
        omega
    · obtain ⟨_, q1, q2, _⟩ := h3 l hl y hy
      refine ⟨fun _ => ?_, fun _ => ?_, fun hlc => ?_⟩
      · rw [show y.pre.snow.m_s = x.post.snow.m_s from q1.m]; linarith [hpost.1]
      · rw [show y.post.snow.m_s = x.post.snow.m_s from q2.m]; linarith [hpost.1]
      · have := q1.ripe.lc
        omega) (by
    have hA : stormCfg.max_active = 0.25 := by norm_num [stormCfg, calmCfg, defaultSteps]
    rw [hA]
    intro l hl y hy
    refine .inl ?_
    rcases List.mem_cons.mp hl with rfl | hl
    · rw [List.mem_singleton.mp hy]
      have hz : x.pre.snow.z_s = 1 / 6 := by
        have a := h1.pre_ripe.m
        have b := h1.pre_ripe.z
        rw [h1.pre_m, h1.pre_rho] at a
        rw [b]
        linarith
      have hn : x.newDepth = 1 / 60 := by
        unfold RStep.newDepth
        rw [if_pos h1.now, h1.z_snow]
      have hp : x.precip = 10 := by
        unfold RStep.precip
        rw [if_pos h1.now, h1.m_pp]
      have hf : ∀ dt, x.frost dt = 0 := by
        intro dt
        unfold RStep.frost
        rw [h1.E, h1.E_s]
        simp
      refine ⟨fun _ => ?_, ?_, fun _ => ?_, fun _ => ?_⟩
      · rw [h1.pre_m]; norm_num
      · rw [hn]; norm_num
      · rw [hz, hn, hf]; norm_num
      · rw [h1.pre_m, hp, hf]; norm_num
    · obtain ⟨_, q1, q2, _, q3, _, q4, q5, _, q6⟩ := h3 l hl y hy
      have hm : y.pre.snow.m_s = x.post.snow.m_s := q1.m
      have hn : y.newDepth = 0 := by
        unfold RStep.newDepth
        rw [if_neg (by rw [q6]; simp)]
      have hp : y.precip = 0 := by
        unfold RStep.precip
        rw [if_neg (by rw [q6]; simp)]
      have hf : ∀ dt, y.frost dt = 0 := by
        intro dt
        unfold RStep.frost
        rw [q4, q5]
        simp
      refine ⟨fun _ => ?_, ?_, fun _ => ?_, fun _ => ?_⟩
      · rw [hm]; linarith [hpost.1]
      · rw [hn]; norm_num
      · rw [hn, hf, q1.ripe.z]
        have := q1.ripe.z_le
        norm_num at this ⊢
        linarith
      · rw [hm, hp, hf]
        linarith [hpost.2])
  exact ⟨m, m', h.simulate, k1, k2, k3⟩

/-- C93: a day and a night of half a metre of old snow, which has two layers: every small mass threshold up to 100 kg/m² gives the same
run. -/
example (v : ℝ) (h0 : 0 ≤ v) (h100 : v ≤ 100) :
    ∃ m m', simulate halfMetreCfg [radRec (333600 / 3600), radRec (-333600 / 3600), radRec (-333600 / 3600)] = .ok m ∧
    simulate { halfMetreCfg with small_threshold := v } [radRec (333600 / 3600), radRec (-333600 / 3600), radRec (-333600 / 3600)] = .ok m' ∧
    m'.output_list = m.output_list ∧ m'.phys = m.phys := by
  obtain ⟨x, y, m, h, hx, hy, a1, a2, a3, a4, a5, a6, a6', ⟨b1, b2, b3, b4, b5, b6, b7, b8, b9⟩, ⟨c1, c2, c3, c4, c5, c6, c7, c8, c9, c10⟩, hxr⟩ := deep_run_full
  have hr : ∀ r ∈ [radRec (333600 / 3600), radRec (-333600 / 3600), radRec (-333600 / 3600)], r.Admissible := by
    intro r hr
    simp only [List.mem_cons, List.not_mem_nil, or_false] at hr
    rcases hr with rfl | rfl | rfl <;> exact radRec_admissible _
  obtain ⟨ts, hts⟩ := parse_of_ne (g := halfMetreCfg) halfMetreCfg_tiled.2.1.ne' halfMetreCfg_tiled.2.2.1.ne'
  have hA : halfMetreCfg.max_active = 0.25 := by norm_num [halfMetreCfg, calmCfg, defaultSteps]
  have hz : halfMetreCfg.init_z_s = 0.5 ∧ halfMetreCfg.init_rho = 600 ∧ halfMetreCfg.small_threshold = 1 := by
    norm_num [halfMetreCfg, calmCfg, defaultSteps]
  have hym : 300 ≤ y.post.snow.m_s := by
    have := C21_never_a_deficit_step halfMetreCfg halfMetreCfg_tiled halfMetreCfg_ok _ hr _ m h [y] (by simp) y (by simp)
    have hp : y.precip = 0 := by
      unfold RStep.precip
      rw [if_neg (by rw [c8]; simp)]
    rw [hp, a5, b9, c4, c6] at this
    linarith
  obtain ⟨m', k1, k2, k3, _⟩ := C93_small_threshold_unused halfMetreCfg halfMetreCfg_tiled halfMetreCfg_ok 0 100 v (by rw [hz.2.2]; norm_num)
    (by rw [hz.2.2]; norm_num) h0 h100 (.inr ⟨by rw [hz.1, hz.2.1]; norm_num, .inr (by rw [hz.1, hz.2.1, hA]; norm_num)⟩) _ hr _ m h ts hts (by
    intro l hl w hw
    simp only [List.mem_cons, List.not_mem_nil, or_false] at hl
    rcases hl with rfl | rfl
    · rw [List.mem_singleton.mp hw]
      refine ⟨fun _ => by rw [a6']; norm_num, fun _ => by rw [b9]; norm_num, fun hlc => ?_⟩
      have := a1.lc
      omega
    · rw [List.mem_singleton.mp hw]
      refine ⟨fun _ => by rw [a5, b9]; norm_num, fun _ => by linarith, fun hlc => ?_⟩
      rw [a5] at hlc
      have := a2.lc
      omega) (by
    rw [hA]
    intro l hl w hw
    refine .inr ?_
    simp only [List.mem_cons, List.not_mem_nil, or_false] at hl
    rcases hl with rfl | rfl
    · rw [List.mem_singleton.mp hw]
      exact ⟨by rw [a1.lc]; norm_num, by rw [hxr], fun q => by rw [hxr] at q; norm_num at q, by rw [a6']; norm_num, by rw [b9]; norm_num⟩
    · rw [List.mem_singleton.mp hw]
      exact ⟨by rw [a5, a2.lc]; norm_num, by rw [a5, a4], fun q => by rw [a5, a4] at q; norm_num at q, by rw [a5, b9]; norm_num, by linarith⟩)
  exact ⟨m, m', h.simulate, k1, k2, k3⟩

end

end Pysnobal
