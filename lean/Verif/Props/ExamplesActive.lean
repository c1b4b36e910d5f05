import Verif.Props.Active
import Verif.Props.Examples

/-! # Example for C92 -/

namespace Pysnobal

noncomputable section

/-- C92: a storm and any number of quiet hours on 17 cm of snow: a surface layer of up to 10 m gives the same run as one of up to 25 cm. -/
example (n : ℕ) : ∃ m m', simulate stormCfg (stormRec :: quietRec :: List.replicate n quietRec) = .ok m ∧
    simulate { stormCfg with max_active := 10 } (stormRec :: quietRec :: List.replicate n quietRec) = .ok m' ∧
    m'.output_list = m.output_list ∧ m'.phys = m.phys := by
  obtain ⟨x, ls, m, h, h1, _, h3⟩ := storm_run n
  obtain ⟨hg, ha, _⟩ := stormCfg_ok
  obtain ⟨ts, hts⟩ := parse_of_ne (g := stormCfg) hg.2.1.ne' hg.2.2.1.ne'
  obtain ⟨m', k1, k2, k3, _⟩ := C92_active_depth_unused stormCfg hg ha 0.25 10 (by norm_num) (by norm_num [stormCfg, calmCfg, defaultSteps])
    (by norm_num) (by norm_num [stormCfg, calmCfg, defaultSteps]) _ (fun r hr => (storm_rows n r hr).1) _ m h ts hts (by
    intro l hl y hy
    rcases List.mem_cons.mp hl with rfl | hl
    · rw [List.mem_singleton.mp hy]
      have hz : x.pre.snow.z_s = 1 / 6 := by
        have a := h1.pre_ripe.m
        have b := h1.pre_ripe.z
        rw [h1.pre_m, h1.pre_rho] at a
        rw [b]
        linarith
      have hn : x.newDepth = 1 / 60 := by
        unfold RStep.newDepth
        rw [if_pos h1.now, h1.z_snow]
      have hp : x.precip = 10 := by
        unfold RStep.precip
        rw [if_pos h1.now, h1.m_pp]
      have hf : ∀ dt, x.frost dt = 0 := by
        intro dt
        unfold RStep.frost
        rw [h1.E, h1.E_s]
        simp
      refine ⟨fun _ => ?_, ?_, fun _ => ?_, fun _ => ?_⟩
      · rw [h1.pre_m]; norm_num
      · rw [hn]; norm_num
      · rw [hz, hn, hf]; norm_num
      · rw [h1.pre_m, hp, hf]; norm_num
    · obtain ⟨_, q1, q2, _, q3, _, q4, q5, _, q6⟩ := h3 l hl y hy
      have hm : y.pre.snow.m_s = x.post.snow.m_s := q1.m
      have hm' : 0 < x.post.snow.m_s ∧ x.post.snow.m_s < 110 := by
        rw [h1.m]
        constructor <;> linarith [h1.swi.1, h1.swi.2]
      have hn : y.newDepth = 0 := by
        unfold RStep.newDepth
        rw [if_neg (by rw [q6]; simp)]
      have hp : y.precip = 0 := by
        unfold RStep.precip
        rw [if_neg (by rw [q6]; simp)]
      have hf : ∀ dt, y.frost dt = 0 := by
        intro dt
        unfold RStep.frost
        rw [q4, q5]
        simp
      refine ⟨fun _ => ?_, ?_, fun _ => ?_, fun _ => ?_⟩
      · rw [hm]; exact hm'.1
      · rw [hn]; norm_num
      · rw [hn, hf, q1.ripe.z]
        have := q1.ripe.z_le
        norm_num at this ⊢
        linarith
      · rw [hm, hp, hf]
        linarith [hm'.2])
  exact ⟨m, m', h.simulate, k1, k2, k3⟩

end

end Pysnobal
