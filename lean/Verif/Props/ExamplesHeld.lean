import Verif.Props.Held
import Verif.Props.ExamplesResume

/-! # Witness for C85 -/

namespace Pysnobal

noncomputable section

/-- C85: 100 kg/m² of snow falls on bare ground; nothing condenses and the bound is attained. -/
example : ∃ ls m r, RunTrace bareCfg [fallRec, quietRec] ls m ∧ (∀ l ∈ ls, ∀ x ∈ l, x.post.snow.E_s ≤ 0) ∧
    m.output_list.getLast? = some r ∧ r.m_s = 100 ∧
    r.m_s = max (bareCfg.init_rho * bareCfg.init_z_s) 0 + ([fallRec, quietRec].dropLast.map fun r => max r.m_pp 0).sum := by
  obtain ⟨hg, ha, hmax, hz⟩ := bareCfg_ok
  obtain ⟨x, m, h, h1, h2⟩ := fall_run
  obtain ⟨r, hr⟩ := trace_some hg h
  have hE : ∀ l ∈ [[x]], ∀ y ∈ l, y.post.snow.E_s ≤ 0 := by
    intro l hl y hy
    rw [List.mem_singleton.mp hl] at hy
    rw [List.mem_singleton.mp hy]
    obtain ⟨c, ts, _, _, hm, hx⟩ := trace_step hmax h
    obtain ⟨d, i1, _, h3⟩ := hx [x] (by simp) x (by simp)
    obtain ⟨s0, s1, s2, s3, s4, s5, s6, k⟩ := step_chain hm i1 h3
    have hf : s2.snowcover = false := by
      cases hf : s2.snowcover
      · rfl
      · have a := (k.flag1 hm (k.flag2 hm hf).1).1
        rw [k.flag0, h1] at a
        simp at a
    rw [k.dead2 hf]
  have hrows : ∀ q ∈ [fallRec, quietRec], q.Admissible := by
    intro q hq
    rcases List.mem_cons.mp hq with rfl | hq
    · exact fun _ => ⟨by norm_num [fallRec, calmRec], by norm_num [fallRec, calmRec], fun _ => by norm_num [fallRec, calmRec, RHO_ICE, FREEZE]⟩
    · rw [List.mem_singleton.mp hq]; exact fun h => absurd h (lt_irrefl _)
  have b := C85_no_condensation bareCfg hg ha _ hrows _ m h hE r hr
  have e : max (bareCfg.init_rho * bareCfg.init_z_s) 0 + ([fallRec, quietRec].dropLast.map fun r => max r.m_pp 0).sum = 100 := by
    norm_num [bareCfg, calmCfg, defaultSteps, fallRec, calmRec]
  obtain ⟨_, ⟨a, hs⟩, l, hl, y, hy, e1⟩ := trace_last hg h hr
  rw [List.mem_singleton.mp hl] at hy
  rw [List.mem_singleton.mp hy] at e1
  have hm' : r.m_s = 100 := by rw [(snapshot_snow hs).2.2.2.2.2.2.2.1, ← e1, h2]
  exact ⟨_, m, r, h, hE, hr, hm', le_antisymm b (by rw [e, hm'])⟩

end

end Pysnobal
