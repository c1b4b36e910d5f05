import Verif.Props.LightSnow
import Verif.Props.ExamplesResume

/-! # A case that meets the hypotheses of C99: hours of light snowfall, as much as 100 kg/m² in all, of which nothing remains -/

namespace Pysnobal

noncomputable section

/-- A hundred hours of 1 kg/m² of new snow leave bare ground, while one hour with 100 kg/m² (`fall_run`) leaves 100 kg/m². -/
example : (∃ m, simulate bareCfg (List.replicate 101 (calmRec 0 1 1 90)) = .ok m ∧ m.output_list.map (·.swi_sum) = List.replicate 100 1 ∧
      m.phys.snow.m_s = 0) ∧
    ∃ x m, RunTrace bareCfg [fallRec, quietRec] [[x]] m ∧ x.post.snow.m_s = 100 := by
  refine ⟨?_, ?_⟩
  · have e : List.replicate 101 (calmRec 0 1 1 90) = calmRec 0 1 1 90 :: List.replicate 100 (calmRec 0 1 1 90) := rfl
    rw [e]
    obtain ⟨m, h1, h2, _, _, h3, _⟩ := C99_light_snowfall_runs_off bareCfg bareCfg_ok.1 bareCfg_ok.2.2.1
      (.inr (by norm_num [bareCfg, calmCfg, defaultSteps])) ⟨_, calmCfg_env _ _ _ _ _⟩ (calmRec 0 1 1 90)
      (List.replicate 100 (calmRec 0 1 1 90)) (by
        intro x hx
        rw [← e] at hx
        rw [List.eq_of_mem_replicate hx]
        intro _
        norm_num [calmRec, bareCfg, calmCfg, defaultSteps])
    refine ⟨m, h1, ?_, h3⟩
    rw [h2, ← List.replicate_succ, List.dropLast_replicate, List.map_replicate]
    norm_num [calmRec]
  · obtain ⟨x, m, h, _, hm⟩ := fall_run
    exact ⟨x, m, h, hm⟩

end

end Pysnobal
