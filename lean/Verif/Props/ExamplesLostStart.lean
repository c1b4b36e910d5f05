import Verif.Props.LostStart
import Verif.Props.ExamplesResume

/-! # A case that meets the hypotheses of C98: 0.9 kg/m² of initial snow, then a snowfall -/

namespace Pysnobal

noncomputable section

/-- With a centimetre of new snow, 0.9 kg/m², on the ground, 100 kg/m² of snow fall: the run is the one without it, whose only run step
leaves exactly 100 kg/m². -/
example : ∃ x m, RunTrace bareCfg [fallRec, quietRec] [[x]] m ∧ x.post.snow.m_s = 100 ∧
    simulate (bareCfg.withStart 0.01 90 270 270 0 none) [fallRec, quietRec] = .ok m := by
  obtain ⟨x, m, h, _, hm⟩ := fall_run
  refine ⟨x, m, h, hm, ?_⟩
  rw [(C98_light_start_lost bareCfg bareCfg_ok.1 0.01 90 270 270 0 none ?_ ?_ fallRec quietRec []).1]
  · exact h.simulate
  · norm_num [Config.StartsLight, bareCfg, calmCfg, defaultSteps]
  · norm_num [Config.StartsLight, Config.withStart, bareCfg, calmCfg, defaultSteps]

end

end Pysnobal
