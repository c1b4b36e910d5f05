import Verif.Lemmas.WitnessFrost
import Verif.Props.Refreeze
import Verif.Props.ExamplesDeep

/-! # Examples for C74: a wet pack that freezes through, and a two-layer pack whose surface layer does -/

namespace Pysnobal

noncomputable section

theorem wetCfg_ok : wetCfg.AdmissibleStart := by
  refine ⟨⟨?_, ?_, ?_, ?_⟩, ?_, ?_, ?_⟩ <;>
    norm_num [wetCfg, calmCfg, defaultSteps, RHO_W0, RHO_ICE, FREEZE]

/-- C74: a shallow half-saturated pack that loses 333600 J/m² in an hour freezes through: its water is gone, and nothing ran off. -/
example : ∃ x m, RunTrace wetCfg [radRec (-333600 / 3600), radRec (-333600 / 3600)] [[x]] m ∧ wetCfg.Tiled ∧ wetCfg.AdmissibleStart ∧
    0 < x.pre.snow.h2o ∧ x.post.snow.cc_s_0 < 0 ∧ x.post.snow.h2o = 0 ∧ x.post.snow.swi = 0 := by
  obtain ⟨x, m, h, a1, a2, a3, a4, a5, a6, a7⟩ := frost_run
  have hc : x.post.snow.cc_s_0 < 0 := by rw [a7]; linarith
  obtain ⟨q1, q2⟩ := C74_cold_snow_is_dry wetCfg wetCfg_tiled wetCfg_ok _ (by
    intro r hr
    simp only [List.mem_cons, List.not_mem_nil, or_false] at hr
    rcases hr with rfl | rfl <;> exact radRec_admissible _) _ m h [x] (by simp) x (by simp) a1 (by rw [a3]; norm_num)
    (by
      have hp : x.precip = 0 := by unfold RStep.precip; rw [a2]; simp
      rw [a2, a4, a3, hp]
      norm_num [clipDepth, wetCfg, calmCfg, defaultSteps]) hc
  exact ⟨x, m, h, wetCfg_tiled, wetCfg_ok, a5, hc, q1, q2⟩

/-- C74: in the night of the C24 example the surface layer freezes its whole share, half the water, and the lower layer, which is not
cold, none. -/
example : ∃ x y m, RunTrace halfMetreCfg [radRec (333600 / 3600), radRec (-333600 / 3600), radRec (-333600 / 3600)] [[x], [y]] m ∧
    y.pre.snow.h2o = 1 ∧ ∃ z2 r0 rl a, FreezeBooks halfMetreCfg 3600 y z2 r0 rl true a ∧ z2 = 0.5 ∧ a = 0 ∧ r0 = 0.5 ∧ rl = 0 := by
  obtain ⟨x, y, m, h, hx, hy, a1, a2, a3, a4, a5, a6, a6', ⟨b1, b2, b3, b4, b5, b6, b7, b8, b9⟩, ⟨c1, c2, c3, c4, c5, c6, c7, c8, c9, c10⟩⟩ := deep_run
  obtain ⟨ts, hts, k⟩ := C74_refreezing_step halfMetreCfg halfMetreCfg_tiled halfMetreCfg_ok _ (by
    intro r hr
    simp only [List.mem_cons, List.not_mem_nil, or_false] at hr
    rcases hr with rfl | rfl | rfl <;> exact radRec_admissible _) _ m h
  have hdt : (ts y.lv).time_step = 3600 := by
    obtain ⟨_, _, en, _, _⟩ := parse_ok hts
    rw [hy, en]
    norm_num [halfMetreCfg, calmCfg, defaultSteps]
  obtain ⟨dt, e0, r0, rl, w, z1, z2, z3, z4, two, a, b, hw, hz, he, hf, hq⟩ := k [y] (by simp) y (by simp) c1
  rw [hdt] at e0
  subst e0
  have hm : 0 < y.pre.snow.m_s := by rw [a5, b9]; norm_num
  have hz1 : z1 = y.pre.snow.z_s := hz.compact.1 (by rw [a5, a4]; norm_num)
  have hzs : y.pre.snow.z_s = 0.5 := by
    have := a2.m
    rw [b9, a4] at this
    rw [a5]; linarith
  obtain ⟨q1, q2, q3⟩ := (hq c8 hm).2 (by rw [a5]; exact a2.lc) a3.lc (by rw [c5]; simp) (by rw [c5, c6]; simp) (by rw [hz1, a5, a2.m, a4])
  have hz2 : z2 = 0.5 := by
    rw [hz.precip, c8, hz1, hzs]; simp
  subst q1
  refine ⟨x, y, m, h, by rw [a5]; exact b3, z2, r0, rl, a, hf, hz2, by rw [q2, a5, a2.ccl], ?_⟩
  have hwi : waterIn halfMetreCfg y = 0 := by unfold waterIn; rw [c8]; simp
  have e1 := hf.surface
  have e2 := he.ledger
  have hr0 : r0 = 0.5 := by
    refine (frozen_share hw.surface e1 (by rw [c9]; norm_num)).trans ?_
    rw [hwi, c2, a5, b3, hz2, if_pos rfl]
    norm_num [halfMetreCfg, calmCfg, defaultSteps]
  refine ⟨hr0, ?_⟩
  have e3 := ((C25_energy_budget_step halfMetreCfg _ _ m h [y] (by simp) y (by simp)).1).pack
  rw [c7] at e3
  rw [q2, q3, c9, c10, c2, hr0, a5, a2.cc0, a2.ccl, lf_eq, if_pos rfl] at e2
  linarith

end

end Pysnobal
