import Verif.Props.Radiation
import Verif.Props.ExamplesDeep

/-! # Example for C75: half a metre of ripe snow on a dim and on a bright day -/

namespace Pysnobal

noncomputable section

/-- An hour in which net radiation melts `μ` kg/m². -/
theorem sunny_run {μ : ℝ} (hμ : 1e-8 < μ) (hμ1 : μ ≤ 1) : ∃ x m, RunTrace halfMetreCfg
    [radRec (333600 * μ / 3600), radRec (333600 * μ / 3600)] [[x]] m ∧ x.post.snow.melt = μ ∧ x.post.snow.snowcover = true ∧ x.pre.snow.NoThinLayer halfMetreCfg.norm_threshold ∧
      x.pre.snow.layer_count = 2 ∧ init_snow (calmEnv 0.01) (recordSnow halfMetreCfg) = .ok x.pre.snow ∧
      m.phys.snow = x.post.snow ∧ ∃ t, m.output_list = [recordOf x.post.snow t] := by
  obtain ⟨s0, hs0, f1, f2, f3, f4⟩ := init_deep
  have hthr : s0.NoThinLayer halfMetreCfg.norm_threshold := by
    have := f1.z
    rw [f3] at this
    have hz : s0.z_s_l = 0.25 := by linarith
    refine ⟨fun h => ?_, fun _ => ?_⟩
    · rw [f1.lc] at h; norm_num at h
    · rw [f1.m0, f1.ml, f1.z0, f2, hz]
      norm_num [halfMetreCfg, calmCfg]
  obtain ⟨p1, d1, d2, d3, d4, d5, d6, d7, _⟩ :=
    deep_melt hμ hμ1 (dl := (deltaRec (radRec (333600 * μ / 3600)).toInput (radRec (333600 * μ / 3600)).toInput 1).toInput)
      (p := ⟨s0, (radRec (333600 * μ / 3600)).toInput, none, none⟩) f1 f2 f3 f4 (.inl ⟨rfl, rfl⟩) rfl
  obtain ⟨ls, m, h1, h2⟩ := first_trace halfMetreCfg_tiled halfMetreCfg_env hs0 (radRec_new _) (radRec_new _) (rs := [])
    (below_of_noThin hthr) (p' := p1) (by
      have : ((halfMetreCfg.norm_time_step * 60 : ℤ) : ℝ) = 3600 := by norm_num [halfMetreCfg, calmCfg, defaultSteps]
      rw [this]; exact d1)
    (P := fun ls m => ls = [] ∧ m.phys.snow = p1.snow ∧ ∃ t, m.output_list = [recordOf p1.snow t])
    (fun ts m1 _ e1 _ e2 => ⟨[], m1, .nil _ _, rfl, by rw [e1], _, e2⟩)
  obtain ⟨rfl, h2, h3⟩ := h2
  exact ⟨_, m, h1, d7, d6, hthr, f1.lc, hs0, h2, h3⟩

/-- C75: the same hour with twice the radiation. -/
example : ∃ m m' out o o', simulate halfMetreCfg [radRec (333600 * 0.5 / 3600), radRec (333600 * 0.5 / 3600)] = .ok m ∧
    simulate halfMetreCfg [radRec (333600 * 1 / 3600), radRec (333600 * 1 / 3600)] = .ok m' ∧
    m.output_list = out ++ [o] ∧ m'.output_list = out ++ [o'] ∧ o.melt_sum < o'.melt_sum ∧ o'.delta_Q_0_bar = o.delta_Q_0_bar + 333600 * 0.5 / 3600 := by
  obtain ⟨x, m, h, h1, h2, h3, h4, h5, h6, t, h7⟩ := sunny_run (μ := 0.5) (by norm_num) (by norm_num)
  obtain ⟨x', m', h', h1', h2', h3', h4', h5', h6', t', h7'⟩ := sunny_run (μ := 1) (by norm_num) (by norm_num)
  obtain ⟨c, ts, ia, ib, m1, ls, l, q1, q2, q3, q4, q5, q6, q7, q8⟩ := simulate_last (L := []) h.simulate
  have hm1 : m1.phys.snow = x.pre.snow := by
    obtain ⟨_, _, c', m0, _, _, e3, e4, e5⟩ := simulate_ok (r := radRec (333600 * 0.5 / 3600)) (rs := []) q5
    simp only [runSteps, Except.ok.injEq] at e5
    rw [halfMetreCfg_env] at e3; cases e3
    have := (mkModel_ok e4).2.2.2.1
    rw [h5] at this
    rw [← e5]
    exact (Except.ok.inj this).symm
  obtain ⟨out, o, o', k1, k2, k3⟩ := C75_more_radiation_record halfMetreCfg halfMetreCfg_tiled halfMetreCfg_ok [] (radRec (333600 * 0.5 / 3600)) (radRec (333600 * 1 / 3600)) (radRec (333600 * 0.5 / 3600))
    (radRec (333600 * 1 / 3600)) (by
      intro r hr
      simp only [List.nil_append, List.mem_cons, List.not_mem_nil, or_false] at hr
      rcases hr with rfl | rfl <;> exact radRec_admissible _) (333600 * 0.5 / 3600) ⟨rfl, by
        show (333600 * 0.5 / 3600 : ℝ) = 0 - 0 + 0.98 * (STEF_BOLTZ * FREEZE ^ 4 + 333600 * 1 / 3600 / 0.98 - (STEF_BOLTZ * FREEZE ^ 4 + 333600 * 0.5 / 3600 / 0.98))
        ring⟩ (by norm_num) (.inl rfl) m1 q5 (by rw [hm1]; exact h3) m m' h.simulate h'.simulate
  refine ⟨m, m', out, o, o', h.simulate, h'.simulate, k1, k2, ?_, (k3.balance (by rw [hm1, h4]; norm_num)).2.1⟩
  have single : ∀ {z z' : OutRec}, [z'] = out ++ [z] → z = z' := by
    intro z z' e
    have := congrArg List.getLast? e
    simp at this
    exact this.symm
  rw [single (h7.symm.trans k1), single (h7'.symm.trans k2)]
  show x.post.snow.melt < x'.post.snow.melt
  rw [h1, h1']; norm_num

end

end Pysnobal
