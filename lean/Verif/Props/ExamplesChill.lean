import Verif.Lemmas.WitnessChill
import Verif.Props.ExamplesWind

/-! # Example: the run step in strong wind and colder air -/

namespace Pysnobal

noncomputable section

open Classical

set_option maxHeartbeats 1000000 in
/-- C67: the run of the cold two-layer pack in strong wind and colder air meets the conditions of
`C67_exchange_step`; the air cools the snow. -/
example : ∃ x m, RunTrace windCfg [chillRec, chillRec] [[x]] m ∧ x.pre.snow.layer_count = 2 ∧
    x.post.input1.u = 3 ∧ x.post.snow.en.H < 0 ∧ ∃ u, x.post.init_ustar = some u ∧ 0 < u := by
  obtain ⟨x, m, h, _, hw, hs, hi, h1, h2⟩ := chill_run
  have hin : x.post.input1 = chillRec.toInput := by
    have hw' : WindPack (stepStart (deltaRec chillRec.toInput chillRec.toInput 1).toInput x.pre).snow :=
      ⟨hw.z_s, hw.rho, hw.m_s, hw.t_s, hw.t_s_0, hw.t_s_l, hw.lc, hw.z_s_0, hw.z_s_l, hw.cc_s_0, hw.cc_s_l, hw.h2o,
        start_inv (by norm_num [calmEnv]) hw.inv⟩
    have hap : (stepStart (deltaRec chillRec.toInput chillRec.toInput 1).toInput x.pre).input1 = chillRec.toInput := by
      show applied _ _ = _
      unfold applied; rw [hi, if_neg (by rw [chill_now]; simp)]
    obtain ⟨r, _, _, _, _, _, _, _, _, _, _, k8⟩ := chill_energy hw' hap h1 h2
    obtain ⟨q', hq', _, e⟩ := stepPhys_ok hs
    have : energy_balance (calmEnv 0.01) 3600 (stepStart (deltaRec chillRec.toInput chillRec.toInput 1).toInput x.pre)
        = .ok q' := hq'
    rw [k8] at this
    cases this
    rw [e]
    exact hap
  have hu : x.post.input1.u = 3 := by rw [hin]; rfl
  have hta : x.post.input1.t_a = FREEZE - 12 := by rw [hin]; rfl
  have hea : x.post.input1.e_a = 20 := by rw [hin]; rfl
  have eP : (calmEnv 0.01).P_a = SEA_LEVEL := rfl
  have ez : windCfg.z_t = 5 ∧ windCfg.z_u = 5 ∧ windCfg.init_z_0 = 0.005 := by
    refine ⟨?_, ?_, ?_⟩ <;> norm_num [windCfg, calmCfg, defaultSteps]
  obtain ⟨w, es, θ, B, a1, a2, a3, a4, a5, a6, a7, a8⟩ := chill_air
  obtain ⟨κ, u, u1, u2, _, _, k1, _, _, k2, _⟩ := C67_exchange_step windCfg _ _ m h _ wind_env [x] (by simp) x
    (by simp) (by rw [hw.lc]; norm_num) 4 4 θ B 4 _ _ w es _ _ _
    (by rw [hw.z_s, ez.2.1]; norm_num) (by rw [hw.z_s, ez.1]; norm_num) (by rw [hta]; exact a1)
    (by rw [hw.t_s_0]; exact a2) (by rw [hta]; exact a3) rfl rfl rfl
    (by rw [hw.t_s_0, hea, eP]; exact a5) rfl rfl (by rw [hu]; norm_num) (by rw [ez.2.2]; norm_num)
    (by rw [ez.2.2]; norm_num) a6 (by norm_num) (by rw [hu, ez.2.2]; exact a8)
    (by rw [ez.2.2]; norm_num) (by rw [ez.2.2]; norm_num) (.inl ⟨h1, h2⟩)
  refine ⟨x, m, h, hw.lc, hu, ?_, u, u1, ?_⟩
  · rw [k2, hw.t_s_0]
    have := mul_pos k1 cpair_pos
    nlinarith
  · refine lt_of_lt_of_le ?_ u2
    rw [hu, ez.2.2]
    exact div_pos (by norm_num) (Real.log_pos (by norm_num))

end

end Pysnobal
