import Verif.Lemmas.RunTrace

/-! # Forward computation of a data step that needs no subdivision -/

namespace Pysnobal

noncomputable section

/-- Deltas between accepted records always exist. -/
theorem inputDeltas_total {ts : Tsteps} (ht : TileOK ts) {r1 : Rec} {i1 : InputData}
    (n1 : InputData.new r1 = .ok i1) (i2 : InputData) :
    inputDeltas ts i1 i2 =
      .ok fun lv => (deltaRec i1 i2 ((ts lv).intervals_per_timestep : ℝ)).toInput := by
  refine inputDeltas_of fun lv => ?_
  obtain ⟨rfl, hr⟩ := new_ok n1
  have hn : (0 : ℝ) < ((ts lv).intervals_per_timestep : ℝ) := by exact_mod_cast ht.ipt_pos lv
  rw [deltaFor_eq, if_neg hn.ne', new_eq, if_neg]
  rintro ⟨h1, h2, h3⟩
  have h1' : 0 < r1.m_pp := by
    have : 0 < r1.m_pp / ((ts lv).intervals_per_timestep : ℝ) := h1
    exact (div_pos_iff_of_pos_right hn).mp this
  have h2' : 0 < r1.m_pp * r1.percent_snow := by
    have : 0 < r1.m_pp / ((ts lv).intervals_per_timestep : ℝ) * r1.percent_snow := h2
    rw [div_mul_eq_mul_div] at this
    exact (div_pos_iff_of_pos_right hn).mp this
  exact absurd h3 (not_le.mpr (hr h1' h2'))

/-- The record emitted after a single run step. -/
def recordOf (s : Snow) (t : ℤ) : OutRec :=
  { rho := s.rho, t_s_0 := s.t_s_0, t_s_l := s.t_s_l, t_s := s.t_s, cc_s_0 := s.cc_s_0,
    cc_s_l := s.cc_s_l, cc_s := s.cc_s, m_s := s.m_s, m_s_0 := s.m_s_0, m_s_l := s.m_s_l,
    z_s := s.z_s, z_s_0 := s.z_s_0, z_s_l := s.z_s_l, h2o_sat := s.h2o_sat,
    layer_count := s.layer_count, h2o := s.h2o, h2o_max := s.h2o_max, h2o_vol := s.h2o_vol,
    h2o_total := s.h2o_total, R_n_bar := s.en.R_n, H_bar := s.en.H, L_v_E_bar := s.en.L_v_E,
    G_bar := s.en.G, G_0_bar := s.en.G_0, M_bar := s.en.M, delta_Q_bar := s.en.delta_Q,
    delta_Q_0_bar := s.en.delta_Q_0, E_s_sum := s.E_s, melt_sum := s.melt,
    swi_sum := s.swi, date_time := t }

/-- A data step from a state that is not below the normal threshold: one normal run step, one record,
in either output mode. -/
theorem do_data_normal {c : Env} {ts : Tsteps} (ht : TileOK ts) {all : Bool} {r1 : Rec}
    {i1 i2 : InputData} (n1 : InputData.new r1 = .ok i1) {m : Model} (h0 : m.acc.time_since_out = 0)
    (hb : below_thold (ts .normal).threshold m.phys.snow = false) {p' : Phys}
    (hp : stepPhys c (ts .normal).time_step (deltaRec i1 i2 1).toInput { m.phys with input1 := i1 } = .ok p') :
    do_data_tstep c ts all i1 i2 m = .ok
      { phys := { p' with input1 := p'.input1.add_deltas (deltaRec i1 i2 1).toInput }
        acc := { acc := Acc.value_to_bar p'.snow m.acc.acc, time_since_out := 0 }
        current_datetime := m.current_datetime + (ts .normal).timedelta
        output_list := m.output_list ++
          [recordOf p'.snow (m.current_datetime + (ts .normal).timedelta)] } := by
  unfold do_data_tstep
  rw [inputDeltas_total ht n1 i2, bind_ok, data_tstep_eq]
  unfold Sim.normalBlock
  have hn : ((ts .normal).intervals).toNat = 1 := by rw [ht.n_normal]; rfl
  have hd : (((ts .normal).intervals_per_timestep : ℤ) : ℝ) = 1 := by rw [ht.ipt_normal]; norm_num
  cases all <;>
    simp [snobalSim, hn, iterM, hb, Sim.do_tstep, hd, hp, accumulate, h0, Sim.output, snapshot,
      Acc.value_to_bar, recordOf]

end

end Pysnobal
