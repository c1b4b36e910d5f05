import Verif.Lemmas.ModeLog
import Verif.Props.ExamplesInterpolate

/-! # C09 for histories: a run executes the same run steps in both output modes; C95 in normal mode -/

namespace Pysnobal

noncomputable section

theorem dataSteps_mode {c : Env} {ts : Tsteps} (ht : TileOK ts) {a b : Bool} {i1 : InputData} {rs : List Rec} {m m' : Model}
    {ls : List (List (RStep Phys))} (h : DataSteps c ts a i1 rs m ls m') : ∀ n : Model, n.phys = m.phys →
    n.current_datetime = m.current_datetime → AccReady n.acc →
    ∃ n', DataSteps c ts b i1 rs n ls n' ∧ n'.phys = m'.phys ∧ n'.current_datetime = m'.current_datetime := by
  induction h with
  | nil i1 m => exact fun n h1 h2 _ => ⟨n, .nil _ _, h1, h2⟩
  | @cons i1 i2 r rs m m1 m' l ls k1 k2 k3 k4 ih =>
    intro n h1 h2 h3
    obtain ⟨dl, mid, hdl, hrn, hl, ho⟩ := k3.parts
    have hne : l ≠ [] := by
      have := IsDataStep.ne_nil (by simp [ht.n_normal]) (by simpa using ht.m_pos) (by simpa using ht.s_pos) hl
      simpa using this
    obtain ⟨dl', d1, d2⟩ := k3
    have hst : ({ n with phys := { n.phys with input1 := i1 } } : Model).phys = { m.phys with input1 := i1 } := by
      show ({ n.phys with input1 := i1 } : Phys) = _
      rw [h1]
    obtain ⟨n1, e1, e2, e3, e4⟩ := d2.mode (b := b) (snobal_accSafe ht) hne hst h2 h3
    have e1' : (snobalSim c ts b dl').Executes { n with phys := { n.phys with input1 := i1 } } l n1 := e1
    obtain ⟨n', q1, q2, q3⟩ := ih n1 e2 e3 e4
    refine ⟨n', .cons k1 ?_ ⟨dl', d1, e1'⟩ q1, q2, q3⟩
    unfold do_data_tstep
    rw [d1, bind_ok]
    have := logged_data_tstep (snobalSim c ts b dl') (SimSt.log { n with phys := { n.phys with input1 := i1 } } [])
    rw [show (snobalSim c ts b dl').logged.data_tstep _ = _ from e1'] at this
    exact this.symm

/-- C09, histories: a run executes exactly the same run steps in both output modes, and ends in the same state at the same time. -/
theorem C09_same_history (g : Config) (hg : g.Tiled) (a b : Bool) (rows : List Rec) (ls : List (List (RStep Phys))) (m : Model)
    (h : RunTrace { g with output_all := a } rows ls m) :
    ∃ m', RunTrace { g with output_all := b } rows ls m' ∧ m'.phys = m.phys ∧ m'.current_datetime = m.current_datetime := by
  obtain ⟨c, ts, i1, m0, r, rs, rfl, e1, e2, e3, e4, e5⟩ := h
  obtain ⟨_, _, p0, _⟩ := mkModel_ok e4
  obtain ⟨m', k1, k2, k3⟩ := dataSteps_mode (b := b) (parse_tile hg e1) e5 m0 rfl rfl (.inl p0)
  exact ⟨m', ⟨c, ts, i1, m0, r, rs, rfl, e1, e2, e3, e4, k1⟩, k2, k3⟩

/-- C95 for the snow in both output modes. -/
theorem C95_both_modes (g : Config) (hg : g.Tiled) (k : ℕ)
    (hk : k * g.medium_time_step = g.norm_time_step) (rows : List Rec) (hr : ∀ r ∈ rows, 0 ≤ r.m_pp) (ls : List (List (RStep Phys))) (m : Model)
    (h : RunTrace g rows ls m) (hs : ∀ l ∈ ls, StartsThin g.norm_threshold l)
    (hc : ∀ l ∈ ls, ∀ x ∈ l, x.post.input1.e_a = x.pre.input1.e_a) :
    ∃ m', simulate g.byMedium (refine k rows) = .ok m' ∧ m'.phys.snow = m.phys.snow ∧ m'.current_datetime = m.current_datetime := by
  obtain ⟨m1, k1, k2, k3⟩ := C09_same_history g hg g.output_all true rows ls m h
  obtain ⟨m2, q1, q2, q3, _⟩ := C95_subdivision_interpolates { g with output_all := true } hg rfl k hk rows hr ls m1 k1 hs hc
  rw [k2] at q2
  rw [k3] at q3
  cases hm : g.output_all with
  | true =>
    refine ⟨m2, ?_, q2, q3⟩
    rw [← q1]
    congr 1
    unfold Config.byMedium
    rw [← hm]
  | false =>
    have := C09_modes_agree g.byMedium (byMedium_tiled hg) (refine k rows)
    rw [show ({ g.byMedium with output_all := true } : Config) = Config.byMedium { g with output_all := true } from rfl, q1] at this
    have hg' : ({ g.byMedium with output_all := false } : Config) = g.byMedium := by
      unfold Config.byMedium
      rw [← hm]
    rw [hg'] at this
    cases hs2 : simulate g.byMedium (refine k rows) with
    | error e => rw [hs2] at this; exact absurd this (by simp [RelE])
    | ok m3 =>
      rw [hs2] at this
      exact ⟨m3, rfl, by rw [← q2, this.1], by rw [← q3, this.2]⟩

/-- In normal mode the hours of varying humidity (`humid_hours`) are simulated in the same quarters, with one record for each hour, and
the snow is that of the table of quarters. -/
example (v : ℝ) (vs : List ℝ) (hv : ∀ x ∈ v :: vs, 0 < x ∧ x ≤ 610) : ∃ ls m,
    RunTrace quarterCfg ((v :: vs).map humidRec) ls m ∧ ls.length = vs.length ∧ (∀ l ∈ ls, l.length = 4) ∧
    m.output_list.length = vs.length ∧
    ∃ m', simulate { quarterCfg with norm_time_step := 15, norm_threshold := 10 } (refine 4 ((v :: vs).map humidRec)) = .ok m' ∧
      m'.phys.snow = m.phys.snow ∧ m'.current_datetime = m.current_datetime := by
  obtain ⟨ls, m, h, h1, h2, h3, h4⟩ := humid_hours v vs hv
  obtain ⟨m', k1, k2, k3⟩ := C09_same_history quarterCfg (calmCfg_tiled 200 0.01 (1 / 6) 600 1) true false _ ls m h
  refine ⟨ls, m', k1, h1, h2, ?_, C95_both_modes quarterCfg (calmCfg_tiled 200 0.01 (1 / 6) 600 1) 4
    (by norm_num [quarterCfg, calmCfg, defaultSteps]) _ (humid_rows v vs) ls m' k1 h3 h4⟩
  have := C07_normal_count quarterCfg rfl _ _ _ k1.simulate
  simpa using this

end

end Pysnobal
