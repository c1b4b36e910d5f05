import Verif.PySnobal
import Verif.Lemmas.Trace

/-! # Lemmas about `parse_time_steps` and about histories of data steps -/

namespace Pysnobal

noncomputable section

/-- A configuration whose medium step divides the normal one and whose small step divides the medium
one (all positive): the configurations for which subdivision is exact. -/
def Config.Tiled (g : Config) : Prop :=
  0 < g.norm_time_step ∧ 0 < g.medium_time_step ∧ 0 < g.small_time_step ∧
    g.medium_time_step ∣ g.norm_time_step ∧ g.small_time_step ∣ g.medium_time_step

/-- What exact subdivision means for the parsed table. -/
structure TileOK (ts : Tsteps) : Prop where
  n_normal : (ts .normal).intervals = 1
  ipt_normal : (ts .normal).intervals_per_timestep = 1
  m_pos : 0 < (ts .medium).intervals
  s_pos : 0 < (ts .small).intervals
  ipt_medium : (ts .medium).intervals_per_timestep = (ts .medium).intervals
  ipt_small : (ts .small).intervals_per_timestep = (ts .medium).intervals * (ts .small).intervals
  td_medium : (ts .small).intervals * (ts .small).timedelta = (ts .medium).timedelta
  td_normal : (ts .medium).intervals * (ts .medium).timedelta = (ts .normal).timedelta
  td_pos : ∀ lv, 0 < (ts lv).timedelta
  step_eq : ∀ lv, (ts lv).time_step = ((60 * (ts lv).timedelta : ℤ) : ℝ)

theorem TileOK.step_pos {ts : Tsteps} (h : TileOK ts) (lv : Level) : 0 < (ts lv).time_step := by
  rw [h.step_eq]
  have := h.td_pos lv
  exact_mod_cast (by omega : 0 < 60 * (ts lv).timedelta)

theorem TileOK.ipt_pos {ts : Tsteps} (h : TileOK ts) (lv : Level) :
    0 < (ts lv).intervals_per_timestep := by
  have hm := h.m_pos
  have hs := h.s_pos
  cases lv
  · rw [h.ipt_normal]; norm_num
  · rw [h.ipt_medium]; exact hm
  · rw [h.ipt_small]; positivity

theorem intDiv_ok {a b c : ℤ} : intDiv a b = .ok c ↔ b ≠ 0 ∧ c = a.tdiv b := by
  unfold intDiv
  split <;> simp_all [eq_comm]

theorem parse_ok {g : Config} {ts : Tsteps} (h : parse_time_steps g = .ok ts) :
    g.medium_time_step ≠ 0 ∧ g.small_time_step ≠ 0 ∧
    ts .normal =
      { threshold := g.norm_threshold
        time_step := ((g.norm_time_step * 60 : ℤ) : ℝ)
        timedelta := g.norm_time_step
        intervals := 1
        intervals_per_timestep := 1 } ∧
    ts .medium =
      { threshold := g.medium_threshold
        time_step := ((g.medium_time_step * 60 : ℤ) : ℝ)
        timedelta := g.medium_time_step
        intervals := g.norm_time_step.tdiv g.medium_time_step
        intervals_per_timestep := g.norm_time_step.tdiv g.medium_time_step } ∧
    ts .small =
      { threshold := g.small_threshold
        time_step := ((g.small_time_step * 60 : ℤ) : ℝ)
        timedelta := g.small_time_step
        intervals := g.medium_time_step.tdiv g.small_time_step
        intervals_per_timestep := g.norm_time_step.tdiv g.small_time_step } := by
  unfold parse_time_steps at h
  obtain ⟨a, ha, h⟩ := bind_eq_ok.mp h
  obtain ⟨b, hb, h⟩ := bind_eq_ok.mp h
  obtain ⟨d, hd, h⟩ := bind_eq_ok.mp h
  rw [intDiv_ok] at ha hb hd
  simp only [pure_ok, Except.ok.injEq] at h
  subst h
  refine ⟨ha.1, hb.1, rfl, ?_, ?_⟩
  · simp [ha.2, min2sec]
  · simp [hb.2, hd.2, min2sec]

theorem parse_of_ne {g : Config} (hm : g.medium_time_step ≠ 0) (hs : g.small_time_step ≠ 0) :
    ∃ ts, parse_time_steps g = .ok ts := by
  unfold parse_time_steps
  simp [intDiv, hm, hs]

theorem parse_tile {g : Config} {ts : Tsteps} (hg : g.Tiled) (h : parse_time_steps g = .ok ts) :
    TileOK ts := by
  obtain ⟨hn, hm, hs, ⟨a, ha⟩, ⟨b, hb⟩⟩ := hg
  obtain ⟨_, _, e1, e2, e3⟩ := parse_ok h
  have ha0 : 0 < a := by
    by_contra hc
    nlinarith
  have hb0 : 0 < b := by
    by_contra hc
    nlinarith
  have t1 : g.norm_time_step.tdiv g.medium_time_step = a := by
    rw [ha, Int.mul_tdiv_cancel_left _ hm.ne']
  have t2 : g.medium_time_step.tdiv g.small_time_step = b := by
    rw [hb, Int.mul_tdiv_cancel_left _ hs.ne']
  have t3 : g.norm_time_step.tdiv g.small_time_step = a * b := by
    rw [ha, hb, mul_assoc, Int.mul_tdiv_cancel_left _ hs.ne', mul_comm]
  constructor
  · simp [e1]
  · simp [e1]
  · simp [e2, t1, ha0]
  · simp [e3, t2, hb0]
  · simp [e2]
  · simp [e2, e3, t1, t2, t3]
  · simp only [e2, e3, t2]; rw [hb]; ring
  · simp only [e1, e2, t1]; rw [ha]; ring
  · intro lv; cases lv <;> simp [e1, e2, e3, hn, hm, hs]
  · intro lv; cases lv <;> simp [e1, e2, e3] <;> ring

theorem parse_threshold {g : Config} {ts : Tsteps} (h : parse_time_steps g = .ok ts) :
    (ts .normal).threshold = g.norm_threshold ∧ (ts .medium).threshold = g.medium_threshold ∧
    (ts .small).threshold = g.small_threshold := by
  obtain ⟨_, _, e1, e2, e3⟩ := parse_ok h
  simp [e1, e2, e3]

/-! ### Histories -/

theorem do_data_ok {c : Env} {ts : Tsteps} {all : Bool} {i1 i2 : InputData} {m m' : Model}
    (h : do_data_tstep c ts all i1 i2 m = .ok m') :
    ∃ dl, inputDeltas ts i1 i2 = .ok dl ∧
      (snobalSim c ts all dl).data_tstep { m with phys := { m.phys with input1 := i1 } } = .ok m' := by
  unfold do_data_tstep at h
  exact bind_eq_ok.mp h

theorem runSteps_cons {c : Env} {ts : Tsteps} {all : Bool} {i1 : InputData} {r : Rec} {rs : List Rec}
    {m m' : Model} (h : runSteps c ts all i1 (r :: rs) m = .ok m') :
    ∃ i2 m1, InputData.new r = .ok i2 ∧ do_data_tstep c ts all i1 i2 m = .ok m1 ∧
      runSteps c ts all i2 rs m1 = .ok m' := by
  unfold runSteps at h
  obtain ⟨i2, h1, h⟩ := bind_eq_ok.mp h
  obtain ⟨m1, h2, h⟩ := bind_eq_ok.mp h
  exact ⟨i2, m1, h1, h2, h⟩

theorem simulate_ok {g : Config} {r : Rec} {rs : List Rec} {m : Model}
    (h : simulate g (r :: rs) = .ok m) :
    ∃ ts i1 c m0, parse_time_steps g = .ok ts ∧ InputData.new r = .ok i1 ∧ mkEnv g = .ok c ∧
      mkModel g c i1 = .ok m0 ∧ runSteps c ts g.output_all i1 rs m0 = .ok m := by
  unfold simulate at h
  obtain ⟨ts, h1, h⟩ := bind_eq_ok.mp h
  obtain ⟨i1, h2, h⟩ := bind_eq_ok.mp h
  obtain ⟨c, h3, h⟩ := bind_eq_ok.mp h
  obtain ⟨m0, h4, h⟩ := bind_eq_ok.mp h
  exact ⟨ts, i1, c, m0, h1, h2, h3, h4, h⟩

theorem mkModel_ok {g : Config} {c : Env} {i : InputData} {m : Model} (h : mkModel g c i = .ok m) :
    m.current_datetime = g.start_date ∧ m.output_list = [] ∧ m.acc.time_since_out = 0 ∧
      init_snow c (recordSnow g) = .ok m.phys.snow ∧ m.phys.init_ustar = none ∧
      m.phys.init_factor = none ∧ m.acc.acc.swi_sum = none := by
  unfold mkModel at h
  obtain ⟨s, h1, h⟩ := bind_eq_ok.mp h
  simp only [pure_ok, Except.ok.injEq] at h
  subst h
  exact ⟨rfl, rfl, rfl, h1, rfl, rfl, rfl⟩

/-- Invariant rule over a whole history: `J n m` holds after `n` data steps. -/
theorem runSteps_inv {c : Env} {ts : Tsteps} {all : Bool} (J : ℕ → Model → Prop)
    (hs : ∀ n m i1 i2 m', J n m → do_data_tstep c ts all i1 i2 m = .ok m' → J (n + 1) m') :
    ∀ (rs : List Rec) (i1 : InputData) (n : ℕ) (m m' : Model), J n m →
      runSteps c ts all i1 rs m = .ok m' → J (n + rs.length) m' := by
  intro rs
  induction rs with
  | nil =>
    intro i1 n m m' hj h
    simp [runSteps] at h
    simpa [← h] using hj
  | cons r rs ih =>
    intro i1 n m m' hj h
    obtain ⟨i2, m1, _, h2, h3⟩ := runSteps_cons h
    have := ih i2 (n + 1) m1 m' (hs _ _ _ _ _ hj h2) h3
    simpa [Nat.add_assoc, Nat.add_comm, Nat.add_left_comm] using this

end

end Pysnobal
