import Verif.Lemmas.Run

/-! # C06–C08, C11, C12, C42: clock, records, subdivision -/

namespace Pysnobal

noncomputable section

/-! ## C42 -/

/-- C42: with dividing positive time steps the parsed levels tile the normal step exactly: interval
counts are positive, `intervals` small steps make a medium step, `intervals` medium steps make a normal
step, and `intervals_per_timestep` steps of any level make the normal step. -/
theorem C42_levels_tile (g : Config) (hg : g.Tiled) :
    ∃ ts, parse_time_steps g = .ok ts ∧
      (ts .normal).intervals = 1 ∧ 0 < (ts .medium).intervals ∧ 0 < (ts .small).intervals ∧
      (ts .small).intervals * g.small_time_step = g.medium_time_step ∧
      (ts .medium).intervals * g.medium_time_step = g.norm_time_step ∧
      (∀ lv, (ts lv).intervals_per_timestep * (ts lv).timedelta = g.norm_time_step) ∧
      (∀ lv, (ts lv).time_step = 60 * ((ts lv).timedelta : ℝ)) ∧
      (ts .normal).timedelta = g.norm_time_step ∧ (ts .medium).timedelta = g.medium_time_step ∧
      (ts .small).timedelta = g.small_time_step := by
  obtain ⟨ts, h⟩ := parse_of_ne hg.2.1.ne' hg.2.2.1.ne'
  have ht := parse_tile hg h
  obtain ⟨_, _, e1, e2, e3⟩ := parse_ok h
  have f1 : (ts .normal).timedelta = g.norm_time_step := by rw [e1]
  have f2 : (ts .medium).timedelta = g.medium_time_step := by rw [e2]
  have f3 : (ts .small).timedelta = g.small_time_step := by rw [e3]
  have k1 := ht.td_medium
  have k2 := ht.td_normal
  rw [f2, f3] at k1
  rw [f1, f2] at k2
  refine ⟨ts, h, ht.n_normal, ht.m_pos, ht.s_pos, k1, k2, ?_, ?_, f1, f2, f3⟩
  · intro lv
    cases lv
    · rw [ht.ipt_normal, f1]; ring
    · rw [ht.ipt_medium, f2, k2]
    · rw [ht.ipt_small, f3, mul_assoc, k1, k2]
  · intro lv
    rw [ht.step_eq]; push_cast; ring

/-- C42: a zero medium or small step is rejected by the parser, and a medium step longer than the normal
step is rejected at the first data step, whatever the data. -/
theorem C42_bad_levels_rejected (g : Config) :
    (g.medium_time_step = 0 ∨ g.small_time_step = 0 →
      parse_time_steps g = .error .zeroDivision) ∧
    (0 ≤ g.norm_time_step → g.norm_time_step < g.medium_time_step → ∀ ts c all r1 i1 i2 m,
      parse_time_steps g = .ok ts → InputData.new r1 = .ok i1 →
      do_data_tstep c ts all i1 i2 m = .error .zeroDivision) := by
  constructor
  · unfold parse_time_steps
    by_cases h1 : g.medium_time_step = 0
    · simp [intDiv, h1]
    · rintro (h | h)
      · exact absurd h h1
      · simp [intDiv, h, h1]
  · intro h0 h1 ts c all r1 i1 i2 m hp hi
    obtain ⟨_, _, e1, e2, e3⟩ := parse_ok hp
    have hz : (ts .medium).intervals_per_timestep = 0 := by
      rw [e2]
      exact Int.tdiv_eq_zero_of_lt h0 h1
    have hd : deltaFor i1 i2 (ts .medium) = .error .zeroDivision := by
      rw [deltaFor_eq, hz]; simp
    obtain ⟨rfl, hr⟩ := new_ok hi
    unfold do_data_tstep inputDeltas
    rw [hd]
    rw [deltaFor_eq, new_eq]
    simp only [e1]
    rw [if_neg (by norm_num), if_neg]
    · simp
    · simp only [deltaRec, Rec.toInput, Int.cast_one, div_one]
      rintro ⟨a1, a2, a3⟩
      exact absurd (hr a1 a2) (not_lt.mpr a3)

/-- non-vacuity: the default configuration 60/15/1 minutes is tiled, 60/90/1 is rejected -/
def defaultSteps : Config :=
  { elevation := 0, start_date := 0, end_date := 120, z_u := 5, z_t := 5, z_g := 0.5,
    relative_heights := false, norm_time_step := 60, medium_time_step := 15, small_time_step := 1,
    norm_threshold := 60, medium_threshold := 10, small_threshold := 1, max_h2o := 0.01,
    max_active := 0.25, output_all := false, init_z_s := 0, init_rho := 0, init_t_s_0 := 0,
    init_t_s := 0, init_t_s_l := none, init_h2o_sat := 0, init_z_0 := 0.005 }

theorem defaultSteps_tiled : defaultSteps.Tiled := by
  refine ⟨by decide, by decide, by decide, ⟨4, by decide⟩, ⟨15, by decide⟩⟩

example : ∃ ts, parse_time_steps { defaultSteps with medium_time_step := 90 } = .ok ts :=
  parse_of_ne (by decide) (by decide)

/-! ## C06 -/

theorem executed_clock {c : Env} {ts : Tsteps} (ht : TileOK ts) {all : Bool} {i1 i2 : InputData}
    {m m' : Model} {l : List (RStep Phys)} (h : Executed c ts all i1 i2 m l m') :
    m'.current_datetime = m.current_datetime + (ts .normal).timedelta := by
  obtain ⟨dl, mid, hdl, hr, hl, ho⟩ := h.parts
  rw [(Executed.mid_phys ho).2, hr.clock]
  have h1 := ht.m_pos
  have h2 := ht.s_pos
  have := IsDataStep.sum (fun lv => (ts lv).timedelta) ?_ ?_ hl
  · simp only [List.map_map, Function.comp_def] at this
    show m.current_datetime + _ = _
    rw [show (l.map fun x => (snobalSim c ts all dl).timedelta x.lv) =
      l.map fun x => (ts x.lv).timedelta from rfl, this]
    simp [ht.n_normal]
  · simp only [nsmul_eq_mul]
    rw [← ht.td_medium]
    congr 1
    exact_mod_cast Int.toNat_of_nonneg h2.le
  · simp only [nsmul_eq_mul]
    rw [← ht.td_normal]
    congr 1
    exact_mod_cast Int.toNat_of_nonneg h1.le

theorem runSteps_clock {c : Env} {ts : Tsteps} (ht : TileOK ts) {all : Bool} :
    ∀ (rs : List Rec) (i1 : InputData) (m m' : Model), runSteps c ts all i1 rs m = .ok m' →
      m'.current_datetime = m.current_datetime + rs.length * (ts .normal).timedelta := by
  intro rs i1 m m' h
  have := runSteps_inv (c := c) (ts := ts) (all := all)
    (fun n x => x.current_datetime = m.current_datetime + n * (ts .normal).timedelta)
    (fun n x j1 j2 x' hx hs => by
      obtain ⟨l, hl⟩ := do_data_executed hs
      rw [executed_clock ht hl, hx]; push_cast; ring) rs i1 0 m m' (by simp) h
  simpa using this

/-- C06: after a run over `n + 1` records the clock stands at `start_date + n * norm_time_step`,
whatever the physics did and however the steps were subdivided. -/
theorem C06_clock (g : Config) (hg : g.Tiled) (r : Rec) (rs : List Rec) (m : Model)
    (h : simulate g (r :: rs) = .ok m) :
    m.current_datetime = g.start_date + rs.length * g.norm_time_step := by
  obtain ⟨ts, i1, c, m0, e1, e2, e3, e4, e5⟩ := simulate_ok h
  rw [runSteps_clock (parse_tile hg e1) rs i1 m0 m e5, (mkModel_ok e4).1]
  obtain ⟨_, _, f1, _, _⟩ := parse_ok e1
  rw [f1]

/-- C06: the same for each single data step, from any state. -/
theorem C06_clock_data_step (g : Config) (hg : g.Tiled) (ts : Tsteps)
    (hts : parse_time_steps g = .ok ts) (c : Env) (all : Bool) (i1 i2 : InputData) (m m' : Model)
    (h : do_data_tstep c ts all i1 i2 m = .ok m') :
    m'.current_datetime = m.current_datetime + g.norm_time_step := by
  obtain ⟨l, hl⟩ := do_data_executed h
  rw [executed_clock (parse_tile hg hts) hl]
  obtain ⟨_, _, f1, _, _⟩ := parse_ok hts
  rw [f1]

/-- Blocks of bounded weight. -/
theorem Blocks.sum_le {P : List Level → Prop} {k : ℕ} {l : List Level} (w : Level → ℤ) (x : ℤ)
    (hP : ∀ b, P b → (b.map w).sum ≤ x) (h : Blocks P k l) : (l.map w).sum ≤ k * x := by
  obtain ⟨bs, h1, h2, rfl⟩ := h
  subst h1
  induction bs with
  | nil => simp
  | cons b bs ih =>
    simp only [List.flatten_cons, List.map_append, List.sum_append, List.length_cons]
    have := hP b (h2 b (by simp))
    have := ih (fun c hc => h2 c (by simp [hc]))
    push_cast
    linarith

/-- C06: for any positive time steps, dividing or not, the clock never runs ahead of the data. -/
theorem C06_clock_never_ahead (g : Config) (h1 : 0 < g.norm_time_step) (h2 : 0 < g.medium_time_step)
    (h3 : 0 < g.small_time_step) (ts : Tsteps)
    (hts : parse_time_steps g = .ok ts) (c : Env) (all : Bool) (i1 i2 : InputData) (m m' : Model)
    (h : do_data_tstep c ts all i1 i2 m = .ok m') :
    m'.current_datetime ≤ m.current_datetime + g.norm_time_step := by
  obtain ⟨l, hexl⟩ := do_data_executed h
  obtain ⟨dl, mid, hdl, hr, hl, ho⟩ := hexl.parts
  rw [(Executed.mid_phys ho).2, hr.clock]
  obtain ⟨_, _, e1, e2, e3⟩ := parse_ok hts
  have q1 : (ts .medium).intervals * g.medium_time_step ≤ g.norm_time_step ∧
      0 ≤ (ts .medium).intervals := by
    rw [e2]
    exact ⟨by rw [mul_comm]; exact Int.mul_tdiv_self_le h1.le, Int.tdiv_nonneg h1.le h2.le⟩
  have q2 : (ts .small).intervals * g.small_time_step ≤ g.medium_time_step ∧
      0 ≤ (ts .small).intervals := by
    rw [e3]
    exact ⟨by rw [mul_comm]; exact Int.mul_tdiv_self_le h2.le, Int.tdiv_nonneg h2.le h3.le⟩
  have t1 : (((ts .medium).intervals.toNat : ℕ) : ℤ) = (ts .medium).intervals :=
    Int.toNat_of_nonneg q1.2
  have t2 : (((ts .small).intervals.toNat : ℕ) : ℤ) = (ts .small).intervals :=
    Int.toNat_of_nonneg q2.2
  have := Blocks.sum_le (fun lv => (ts lv).timedelta) g.norm_time_step ?_ hl
  · simp only [List.map_map, Function.comp_def] at this
    show m.current_datetime + _ ≤ _
    rw [show (l.map fun x => (snobalSim c ts all dl).timedelta x.lv) =
      l.map fun x => (ts x.lv).timedelta from rfl]
    have hn : (ts .normal).intervals.toNat = 1 := by rw [e1]; rfl
    rw [hn] at this
    simp at this
    linarith
  · rintro b (rfl | hb)
    · simp [e1]
    · refine (Blocks.sum_le _ g.medium_time_step ?_ hb).trans ?_
      · rintro b (rfl | rfl)
        · simp [e2]
        · simp only [List.map_replicate, List.sum_replicate, nsmul_eq_mul]
          rw [t2, e3]
          rw [e3] at q2
          exact q2.1
      · rw [t1]; exact q1.1

theorem tdiv_pos' {a b : ℤ} (h : 0 < b) (h' : b ≤ a) : 0 < a.tdiv b := by
  rw [Int.tdiv_eq_ediv_of_nonneg (by omega)]
  have := Int.ediv_le_ediv h h'
  rw [Int.ediv_self h.ne'] at this
  omega

/-- C06: it can fall behind.  With a small step longer than the medium one, a snow pack lighter than the
normal and medium thresholds is never advanced: the data step completes, nothing is computed, the clock
stands still and no record is emitted (mode `all`). -/
theorem C06_clock_can_stall (g : Config) (h1 : 0 < g.norm_time_step) (h2 : 0 < g.medium_time_step)
    (h3 : g.medium_time_step < g.small_time_step) (h4 : g.small_time_step ≤ g.norm_time_step)
    (ts : Tsteps) (hts : parse_time_steps g = .ok ts) (c : Env) (i1 i2 : InputData)
    (hi : ¬ (0 < i1.m_pp ∧ 0 < i1.m_pp * i1.percent_snow ∧ i1.rho_snow ≤ 0)) (m : Model)
    (hl : m.phys.snow.layer_count = 1)
    (hm : m.phys.snow.m_s < g.norm_threshold ∧ m.phys.snow.m_s < g.medium_threshold) :
    ∃ m', do_data_tstep c ts true i1 i2 m = .ok m' ∧ m'.current_datetime = m.current_datetime ∧
      m'.phys.snow = m.phys.snow ∧ m'.output_list = m.output_list := by
  obtain ⟨_, _, e1, e2, e3⟩ := parse_ok hts
  have hn : ∀ lv, 0 < (ts lv).intervals_per_timestep := by
    intro lv
    cases lv
    · rw [e1]; norm_num
    · rw [e2]; exact tdiv_pos' h2 (by omega)
    · rw [e3]; exact tdiv_pos' (by omega) h4
  have hs0 : (ts .small).intervals = 0 := by
    rw [e3]; exact Int.tdiv_eq_zero_of_lt h2.le h3
  have hd : ∀ lv, ∃ d, deltaFor i1 i2 (ts lv) = .ok d := by
    intro lv
    have hr : (0 : ℝ) < ((ts lv).intervals_per_timestep : ℝ) := by exact_mod_cast hn lv
    rw [deltaFor_eq, if_neg hr.ne', new_eq, if_neg]
    · exact ⟨_, rfl⟩
    · rintro ⟨a1, a2, a3⟩
      refine hi ⟨?_, ?_, a3⟩
      · exact (div_pos_iff_of_pos_right hr).mp a1
      · simp only [deltaRec, div_mul_eq_mul_div] at a2
        exact (div_pos_iff_of_pos_right hr).mp a2
  choose dl hdl using hd
  have hd' := inputDeltas_of hdl
  unfold do_data_tstep
  rw [hd', bind_ok, data_tstep_eq]
  have hb : ∀ (p : Phys) lv, p.snow = m.phys.snow → lv ≠ .small →
      (snobalSim c ts true dl).below lv p = true := by
    intro p lv hp hlv
    show below_thold (ts lv).threshold p.snow = true
    unfold below_thold
    rw [hp, hl]
    cases lv
    · simp [e1, hm.1]
    · simp [e2, hm.2]
    · exact absurd rfl hlv
  have hsb : ∀ st : Model, (snobalSim c ts true dl).smallBlock st =
      .ok { st with phys := (snobalSim c ts true dl).enter .small st.phys } := by
    intro st
    unfold Sim.smallBlock
    simp only [show (snobalSim c ts true dl).intervals .small = 0 from hs0]
    rfl
  have hes : ∀ p : Phys, ((snobalSim c ts true dl).enter .small p).snow = p.snow := by
    intro p
    show (if p.input1.precip_now then _ else _ : Phys).snow = _
    split <;> rfl
  let Q : Model → Prop := fun st => st.phys.snow = m.phys.snow ∧
    st.current_datetime = m.current_datetime ∧ st.output_list = m.output_list
  have hiter : ∀ (f : Model → Except Err Model), (∀ st, Q st → ∃ st', f st = .ok st' ∧ Q st') →
      ∀ n st, Q st → ∃ st', iterM f n st = .ok st' ∧ Q st' := by
    intro f hf n
    induction n with
    | zero => exact fun st hst => ⟨st, rfl, hst⟩
    | succ n ih =>
      intro st hst
      obtain ⟨s1, h1, q1⟩ := hf st hst
      obtain ⟨s2, h2, q2⟩ := ih s1 q1
      exact ⟨s2, by simp [iterM, h1, h2], q2⟩
  have hmb : ∀ st, Q st → ∃ st', (snobalSim c ts true dl).mediumBlock st = .ok st' ∧ Q st' := by
    unfold Sim.mediumBlock
    refine hiter _ ?_ _
    intro st hst
    rw [hb st.phys .medium hst.1 (by simp)]
    simp only [if_true, hsb]
    exact ⟨_, rfl, by rw [← hst.1]; exact hes _, hst.2.1, hst.2.2⟩
  have hnb : ∀ st, Q st → ∃ st', (snobalSim c ts true dl).normalBlock st = .ok st' ∧ Q st' := by
    unfold Sim.normalBlock
    refine hiter _ ?_ _
    intro st hst
    rw [hb st.phys .normal hst.1 (by simp)]
    simp only [if_true]
    exact hmb st hst
  obtain ⟨st', h5, h6⟩ := hnb { m with phys := { m.phys with input1 := i1 } } ⟨rfl, rfl, rfl⟩
  rw [h5]
  exact ⟨st', by simp [snobalSim], h6.2.1, h6.1, h6.2.2⟩

/-- non-vacuity: 60/15/20 minutes -/
example : ∃ ts, parse_time_steps { defaultSteps with small_time_step := 20 } = .ok ts :=
  parse_of_ne (by decide) (by decide)

/-! ## C07 -/

theorem snapshot_time {s : Snow} {a : Acc} {t : ℤ} {r : OutRec} (h : snapshot s a t = .ok r) :
    r.date_time = t := by
  unfold snapshot at h
  split at h
  · cases h
  · simp only [Except.ok.injEq] at h
    rw [← h]

theorem executed_normal_output {c : Env} {ts : Tsteps} {i1 i2 : InputData} {m m' : Model}
    {l : List (RStep Phys)} (h : Executed c ts false i1 i2 m l m') :
    ∃ r, m'.output_list = m.output_list ++ [r] ∧ r.date_time = m'.current_datetime := by
  obtain ⟨dl, mid, hdl, hr, hl, ho⟩ := h.parts
  rcases ho with ⟨h, _⟩ | ⟨_, ho⟩
  · cases h
  obtain ⟨r, hr', e⟩ := output_ok ho
  subst e
  refine ⟨r, ?_, snapshot_time hr'⟩
  have := hr.output_nil (by rfl)
  simp only [this]

/-- C07: in normal mode a run over `n + 1` records emits exactly `n` records, and the `k`-th is stamped
`start_date + k * norm_time_step`. -/
theorem C07_normal_records (g : Config) (hg : g.Tiled) (hm : g.output_all = false) (r : Rec)
    (rs : List Rec) (m : Model) (h : simulate g (r :: rs) = .ok m) :
    m.output_list.map (·.date_time) =
      (List.range rs.length).map fun (k : ℕ) => g.start_date + ((k : ℤ) + 1) * g.norm_time_step := by
  obtain ⟨ts, i1, c, m0, e1, e2, e3, e4, e5⟩ := simulate_ok h
  have ht := parse_tile hg e1
  obtain ⟨_, _, f1, _, _⟩ := parse_ok e1
  have ftd : (ts .normal).timedelta = g.norm_time_step := by rw [f1]
  rw [hm] at e5
  have := runSteps_inv (c := c) (ts := ts) (all := false)
    (fun n x => x.current_datetime = g.start_date + n * g.norm_time_step ∧
      x.output_list.map (·.date_time) =
        (List.range n).map fun (k : ℕ) => g.start_date + ((k : ℤ) + 1) * g.norm_time_step)
    (fun n x j1 j2 x' hx hs => by
      obtain ⟨l, hl⟩ := do_data_executed hs
      have hc := executed_clock ht hl
      obtain ⟨rec, ho, hrec⟩ := executed_normal_output hl
      rw [hx.1, ftd] at hc
      refine ⟨by rw [hc]; push_cast; ring, ?_⟩
      rw [ho, List.map_append, hx.2, List.range_succ, List.map_append]
      simp only [List.map_cons, List.map_nil]
      rw [hrec, hc]
      congr 2
      push_cast; ring) rs i1 0 m0 m
    ⟨by rw [(mkModel_ok e4).1]; simp, by rw [(mkModel_ok e4).2.1]; simp⟩ e5
  simpa using this.2

/-- C07: the number of records does not even need dividing time steps. -/
theorem C07_normal_count (g : Config) (hm : g.output_all = false) (r : Rec)
    (rs : List Rec) (m : Model) (h : simulate g (r :: rs) = .ok m) :
    m.output_list.length = rs.length := by
  obtain ⟨ts, i1, c, m0, e1, e2, e3, e4, e5⟩ := simulate_ok h
  rw [hm] at e5
  have := runSteps_inv (c := c) (ts := ts) (all := false) (fun n x => x.output_list.length = n)
    (fun n x j1 j2 x' hx hs => by
      obtain ⟨l, hl⟩ := do_data_executed hs
      obtain ⟨rec, ho, hrec⟩ := executed_normal_output hl
      rw [ho]; simp [hx]) rs i1 0 m0 m
    (by rw [(mkModel_ok e4).2.1]; simp) e5
  simpa using this

/-! ## C08 -/

/-- Running totals: `stamps t [d1, d2, …] = [t + d1, t + d1 + d2, …]`. -/
def stamps (t : ℤ) : List ℤ → List ℤ
  | [] => []
  | d :: ds => (t + d) :: stamps (t + d) ds

theorem runs_all_output {c : Env} {ts : Tsteps} {dl : Level → InputData} {m m' : Model}
    {l : List (RStep Phys)} (h : (snobalSim c ts true dl).Runs m l m') :
    m'.output_list.map (·.date_time) = m.output_list.map (·.date_time) ++
      stamps m.current_datetime (l.map fun x => (ts x.lv).timedelta) := by
  induction h with
  | nil => simp [stamps]
  | enter _ ih => simpa using ih
  | @step st st1 st2 l lv p hb hp hd1 h ih =>
    obtain ⟨p', a, hp', ha, e1, e2, ho⟩ := do_tstep_ok hd1
    rcases ho with ⟨_, r, hr, ho, _⟩ | ⟨ho, _⟩
    · rw [ih, ho, e2]
      have := snapshot_time hr
      simp only [List.map_append, List.map_cons, List.map_nil, List.append_assoc, stamps, this]
      rfl
    · cases ho

theorem stamps_facts (t : ℤ) (ds : List ℤ) (hd : ∀ d ∈ ds, 0 < d) :
    (stamps t ds).Pairwise (· < ·) ∧ (∀ x ∈ stamps t ds, t < x ∧ x ≤ t + ds.sum) ∧
    (ds ≠ [] → t + ds.sum ∈ stamps t ds) := by
  induction ds generalizing t with
  | nil => simp [stamps]
  | cons d ds ih =>
    have h0 := hd d (by simp)
    have hnn : 0 ≤ ds.sum := List.sum_nonneg fun x hx => (hd x (by simp [hx])).le
    obtain ⟨i1, i2, i3⟩ := ih (t + d) (fun x hx => hd x (by simp [hx]))
    refine ⟨?_, ?_, fun _ => ?_⟩
    · simp only [stamps, List.pairwise_cons]
      exact ⟨fun x hx => (i2 x hx).1, i1⟩
    · intro x hx
      simp only [stamps, List.mem_cons] at hx
      simp only [List.sum_cons]
      rcases hx with rfl | hx
      · constructor <;> linarith
      · have := i2 x hx
        constructor <;> linarith [this.1, this.2]
    · simp only [stamps, List.mem_cons, List.sum_cons]
      cases ds with
      | nil => left; simp
      | cons e es =>
        right
        have := i3 (by simp)
        rwa [add_assoc] at this

/-- C08: in mode `all`, every run step of a data step appends exactly one record, stamped with the
clock at the end of that run step; the last one is stamped with the end of the data step. -/
theorem C08_all_records_data_step (g : Config) (hg : g.Tiled) (ts : Tsteps)
    (hts : parse_time_steps g = .ok ts) (c : Env) (i1 i2 : InputData) (m m' : Model)
    (h : do_data_tstep c ts true i1 i2 m = .ok m') :
    ∃ l, Executed c ts true i1 i2 m l m' ∧
      m'.output_list.map (·.date_time) = m.output_list.map (·.date_time) ++
        stamps m.current_datetime (l.map fun x => (ts x.lv).timedelta) ∧
      m'.output_list.length = m.output_list.length + l.length ∧
      (m'.output_list.map (·.date_time)).getLast? = some (m.current_datetime + g.norm_time_step) := by
  have ht := parse_tile hg hts
  obtain ⟨l, hex⟩ := do_data_executed h
  have hcl := C06_clock_data_step g hg ts hts c true i1 i2 m m' h
  have hex' := hex
  obtain ⟨dl, mid, hdl, hr, hl, ho⟩ := hex'.parts
  rcases ho with ⟨_, rfl⟩ | ⟨h, _⟩
  swap
  · cases h
  have hne : l ≠ [] := by
    have := IsDataStep.ne_nil (by simp [ht.n_normal]) (by simpa using ht.m_pos)
      (by simpa using ht.s_pos) hl
    simpa using this
  have ha := runs_all_output hr
  have hck := hr.clock
  have hcl' : m.current_datetime + (l.map fun x => (ts x.lv).timedelta).sum =
      m.current_datetime + g.norm_time_step := by
    rw [← hcl, hck]; rfl
  have hst : ∀ (t : ℤ) (ds : List ℤ), (stamps t ds).length = ds.length := by
    intro t ds
    induction ds generalizing t with
    | nil => rfl
    | cons d ds ih => simp [stamps, ih]
  have hlast : ∀ (t : ℤ) (ds : List ℤ), ds ≠ [] → (stamps t ds).getLast? = some (t + ds.sum) := by
    intro t ds
    induction ds generalizing t with
    | nil => simp
    | cons d ds ih =>
      intro _
      cases ds with
      | nil => simp [stamps]
      | cons e es =>
        have := ih (t + d) (by simp)
        rw [stamps, List.sum_cons, ← add_assoc, ← this]
        simp [stamps, List.getLast?_cons_cons]
  refine ⟨l, hex, ha, ?_, ?_⟩
  · have := congrArg List.length ha
    simp only [List.length_map, List.length_append, hst] at this
    simpa using this
  · rw [ha, List.getLast?_append, hlast _ _ (by simpa using hne)]
    simp only [Option.some_or]
    rw [← hcl']

/-- C08: over a whole run in mode `all` the time stamps are strictly increasing, lie after the start
and not after the end, and every data step ends on a record stamped with its end. -/
theorem C08_all_records_increasing (g : Config) (hg : g.Tiled) (hm : g.output_all = true) (r : Rec)
    (rs : List Rec) (m : Model) (h : simulate g (r :: rs) = .ok m) :
    (m.output_list.map (·.date_time)).Pairwise (· < ·) ∧
    (∀ x ∈ m.output_list, g.start_date < x.date_time ∧
      x.date_time ≤ g.start_date + rs.length * g.norm_time_step) ∧
    (∀ k : ℕ, 1 ≤ k → k ≤ rs.length →
      ∃ x ∈ m.output_list, x.date_time = g.start_date + k * g.norm_time_step) := by
  obtain ⟨ts, i1, c, m0, e1, e2, e3, e4, e5⟩ := simulate_ok h
  have ht := parse_tile hg e1
  rw [hm] at e5
  have hn := hg.1
  have := runSteps_inv (c := c) (ts := ts) (all := true)
    (fun n x => x.current_datetime = g.start_date + n * g.norm_time_step ∧
      (x.output_list.map (·.date_time)).Pairwise (· < ·) ∧
      (∀ t ∈ x.output_list.map (·.date_time), g.start_date < t ∧ t ≤ x.current_datetime) ∧
      (∀ k : ℕ, 1 ≤ k → k ≤ n →
        g.start_date + k * g.norm_time_step ∈ x.output_list.map (·.date_time)))
    (fun n x j1 j2 x' hx hs => by
      obtain ⟨x1, x2, x3, x4⟩ := hx
      have hc := C06_clock_data_step g hg ts e1 c true j1 j2 x x' hs
      obtain ⟨l, hex, ho, _, hlast⟩ := C08_all_records_data_step g hg ts e1 c j1 j2 x x' hs
      obtain ⟨f1, f2, f3⟩ := stamps_facts x.current_datetime (l.map fun x => (ts x.lv).timedelta)
        (by simp only [List.mem_map]; rintro d ⟨y, _, rfl⟩; exact ht.td_pos _)
      have hle : ∀ t ∈ stamps x.current_datetime (l.map fun x => (ts x.lv).timedelta),
          t ≤ x.current_datetime + g.norm_time_step := by
        intro t htm
        refine (f2 t htm).2.trans (le_of_eq ?_)
        obtain ⟨dl, mid, _, hr, _, ho'⟩ := hex.parts
        rw [← hc, (Executed.mid_phys ho').2, hr.clock]
        rfl
      refine ⟨by rw [hc, x1]; push_cast; ring, ?_, ?_, ?_⟩
      · rw [ho, List.pairwise_append]
        refine ⟨x2, f1, fun a ha b hb => ?_⟩
        exact lt_of_le_of_lt (x3 a ha).2 (f2 b hb).1
      · intro t htm
        rw [ho] at htm
        rw [hc]
        rcases List.mem_append.mp htm with h5 | h5
        · have := x3 t h5
          exact ⟨this.1, by linarith⟩
        · refine ⟨?_, hle t h5⟩
          have := (f2 t h5).1
          rw [x1] at this
          have : (0 : ℤ) ≤ (n : ℤ) * g.norm_time_step := by positivity
          linarith
      · intro k hk1 hk2
        rcases Nat.lt_or_ge n k with h5 | h5
        · have : k = n + 1 := by omega
          subst this
          have := List.mem_of_getLast? hlast
          rw [x1] at this
          convert this using 1
          push_cast; ring
        · rw [ho]
          exact List.mem_append_left _ (x4 k hk1 h5)) rs i1 0 m0 m
    ⟨by rw [(mkModel_ok e4).1]; simp, by rw [(mkModel_ok e4).2.1]; simp,
     by rw [(mkModel_ok e4).2.1]; simp, fun k h1 h2 => by omega⟩ e5
  simp only [Nat.zero_add] at this
  obtain ⟨q1, q2, q3, q4⟩ := this
  refine ⟨q2, fun x hx => ?_, fun k h1 h2 => ?_⟩
  · have := q3 x.date_time (List.mem_map_of_mem hx)
    rw [q1] at this
    exact this
  · have := q4 k h1 h2
    simpa using this

/-! ## C11 -/

/-- C11: no run step executes at normal length while a layer is lighter than the normal threshold, nor
at medium length while a layer is lighter than the medium threshold; all steps are of the three
configured lengths and tile the data step. -/
theorem C11_thin_layers_fine_steps (g : Config) (ts : Tsteps) (hts : parse_time_steps g = .ok ts)
    (c : Env) (all : Bool) (i1 i2 : InputData) (m m' : Model)
    (h : do_data_tstep c ts all i1 i2 m = .ok m') :
    ∃ l, Executed c ts all i1 i2 m l m' ∧ ∀ x ∈ l,
      ∀ thr, (x.lv = .normal ∧ thr = g.norm_threshold ∨ x.lv = .medium ∧ thr = g.medium_threshold) →
        (x.pre.snow.layer_count = 1 → thr ≤ x.pre.snow.m_s) ∧
        (x.pre.snow.layer_count = 2 → thr ≤ x.pre.snow.m_s_0 ∧ thr ≤ x.pre.snow.m_s_l) := by
  obtain ⟨l, hex⟩ := do_data_executed h
  have hex' := hex
  obtain ⟨dl, mid, hdl, hr, hl, ho⟩ := hex'.parts
  obtain ⟨k1, k2, _⟩ := parse_threshold hts
  refine ⟨l, hex, fun x hx thr ht => ?_⟩
  obtain ⟨_, hb⟩ := hr.mem hx
  have hb : below_thold thr x.pre.snow = false := by
    rcases ht with ⟨e, rfl⟩ | ⟨e, rfl⟩
    · rcases hb with hb | hb
      · rw [e] at hb; cases hb
      · rw [← k1, ← e]; exact hb
    · rcases hb with hb | hb
      · rw [e] at hb; cases hb
      · rw [← k2, ← e]; exact hb
  unfold below_thold at hb
  constructor
  · intro h1
    simpa [h1] using hb
  · intro h2
    simpa [h2] using hb

/-- C11: the recursion over levels is never deeper than three: allowing more depth changes nothing. -/
theorem C11_three_levels_suffice {π α ρ : Type} (K : Sim π α ρ) (st : SimSt π α ρ) (extra : ℕ) :
    K.divide_tstep (3 + extra) (0, st) = K.divide_tstep 3 (0, st) := by
  rw [show 3 + extra = extra + 3 by omega, divide_normal, show (3 : ℕ) = 0 + 3 by rfl, divide_normal]

/-! ## C12 -/

theorem runs_prefix {c : Env} {ts : Tsteps} {all : Bool} {dl : Level → InputData} {m m' : Model}
    {l : List (RStep Phys)} (h : (snobalSim c ts all dl).Runs m l m') :
    m.output_list <+: m'.output_list := by
  induction h with
  | nil => exact List.prefix_rfl
  | enter _ ih => exact ih
  | step _ _ h3 _ ih =>
    obtain ⟨_, _, _, _, _, _, ⟨_, r, _, h, _⟩ | ⟨_, h, _⟩⟩ := do_tstep_ok h3
    · rw [h] at ih
      exact (List.prefix_append _ _).trans ih
    · rw [h] at ih; exact ih

theorem data_prefix {c : Env} {ts : Tsteps} {all : Bool} {i1 i2 : InputData} {m m' : Model}
    (h : do_data_tstep c ts all i1 i2 m = .ok m') : m.output_list <+: m'.output_list := by
  obtain ⟨l, hexl⟩ := do_data_executed h
  obtain ⟨dl, mid, _, hr, _, ho⟩ := hexl.parts
  have := runs_prefix hr
  rcases ho with ⟨_, rfl⟩ | ⟨_, ho⟩
  · exact this
  · obtain ⟨r, _, e⟩ := output_ok ho
    subst e
    exact this.trans (List.prefix_append _ _)

/-- C12: processing more records only appends to the output. -/
theorem C12_append_only (c : Env) (ts : Tsteps) (all : Bool) (i1 : InputData) (rs : List Rec)
    (m m' : Model) (h : runSteps c ts all i1 rs m = .ok m') : m.output_list <+: m'.output_list := by
  exact runSteps_inv (c := c) (ts := ts) (all := all) (fun _ x => m.output_list <+: x.output_list)
    (fun n x j1 j2 x' hx hs => hx.trans (data_prefix hs)) rs i1 0 m m' List.prefix_rfl h

/-- C12: runs compose — processing `xs ++ r :: ys` is processing `xs ++ [r]` and then `ys` starting
from record `r`, including which error is raised if any. -/
theorem C12_runs_compose (c : Env) (ts : Tsteps) (all : Bool) (i1 : InputData) (xs : List Rec)
    (r : Rec) (ys : List Rec) (m : Model) :
    runSteps c ts all i1 (xs ++ r :: ys) m =
      (do let m1 ← runSteps c ts all i1 (xs ++ [r]) m
          let i ← InputData.new r
          runSteps c ts all i ys m1) := by
  induction xs generalizing i1 m with
  | nil =>
    simp only [List.nil_append, runSteps]
    cases hn : InputData.new r with
    | error e => simp
    | ok i2 =>
      simp only [bind_ok]
      cases do_data_tstep c ts all i1 i2 m <;> simp
  | cons x xs ih =>
    simp only [List.cons_append, runSteps]
    cases InputData.new x with
    | error e => simp
    | ok i2 =>
      simp only [bind_ok]
      cases do_data_tstep c ts all i1 i2 m with
      | error e => simp
      | ok m1 => simp only [bind_ok]; exact ih i2 m1

/-- C12: consequently the records of a longer simulation start with the records of a shorter one. -/
theorem C12_prefix_of_longer_run (g : Config) (r : Rec) (xs ys : List Rec) (m m' : Model)
    (h : simulate g (r :: xs) = .ok m) (h' : simulate g (r :: (xs ++ ys)) = .ok m') :
    m.output_list <+: m'.output_list := by
  obtain ⟨ts, i1, c, m0, e1, e2, e3, e4, e5⟩ := simulate_ok h
  obtain ⟨ts', i1', c', m0', f1, f2, f3, f4, f5⟩ := simulate_ok h'
  rw [e1] at f1; cases f1
  rw [e2] at f2; cases f2
  rw [e3] at f3; cases f3
  rw [e4] at f4; cases f4
  clear h h' e4 e2
  induction xs generalizing i1 m0 with
  | nil =>
    simp [runSteps] at e5
    subst e5
    exact C12_append_only _ _ _ _ _ _ _ f5
  | cons x xs ih =>
    obtain ⟨i2, m1, a1, a2, a3⟩ := runSteps_cons e5
    rw [List.cons_append] at f5
    obtain ⟨i2', m1', b1, b2, b3⟩ := runSteps_cons f5
    rw [a1] at b1; cases b1
    rw [a2] at b2; cases b2
    exact ih _ _ a3 b3

end

end Pysnobal
