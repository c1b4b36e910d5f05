import Verif.Props.Interpolate
import Verif.Props.ExamplesModes

/-! # A case that meets the hypotheses of C95: a subdivided run in weather of varying humidity -/

namespace Pysnobal

noncomputable section

/-- Calm weather of the vapour pressure `v`. -/
def humidRec (v : ℝ) : Rec := { calmRec 0 0 0 0 with e_a := v }

theorem humidRec_new (v : ℝ) : InputData.new (humidRec v) = .ok (humidRec v).toInput := by
  rw [new_eq, if_neg]
  rintro ⟨h, _⟩
  exact lt_irrefl _ h

/-- The humid weather `k` quarters into the hour. -/
def humidAt (v v' : ℝ) (k : ℕ) : InputData := { (calmRec 0 0 0 0).toInput with e_a := v + k / 4 * (v' - v) }

theorem humid_quarters {ts : Tsteps} (ht : TileOK ts) (h1 : 100 < (ts .normal).threshold) (h2 : (ts .medium).threshold ≤ 100)
    (h4 : (ts .medium).intervals = 4) {v v' : ℝ} (hv : 0 < v ∧ v ≤ 610) (hv' : 0 < v' ∧ v' ≤ 610) {m : Model} (h : Settled 0.01 100 m.phys)
    (h0 : m.acc.time_since_out = 0) :
    ∃ l m', do_data_tstep (calmEnv 0.01) ts true (humidRec v).toInput (humidRec v').toInput m = .ok m' ∧
      Executed (calmEnv 0.01) ts true (humidRec v).toInput (humidRec v').toInput m l m' ∧ Settled 0.01 100 m'.phys ∧
      m'.acc.time_since_out = 0 ∧ l.length = 4 ∧ ∀ x ∈ l, x.pre.snow.layer_count = 1 ∧ x.pre.snow.m_s = 100 ∧
        x.post.input1.e_a = x.pre.input1.e_a := by
  have hn := humidRec_new v
  set dl : Level → InputData := fun lv => (deltaRec (humidRec v).toInput (humidRec v').toInput ((ts lv).intervals_per_timestep : ℝ)).toInput with hdl
  set K := snobalSim (calmEnv 0.01) ts true dl with hK
  let P : List (RStep Phys) → Prop := fun l => ∀ x ∈ l, x.pre.snow.layer_count = 1 ∧ x.pre.snow.m_s = 100 ∧
        x.post.input1.e_a = x.pre.input1.e_a
  let Q : ℕ → SimSt (Phys × List (RStep Phys)) AccT OutRec → Prop := fun k st => Settled 0.01 100 st.phys.1 ∧
    st.phys.1.input1 = humidAt v v' k ∧ st.acc.time_since_out = 0 ∧ st.phys.2.length = k ∧ P st.phys.2
  have hbelow : ∀ (p : Phys), Settled 0.01 100 p → below_thold (ts .normal).threshold p.snow = true ∧ below_thold (ts .medium).threshold p.snow = false := by
    intro p hp
    unfold below_thold
    rw [if_neg (by rw [hp.ripe.lc]; norm_num), if_pos hp.ripe.lc, if_neg (by rw [hp.ripe.lc]; norm_num), if_pos hp.ripe.lc, hp.m]
    exact ⟨by simpa using h1, by simpa using h2⟩
  have hst : ∀ k st, k < 4 → Q k st → ∃ st', K.logged.do_tstep .medium st = .ok st' ∧ Q (k + 1) st' := by
    rintro k st hk4 ⟨q1, q2, q3, q4, q5⟩
    have hkr : (k : ℝ) / 4 ≤ 1 := by
      have : (k : ℝ) ≤ 4 := by exact_mod_cast hk4.le
      linarith
    have hk0 : (0 : ℝ) ≤ k / 4 := by positivity
    have hw : v + (k : ℝ) / 4 * (v' - v) = (1 - (k : ℝ) / 4) * v + (k : ℝ) / 4 * v' := by ring
    have hr1 : 0 < v + (k : ℝ) / 4 * (v' - v) := by
      rw [hw]
      rcases lt_or_eq_of_le hkr with h | h
      · have := mul_pos (sub_pos.mpr h) hv.1
        have := mul_nonneg hk0 hv'.1.le
        linarith
      · rw [h]; linarith [hv'.1]
    have hr2 : v + (k : ℝ) / 4 * (v' - v) ≤ 610.71 := by
      rw [hw]
      have := mul_le_mul_of_nonneg_left hv.2 (sub_nonneg.mpr hkr)
      have := mul_le_mul_of_nonneg_left hv'.2 hk0
      nlinarith
    obtain ⟨p', k1, k2, _, _, _, _, _, _, k9⟩ := settled_step_humid (dt := (ts .medium).time_step) (dl := dl .medium) (ps := 0) (r := 0) q1 q2 hr1 hr2
    have hp : K.logged.phys .medium st.phys = .ok (p', st.phys.2 ++ [⟨.medium, st.phys.1, p'⟩]) := by
      show (stepPhys _ _ _ _).map _ = _
      rw [k1]
      rfl
    have ha0 : AccFor [] st.acc := ⟨by simp, by simp [duration, q3], fun h => absurd rfl h⟩
    obtain ⟨a1, l1, l2⟩ := accumulate_accFor ha0 (ht.step_pos .medium) p'.snow
    have l1' : K.logged.accum .medium (p', st.phys.2 ++ [⟨.medium, st.phys.1, p'⟩]) st.acc = .ok a1 := l1
    obtain ⟨r, hr, _⟩ := snapshot_accFor l2 (by simp) p'.snow (st.current_datetime + (ts .medium).timedelta)
    have hr' : K.logged.snap (p', st.phys.2 ++ [⟨.medium, st.phys.1, p'⟩]) a1 (st.current_datetime + K.logged.timedelta .medium) = .ok r := hr
    unfold Sim.do_tstep
    simp only [hp, bind_ok, l1', show K.logged.output_divided = true from rfl, if_true, Sim.output, hr']
    refine ⟨_, rfl, ⟨k2.ripe, k2.rho, k2.m, k2.cap, k2.wet, k2.start⟩, ?_, rfl, ?_, ?_⟩
    · show p'.input1.add_deltas (dl .medium) = _
      rw [k9, q2, hdl]
      simp only [ht.ipt_medium, h4]
      simp [humidAt, InputData.add_deltas, InputData.update_precip_deltas, Rec.toInput, deltaRec, humidRec, calmRec]
      ring
    · show (st.phys.2 ++ [_]).length = k + 1
      simp [q4]
    · intro x hx
      have hx' : x ∈ st.phys.2 ++ [⟨.medium, st.phys.1, p'⟩] := hx
      rcases List.mem_append.mp hx' with hx' | hx'
      · exact q5 x hx'
      · rw [List.mem_singleton] at hx'
        rw [hx']
        exact ⟨q1.ripe.lc, q1.m, by rw [k9]⟩
  have hit : ∀ n k st, k + n = 4 → Q k st → ∃ st', iterM (mediumIntervalL K) n st = .ok st' ∧ Q 4 st' := by
    intro n
    induction n with
    | zero => exact fun k st hk hq => ⟨st, rfl, by rw [← hk]; exact hq⟩
    | succ n ih =>
      intro k st hk hq
      obtain ⟨s1, e1, hq1⟩ := hst k st (by omega) hq
      obtain ⟨s2, e2, hq2⟩ := ih (k + 1) s1 (by omega) hq1
      refine ⟨s2, ?_, hq2⟩
      show (mediumIntervalL K st >>= iterM _ n) = _
      have : mediumIntervalL K st = .ok s1 := by
        unfold mediumIntervalL
        rw [if_neg (by show ¬ below_thold (ts .medium).threshold st.phys.1.snow = true; rw [(hbelow _ hq.1).2]; simp)]
        exact e1
      rw [this, bind_ok, e2]
  have hq0 : Q 0 (SimSt.log { m with phys := { m.phys with input1 := (humidRec v).toInput } } []) := by
    refine ⟨⟨h.ripe, h.rho, h.m, h.cap, h.wet, h.start⟩, ?_, h0, rfl, fun x hx => absurd hx (by simp [SimSt.log])⟩
    show (humidRec v).toInput = _
    simp [humidAt, Rec.toInput, humidRec, calmRec]
  obtain ⟨st, e, q1, q2, q3, q4, q5⟩ := hit 4 0 _ (by norm_num) hq0
  have hex : K.Executes { m with phys := { m.phys with input1 := (humidRec v).toInput } } st.phys.2 st.unlog := by
    unfold Sim.Executes
    rw [data_tstep_eq]
    have e1 : K.logged.normalBlock (SimSt.log { m with phys := { m.phys with input1 := (humidRec v).toInput } } []) = .ok st := by
      unfold Sim.normalBlock
      rw [show (K.logged.intervals .normal).toNat = 1 by show (ts .normal).intervals.toNat = 1; rw [ht.n_normal]; rfl]
      simp only [iterM]
      have hb : K.logged.below .normal (SimSt.log { m with phys := { m.phys with input1 := (humidRec v).toInput } } []).phys = true := (hbelow _ hq0.1).1
      rw [hb]
      simp only [if_true]
      have : K.logged.mediumBlock (SimSt.log { m with phys := { m.phys with input1 := (humidRec v).toInput } } []) = .ok st := by
        unfold Sim.mediumBlock
        rw [show (K.logged.intervals .medium).toNat = 4 by show (ts .medium).intervals.toNat = 4; rw [h4]; rfl]
        exact e
      rw [this, bind_ok]
    rw [e1, bind_ok, if_neg (by show ¬ true = false; simp)]
    rfl
  have hd := inputDeltas_total ht hn (humidRec v').toInput
  refine ⟨st.phys.2, st.unlog, ?_, ⟨dl, hd, hex⟩, q1, q3, q4, q5⟩
  unfold do_data_tstep
  rw [hd, bind_ok]
  have := logged_data_tstep K (SimSt.log { m with phys := { m.phys with input1 := (humidRec v).toInput } } [])
  rw [show K.logged.data_tstep _ = _ from hex] at this
  exact this.symm

theorem humid_run {ts : Tsteps} (ht : TileOK ts) (h1 : 100 < (ts .normal).threshold) (h2 : (ts .medium).threshold ≤ 100)
    (h4 : (ts .medium).intervals = 4) : ∀ (vs : List ℝ) (v : ℝ), (∀ x ∈ v :: vs, 0 < x ∧ x ≤ 610) → ∀ (m : Model), Settled 0.01 100 m.phys →
    m.acc.time_since_out = 0 → ∃ ls m', DataSteps (calmEnv 0.01) ts true (humidRec v).toInput (vs.map humidRec) m ls m' ∧ ls.length = vs.length ∧
      ∀ l ∈ ls, l.length = 4 ∧ ∀ x ∈ l, x.pre.snow.layer_count = 1 ∧ x.pre.snow.m_s = 100 ∧ x.post.input1.e_a = x.pre.input1.e_a := by
  intro vs
  induction vs with
  | nil => exact fun v _ m _ _ => ⟨[], m, .nil _ _, rfl, by simp⟩
  | cons v' vs ih =>
    intro v hv m h h0
    obtain ⟨l, m1, e1, e2, k1, k2, k3, k4⟩ := humid_quarters ht h1 h2 h4 (hv v (by simp)) (hv v' (by simp)) h h0
    obtain ⟨ls, m', q1, q2, q3⟩ := ih v' (fun x hx => hv x (by simp only [List.mem_cons] at hx ⊢; exact .inr hx)) m1 k1 k2
    refine ⟨l :: ls, m', .cons (humidRec_new v') e1 e2 q1, by simp [q2], ?_⟩
    intro l' hl
    rcases List.mem_cons.mp hl with rfl | hl
    · exact ⟨k3, k4⟩
    · exact q3 l' hl

/-- 100 kg/m² of snow in calm weather whose vapour pressure varies from hour to hour: every hour is simulated in four quarters. -/
theorem humid_hours (v : ℝ) (vs : List ℝ) (hv : ∀ x ∈ v :: vs, 0 < x ∧ x ≤ 610) : ∃ ls m,
    RunTrace { quarterCfg with output_all := true } ((v :: vs).map humidRec) ls m ∧ ls.length = vs.length ∧ (∀ l ∈ ls, l.length = 4) ∧
    (∀ l ∈ ls, StartsThin quarterCfg.norm_threshold l) ∧ ∀ l ∈ ls, ∀ x ∈ l, x.post.input1.e_a = x.pre.input1.e_a := by
  have hg : ({ quarterCfg with output_all := true } : Config).Tiled := calmCfg_tiled 200 0.01 (1 / 6) 600 1
  obtain ⟨ts, hts⟩ := parse_of_ne (g := { quarterCfg with output_all := true }) hg.2.1.ne' hg.2.2.1.ne'
  have ht := parse_tile hg hts
  obtain ⟨t1, t2, _⟩ := parse_threshold hts
  obtain ⟨s0, hs0, hset⟩ := quarter_start
  have hm : ∃ m0, mkModel { quarterCfg with output_all := true } (calmEnv 0.01) (humidRec v).toInput = .ok m0 ∧ Settled 0.01 100 m0.phys := by
    unfold mkModel
    rw [show recordSnow { quarterCfg with output_all := true } = recordSnow quarterCfg from rfl, hs0, bind_ok]
    exact ⟨_, rfl, hset _⟩
  obtain ⟨m0, em, hs⟩ := hm
  obtain ⟨_, _, p0, _⟩ := mkModel_ok em
  obtain ⟨ls, m, q1, q2, q3⟩ := humid_run ht (by rw [t1]; norm_num [quarterCfg, calmCfg])
    (by rw [t2]; norm_num [quarterCfg, calmCfg, defaultSteps]) (by
      obtain ⟨_, _, _, e2, _⟩ := parse_ok hts
      rw [e2]
      norm_num [quarterCfg, calmCfg, defaultSteps]
      rfl) vs v hv m0 hs p0
  have hrun : RunTrace { quarterCfg with output_all := true } ((v :: vs).map humidRec) ls m :=
    ⟨calmEnv 0.01, ts, _, m0, _, _, rfl, hts, calmCfg_env 200 0.01 (1 / 6) 600 1, humidRec_new v, em, q1⟩
  refine ⟨ls, m, hrun, q2, fun l hl => (q3 l hl).1, ?_, fun l hl x hx => ((q3 l hl).2 x hx).2.2⟩
  intro l hl
  obtain ⟨k1, k2⟩ := q3 l hl
  cases l with
  | nil => simp at k1
  | cons x tl =>
    obtain ⟨e1, e2, _⟩ := k2 x (by simp)
    exact ⟨x, rfl, .inl ⟨e1, by rw [e2]; norm_num [quarterCfg, calmCfg]⟩⟩

theorem humid_rows (v : ℝ) (vs : List ℝ) : ∀ r ∈ (v :: vs).map humidRec, 0 ≤ r.m_pp := by
  intro r hr
  obtain ⟨x, _, rfl⟩ := List.mem_map.mp hr
  exact le_refl _

/-- Its run equals the one on the table of quarters. -/
example (v : ℝ) (vs : List ℝ) (hv : ∀ x ∈ v :: vs, 0 < x ∧ x ≤ 610) : ∃ ls m,
    RunTrace { quarterCfg with output_all := true } ((v :: vs).map humidRec) ls m ∧ ls.length = vs.length ∧ (∀ l ∈ ls, l.length = 4) ∧
    ∃ m', simulate { quarterCfg with output_all := true, norm_time_step := 15, norm_threshold := 10 } (refine 4 ((v :: vs).map humidRec)) = .ok m' ∧
      m'.phys.snow = m.phys.snow ∧ m'.current_datetime = m.current_datetime ∧ m'.output_list = m.output_list := by
  obtain ⟨ls, m, h, h1, h2, h3, h4⟩ := humid_hours v vs hv
  exact ⟨ls, m, h, h1, h2, C95_subdivision_interpolates { quarterCfg with output_all := true } (calmCfg_tiled 200 0.01 (1 / 6) 600 1) rfl 4
    (by norm_num [quarterCfg, calmCfg, defaultSteps]) _ (humid_rows v vs) ls m h h3 h4⟩

end

end Pysnobal
