import Verif.Lemmas.NanGapMass
import Verif.Lemmas.Located
import Verif.Props.NanPack

/-! # A run with a blank row completes if it does with the blanks filled in -/

namespace Pysnobal

noncomputable section

open Classical

namespace Nan

variable {c : Env} {ts : Tsteps} {all : Bool} {dl : Level → NInput}

/-- The accumulators between records. -/
def AccReady (a : AccT) : Prop := a.time_since_out = 0 ∨ 0 < a.time_since_out ∧ ∃ x, a.acc.swi_sum = some x

theorem average_prog {b v : Energy} {t dt : ℝ} (h : t + dt ≠ 0) : ∃ e, Energy.average b v t dt = .ok e := by
  have key : ∀ x y : NVal, ∃ z, time_average x t y dt = .ok z := by
    intro x y
    unfold time_average
    exact div_ok_ne _ h
  unfold Energy.average
  obtain ⟨_, h1⟩ := key b.R_n v.R_n
  obtain ⟨_, h2⟩ := key b.H v.H
  obtain ⟨_, h3⟩ := key b.L_v_E v.L_v_E
  obtain ⟨_, h4⟩ := key b.G v.G
  obtain ⟨_, h5⟩ := key b.G_0 v.G_0
  obtain ⟨_, h6⟩ := key b.M v.M
  obtain ⟨_, h7⟩ := key b.delta_Q v.delta_Q
  obtain ⟨_, h8⟩ := key b.delta_Q_0 v.delta_Q_0
  simp only [h1, h2, h3, h4, h5, h6, h7, h8, bind_ok]
  exact ⟨_, rfl⟩

theorem accSafe (ht : TileOK ts) : AccSafe (snobalSim c ts all dl) AccReady (fun a => 0 < a.time_since_out ∧ ∃ x, a.acc.swi_sum = some x) where
  accum := by
    intro lv p a ha
    show ∃ a', accumulate (ts lv).time_step p.snow a = .ok a' ∧ _
    have hdt := ht.step_pos lv
    unfold accumulate
    by_cases h : a.time_since_out > 0
    · rw [if_pos h]
      rcases ha with h0 | ⟨_, x, hx⟩
      · linarith
      · unfold Acc.time_average
        obtain ⟨b, hb⟩ := average_prog (b := a.acc.bar) (v := p.snow.en) (t := a.time_since_out)
          (dt := (ts lv).time_step) (by linarith)
        rw [hb, bind_ok, hx]
        dsimp only
        rw [pure_ok, bind_ok, pure_ok]
        exact ⟨_, rfl, by dsimp only; linarith, _, rfl⟩
    · rw [if_neg h]
      exact ⟨_, rfl, hdt, _, rfl⟩
  snap := by
    rintro p a t ⟨_, x, hx⟩
    show ∃ r, snapshot p.snow a.acc t = .ok r
    unfold snapshot
    rw [hx]
    exact ⟨_, rfl⟩
  weak := fun a h => .inr h
  reset := fun a _ => .inl rfl

/-- A dry data step completes without snow at the end if no snow lies, or if its first run step completes and leaves none. -/
theorem data_dry (ht : TileOK ts) {n : NRec} {i1 : NInput} (hn : n.Dry) (h1 : NInput.new n = .ok i1) (i2 : NInput) {m : Model} (hJ : AccReady m.acc)
    (hs : m.phys.snow.layer_count = 0 ∨ ∀ lv d, ∃ p', stepPhys c (ts lv).time_step d { m.phys with input1 := i1 } = .ok p' ∧
      p'.snow.layer_count = 0 ∧ p'.input1.precip_now = false) :
    ∃ m', do_data_tstep c ts all i1 i2 m = .ok m' ∧ AccReady m'.acc ∧ m'.phys.snow.layer_count = 0 := by
  obtain ⟨j, e, pn, mn⟩ := dry_new hn
  rw [h1] at e
  cases e
  obtain ⟨dl, hd⟩ := dry_deltas ht hn mn i2
  have inv : ∀ {l : List (RStep Phys)} {mid : Model},
      (snobalSim c ts all dl).Runs { m with phys := { m.phys with input1 := i1 } } l mid →
      mid.phys = { m.phys with input1 := i1 } ∨ (mid.phys.snow.layer_count = 0 ∧ mid.phys.input1.precip_now = false) := by
    intro l mid hr
    refine hr.phys_inv (fun p => p = { m.phys with input1 := i1 } ∨ (p.snow.layer_count = 0 ∧ p.input1.precip_now = false)) ?_ ?_ (.inl rfl)
    · intro p hp
      have hf : p.input1.precip_now = false := by
        rcases hp with rfl | hp
        · exact pn
        · exact hp.2
      have : (snobalSim c ts all dl).enter .small p = p := by
        simp only [snobalSim]
        rw [if_neg (by rw [hf]; simp)]
      rw [this]
      exact hp
    · intro lv p p' hp e
      have e' : stepPhys c (ts lv).time_step (dl lv) p = .ok p' := e
      right
      have hb : p.snow.layer_count = 0 ∧ p.input1.precip_now = false → p'.snow.layer_count = 0 ∧ p'.input1.precip_now = false := by
        intro hb
        obtain ⟨q, hq, hl⟩ := step_bare_ok (c := c) (dt := (ts lv).time_step) (dl := dl lv) hb.1 hb.2
        rw [hq] at e'
        cases e'
        exact ⟨hl, (step_precip hq).trans hb.2⟩
      have : p'.snow.layer_count = 0 ∧ p'.input1.precip_now = false := by
        rcases hp with rfl | hp
        · rcases hs with hs | hs
          · exact hb ⟨hs, pn⟩
          · obtain ⟨q, hq, h2, h3⟩ := hs lv (dl lv)
            rw [hq] at e'
            cases e'
            exact ⟨h2, h3⟩
        · exact hb hp
      exact this
  have step : ∀ lv p, (p = { m.phys with input1 := i1 } ∨ (p.snow.layer_count = 0 ∧ p.input1.precip_now = false)) →
      ∃ p', stepPhys c (ts lv).time_step (dl lv) p = .ok p' := by
    rintro lv p (rfl | hp)
    · rcases hs with hs | hs
      · obtain ⟨q, hq, _⟩ := step_bare_ok (c := c) (dt := (ts lv).time_step) (dl := dl lv) (p := { m.phys with input1 := i1 }) hs pn
        exact ⟨q, hq⟩
      · obtain ⟨q, hq, _⟩ := hs lv (dl lv)
        exact ⟨q, hq⟩
    · obtain ⟨q, hq, _⟩ := step_bare_ok (c := c) (dt := (ts lv).time_step) (dl := dl lv) hp.1 hp.2
      exact ⟨q, hq⟩
  rcases data_tstep_located (accSafe ht) (K := snobalSim c ts all dl) (by simpa [snobalSim] using ht.s_pos)
    (by simpa [snobalSim] using ht.m_pos) (by simp [snobalSim, ht.n_normal])
    (st := { m with phys := { m.phys with input1 := i1 } }) hJ with ⟨m', e, hA⟩ | ⟨e, l, mid, lv, rest, k1, k2⟩
  · have e0 : do_data_tstep c ts all i1 i2 m = .ok m' := by
      unfold do_data_tstep
      rw [hd, bind_ok]
      exact e
    refine ⟨m', e0, hA, ?_⟩
    obtain ⟨dl', l, mid, hd', hr, hl, hp, _⟩ := data_parts ht e0
    rw [hd] at hd'
    cases hd'
    rw [hp]
    cases hr' : l with
    | nil => exact absurd hr' hl
    | cons a t =>
      -- the last run step leaves no snow
      have key : ∀ {st st' : Model} {l : List (RStep Phys)}, (snobalSim c ts all dl).Runs st l st' →
          (st.phys = { m.phys with input1 := i1 } ∨ (st.phys.snow.layer_count = 0 ∧ st.phys.input1.precip_now = false)) → l ≠ [] →
          st'.phys.snow.layer_count = 0 := by
        intro st st' l hr
        have dryOf : ∀ p : Phys, (p = { m.phys with input1 := i1 } ∨ (p.snow.layer_count = 0 ∧ p.input1.precip_now = false)) →
            p.input1.precip_now = false := by
          rintro p (rfl | hp)
          · exact pn
          · exact hp.2
        induction hr with
        | nil => exact fun _ h => absurd rfl h
        | @enter st st' l hr ih =>
          intro hp hl
          have : (snobalSim c ts all dl).enter .small st.phys = st.phys := by
            simp only [snobalSim]
            rw [if_neg (by rw [dryOf _ hp]; simp)]
          exact ih (by dsimp only; rw [this]; exact hp) hl
        | @step st st1 st2 l lv p hb hp hd hr ih =>
          intro hst _
          have e' : stepPhys c (ts lv).time_step (dl lv) st.phys = .ok p := hp
          have z : p.snow.layer_count = 0 ∧ p.input1.precip_now = false := by
            rcases hst with h | h
            · rw [h] at e'
              rcases hs with hs | hs
              · obtain ⟨q, hq, hl⟩ := step_bare_ok (c := c) (dt := (ts lv).time_step) (dl := dl lv) (p := { m.phys with input1 := i1 }) hs pn
                rw [hq] at e'
                cases e'
                exact ⟨hl, (step_precip hq).trans pn⟩
              · obtain ⟨q, hq, h2, h3⟩ := hs lv (dl lv)
                rw [hq] at e'
                cases e'
                exact ⟨h2, h3⟩
            · obtain ⟨q, hq, hl⟩ := step_bare_ok (c := c) (dt := (ts lv).time_step) (dl := dl lv) h.1 h.2
              rw [hq] at e'
              cases e'
              exact ⟨hl, (step_precip hq).trans h.2⟩
          obtain ⟨p2, a, q1, q2, q3, q4, q5⟩ := do_tstep_ok hd
          have hpp : p2 = p := Except.ok.inj (q1.symm.trans hp)
          subst hpp
          have z1 : st1.phys.snow.layer_count = 0 ∧ st1.phys.input1.precip_now = false := by rw [q3]; exact z
          by_cases hl : l = []
          · rw [(runs_nil hr hl).1]; exact z1.1
          · exact ih (.inr z1) hl
      exact key hr (.inl rfl) hl
  · obtain ⟨p', hp'⟩ := step lv mid.phys (inv k2.runs)
    have := k2.raises
    rw [show (snobalSim c ts all dl).phys lv mid.phys = .ok p' from hp'] at this
    cases this

/-- Dry rows over bare ground complete. -/
theorem runSteps_dry (ht : TileOK ts) : ∀ (rs : List NRec) {n : NRec} {i : NInput} {m : Model}, n.Dry → NInput.new n = .ok i →
    (∀ r ∈ rs, r.Dry) → AccReady m.acc → m.phys.snow.layer_count = 0 →
    ∃ m', runSteps c ts all i rs m = .ok m' ∧ m'.phys.snow.layer_count = 0 := by
  intro rs
  induction rs with
  | nil => exact fun _ _ _ _ hl => ⟨_, rfl, hl⟩
  | cons r rs ih =>
    intro n i m hn hi hr h0 hl
    obtain ⟨i', e', _⟩ := dry_new (hr r (by simp))
    obtain ⟨m1, h1, h2, h3⟩ := data_dry (c := c) (all := all) ht hn hi i' h0 (.inl hl)
    obtain ⟨m2, h4, h5⟩ := ih (hr r (by simp)) e' (fun x hx => hr x (by simp [hx])) h2 h3
    refine ⟨m2, ?_, h5⟩
    simp only [runSteps, e', bind_ok, h1, h4]

/-! ### Going on from a run that has completed -/

theorem data_ready (ht : TileOK ts) {i1 i2 : NInput} {m m' : Model} (hJ : AccReady m.acc)
    (e : do_data_tstep c ts all i1 i2 m = .ok m') : AccReady m'.acc := by
  unfold do_data_tstep at e
  obtain ⟨dl, _, e⟩ := bind_eq_ok.mp e
  rcases data_tstep_located (accSafe ht) (K := snobalSim c ts all dl) (by simpa [snobalSim] using ht.s_pos)
    (by simpa [snobalSim] using ht.m_pos) (by simp [snobalSim, ht.n_normal])
    (st := { m with phys := { m.phys with input1 := i1 } }) hJ with ⟨m2, e', hA⟩ | ⟨x, l, mid, lv, rest, k1, k2⟩
  · rw [e'] at e
    cases e
    exact hA
  · rw [k1] at e
    cases e

theorem runSteps_continue (ht : TileOK ts) : ∀ (rs : List NRec) (i : NInput) (m m' : Model), AccReady m.acc →
    runSteps c ts all i rs m = .ok m' →
    AccReady m'.acc ∧ ∃ i', (rs = [] → i' = i) ∧ (∀ x, rs.getLast? = some x → NInput.new x = .ok i') ∧
      ∀ l, runSteps c ts all i (rs ++ l) m = runSteps c ts all i' l m' := by
  intro rs
  induction rs with
  | nil =>
    intro i m m' hJ e
    cases e
    exact ⟨hJ, i, fun _ => rfl, fun x h => by simp at h, fun l => rfl⟩
  | cons r rs ih =>
    intro i m m' hJ e
    simp only [runSteps] at e
    obtain ⟨i2, h2, e⟩ := bind_eq_ok.mp e
    obtain ⟨m1, h3, e⟩ := bind_eq_ok.mp e
    obtain ⟨hJ', i', k1, k2, k3⟩ := ih i2 m1 m' (data_ready ht hJ h3) e
    refine ⟨hJ', i', fun h => (by cases h), ?_, fun l => ?_⟩
    · intro x hx
      cases rs with
      | nil =>
        simp at hx
        subst hx
        rw [k1 rfl]
        exact h2
      | cons a rs => exact k2 x (by simpa using hx)
    · simp only [List.cons_append, runSteps, h2, bind_ok, h3]
      exact k3 l

/-- A run over `rows` that completes, and what further rows are computed from. -/
theorem simulate_continue {g : Config} (hg : g.Tiled) {rows : List NRec} {m : Model} (e : simulate g rows = .ok m) :
    ∃ c ts i, mkEnv g = .ok c ∧ parse_time_steps g = .ok ts ∧ AccReady m.acc ∧
      (∀ x, rows.getLast? = some x → NInput.new x = .ok i) ∧
      ∀ l, simulate g (rows ++ l) = runSteps c ts g.output_all i l m := by
  cases rows with
  | nil => cases e
  | cons r rs =>
    simp only [simulate] at e
    obtain ⟨ts, h1, e⟩ := bind_eq_ok.mp e
    obtain ⟨i, h2, e⟩ := bind_eq_ok.mp e
    obtain ⟨c, h3, e⟩ := bind_eq_ok.mp e
    obtain ⟨m0, h4, e⟩ := bind_eq_ok.mp e
    have hJ : AccReady m0.acc := by
      unfold mkModel at h4
      obtain ⟨s, _, h4⟩ := bind_eq_ok.mp h4
      cases h4
      exact .inl rfl
    obtain ⟨hJ', i', k1, k2, k3⟩ := runSteps_continue (parse_tile hg h1) rs i m0 m hJ e
    refine ⟨c, ts, i', h3, h1, hJ', ?_, fun l => ?_⟩
    · intro x hx
      cases rs with
      | nil =>
        simp at hx
        subst hx
        rw [k1 rfl]
        exact h2
      | cons a rs => exact k2 x (by simpa using hx)
    · simp only [List.cons_append, simulate, h1, h2, h3, h4, bind_ok]
      exact k3 l

/-! ### The interval before the blank row -/

/-- A run step reads only the precipitation of the deltas. -/
theorem stepPhys_delta {dt : ℝ} {d d' : NInput} (p : Phys) (h1 : d.m_pp = d'.m_pp) (h2 : d.m_snow = d'.m_snow) (h3 : d.m_rain = d'.m_rain)
    (h4 : d.z_snow = d'.z_snow) : stepPhys c dt d p = stepPhys c dt d' p := by
  have : p.input1.update_precip_deltas d = p.input1.update_precip_deltas d' := by
    unfold NInput.update_precip_deltas
    rw [h1, h2, h3, h4]
  unfold stepPhys
  rw [this]

/-- The precipitation deltas of an interval do not depend on the row at its end. -/
theorem delta_next {i1 i2 i3 d : NInput} {t : TstepInfo} (hN : (t.intervals_per_timestep : ℝ) ≠ 0) (h : nDeltaFor i1 i2 t = .ok d) :
    ∃ d', nDeltaFor i1 i3 t = .ok d' ∧ d'.m_pp = d.m_pp ∧ d'.m_snow = d.m_snow ∧ d'.m_rain = d.m_rain ∧ d'.z_snow = d.z_snow := by
  rw [nDeltaFor_eq _ _ _ hN] at h ⊢
  have hd := nnew_ok h
  rw [nnew_eq] at h ⊢
  split at h
  · cases h
  · rename_i hc
    refine ⟨_, if_neg hc, ?_⟩
    rw [hd]
    exact ⟨rfl, rfl, rfl, rfl⟩

theorem deltas_next (ht : TileOK ts) {i1 i2 i3 : NInput} (h : inputDeltas ts i1 i2 = .ok dl) :
    ∃ dl', inputDeltas ts i1 i3 = .ok dl' ∧ (dl' .normal).m_pp = (dl .normal).m_pp ∧ (dl' .normal).m_snow = (dl .normal).m_snow ∧
      (dl' .normal).m_rain = (dl .normal).m_rain ∧ (dl' .normal).z_snow = (dl .normal).z_snow := by
  have hN : ∀ lv, ((ts lv).intervals_per_timestep : ℝ) ≠ 0 := fun lv => by
    have : (0 : ℝ) < (ts lv).intervals_per_timestep := by exact_mod_cast ht.ipt_pos lv
    exact this.ne'
  obtain ⟨a, ha, k⟩ := delta_next (i3 := i3) (hN .normal) (inputDeltas_parts h .normal)
  obtain ⟨b, hb, _⟩ := delta_next (i3 := i3) (hN .medium) (inputDeltas_parts h .medium)
  obtain ⟨d, hd, _⟩ := delta_next (i3 := i3) (hN .small) (inputDeltas_parts h .small)
  exact ⟨_, by unfold inputDeltas; rw [ha, bind_ok, hb, bind_ok, hd, bind_ok]; rfl, k⟩

/-- An interval that is not subdivided does not see the row at its end. -/
theorem data_next (ht : TileOK ts) {i1 i2 i3 : NInput} {m m' : Model} (hb : below_thold (ts .normal).threshold m.phys.snow = false)
    (e : do_data_tstep c ts all i1 i2 m = .ok m') :
    ∃ m'', do_data_tstep c ts all i1 i3 m = .ok m'' ∧ m''.phys.snow = m'.phys.snow ∧ m''.phys.init_ustar = m'.phys.init_ustar ∧
      m''.phys.init_factor = m'.phys.init_factor := by
  unfold do_data_tstep at e
  obtain ⟨dl, hd, e⟩ := bind_eq_ok.mp e
  obtain ⟨dl', hd', k1, k2, k3, k4⟩ := deltas_next ht (i3 := i3) hd
  unfold do_data_tstep
  rw [hd', bind_ok]
  rw [data_tstep_eq] at e ⊢
  unfold Sim.normalBlock at e ⊢
  have hn : ((ts .normal).intervals).toNat = 1 := by rw [ht.n_normal]; rfl
  have hst := stepPhys_delta (c := c) (dt := (ts .normal).time_step) { m.phys with input1 := i1 } k1 k2 k3 k4
  cases hp : stepPhys c (ts .normal).time_step (dl .normal) { m.phys with input1 := i1 } with
  | error x =>
    simp only [snobalSim, hn, iterM, hb, Sim.do_tstep, hp, Bool.false_eq_true, if_false, bind_error] at e
    cases e
  | ok p =>
    rw [hp] at hst
    cases ha : accumulate (ts .normal).time_step p.snow m.acc with
    | error x =>
      simp only [snobalSim, hn, iterM, hb, Sim.do_tstep, hp, ha, Bool.false_eq_true, if_false, bind_ok, bind_error] at e
      cases e
    | ok a =>
      cases hx : snapshot p.snow a.acc (m.current_datetime + (ts .normal).timedelta) with
      | error x =>
        cases all <;>
          simp [snobalSim, hn, iterM, hb, Sim.do_tstep, hp, ha, Sim.output, hx] at e
      | ok r =>
        cases all <;>
          simp [snobalSim, hn, iterM, hb, Sim.do_tstep, hp, ha, Sim.output, hx] at e <;>
          subst e <;>
          simp [snobalSim, hn, iterM, hb, Sim.do_tstep, hst, ha, Sim.output, hx]

end Nan

end

end Pysnobal
