import Verif.Props.Modes
import Verif.Lemmas.WitnessRich

/-! # Cases that meet the hypotheses of C09: runs whose data steps are subdivided -/

namespace Pysnobal

noncomputable section

/-- 100 kg/m² of ripe, saturated snow under a normal threshold of 200 kg/m²: every hour is simulated in
four quarters. -/
def quarterCfg : Config := calmCfg 200 0.01 (1 / 6) 600 1

theorem quiet_add (n : ℝ) :
    quietRec.toInput.add_deltas (deltaRec quietRec.toInput quietRec.toInput n).toInput = quietRec.toInput := by
  simp [InputData.add_deltas, InputData.update_precip_deltas, Rec.toInput, deltaRec, quietRec, calmRec]

theorem iterM_inv {σ : Type} {f : σ → Except Err σ} {Q : ℕ → σ → Prop}
    (h : ∀ k s, Q k s → ∃ s', f s = .ok s' ∧ Q (k + 1) s') (n : ℕ) :
    ∀ k s, Q k s → ∃ s', iterM f n s = .ok s' ∧ Q (k + n) s' := by
  induction n with
  | zero => exact fun k s hs => ⟨s, rfl, hs⟩
  | succ n ih =>
    intro k s hs
    obtain ⟨s1, e1, h1⟩ := h k s hs
    obtain ⟨s2, e2, h2⟩ := ih (k + 1) s1 h1
    refine ⟨s2, ?_, by rw [show k + (n + 1) = k + 1 + n by ring]; exact h2⟩
    show (f s >>= iterM f n) = _
    rw [e1, bind_ok, e2]

/-- A quiet data step of a settled pack between the two thresholds: four quarters, four records. -/
theorem quarter_step {ts : Tsteps} (ht : TileOK ts) {m0 : ℝ} (h1 : m0 < (ts .normal).threshold)
    (h2 : (ts .medium).threshold ≤ m0) {m : Model} (h : Settled 0.01 m0 m.phys)
    (h0 : m.acc.time_since_out = 0) :
    ∃ m', do_data_tstep (calmEnv 0.01) ts true quietRec.toInput quietRec.toInput m = .ok m' ∧
      Settled 0.01 m0 m'.phys ∧ m'.acc.time_since_out = 0 ∧
      m'.output_list.length = m.output_list.length + (ts .medium).intervals.toNat := by
  have hn : InputData.new quietRec = .ok quietRec.toInput := calmRec_new (by norm_num)
  unfold do_data_tstep
  rw [inputDeltas_total ht hn, bind_ok, data_tstep_eq]
  generalize hdl : (fun lv => (deltaRec quietRec.toInput quietRec.toInput ((ts lv).intervals_per_timestep : ℝ)).toInput) = dl
  have hadd : ∀ lv, quietRec.toInput.add_deltas (dl lv) = quietRec.toInput := fun lv => by
    rw [← hdl]; exact quiet_add _
  let Q : ℕ → Model → Prop := fun k st => Settled 0.01 m0 st.phys ∧ st.phys.input1 = quietRec.toInput ∧
    st.acc.time_since_out = 0 ∧ st.output_list.length = m.output_list.length + k
  have hbn : ∀ k st, Q k st → (snobalSim (calmEnv 0.01) ts true dl).below .normal st.phys = true := by
    intro k st hq
    show below_thold _ _ = true
    unfold below_thold
    rw [if_neg (by rw [hq.1.ripe.lc]; norm_num), if_pos hq.1.ripe.lc, hq.1.m]
    simpa using h1
  have hbm : ∀ k st, Q k st → (snobalSim (calmEnv 0.01) ts true dl).below .medium st.phys = false := by
    intro k st hq
    show below_thold _ _ = false
    unfold below_thold
    rw [if_neg (by rw [hq.1.ripe.lc]; norm_num), if_pos hq.1.ripe.lc, hq.1.m]
    simpa using h2
  have hst : ∀ k st, Q k st → ∃ st', (snobalSim (calmEnv 0.01) ts true dl).do_tstep .medium st = .ok st' ∧ Q (k + 1) st' := by
    rintro k st ⟨q1, q2, q3, q4⟩
    obtain ⟨p', k1, k2, _, _, _, _, _, _, k9⟩ := settled_step (dt := (ts .medium).time_step) (dl := dl .medium) q1 q2
    have hp : (snobalSim (calmEnv 0.01) ts true dl).phys .medium st.phys = .ok p' := k1
    have ha0 : AccFor [] st.acc := ⟨by simp, by simp [duration, q3], fun h => absurd rfl h⟩
    obtain ⟨a1, l1, l2⟩ := accumulate_accFor ha0 (ht.step_pos .medium) p'.snow
    have l1' : (snobalSim (calmEnv 0.01) ts true dl).accum .medium p' st.acc = .ok a1 := l1
    obtain ⟨r, hr, _⟩ := snapshot_accFor l2 (by simp) p'.snow (st.current_datetime + (ts .medium).timedelta)
    have hr' : (snobalSim (calmEnv 0.01) ts true dl).snap p' a1 (st.current_datetime +
      (snobalSim (calmEnv 0.01) ts true dl).timedelta .medium) = .ok r := hr
    unfold Sim.do_tstep
    simp only [hp, bind_ok, l1', show (snobalSim (calmEnv 0.01) ts true dl).output_divided = true from rfl, if_true,
      Sim.output, hr']
    refine ⟨_, rfl, ⟨k2.ripe, k2.rho, k2.m, k2.cap, k2.wet, k2.start⟩, ?_, rfl, ?_⟩
    · show p'.input1.add_deltas (dl .medium) = _
      rw [k9, q2, hadd]
    · simp [q4, add_assoc]
  have hb : ∀ k st, Q k st → ∃ st', (snobalSim (calmEnv 0.01) ts true dl).mediumBlock st = .ok st' ∧
      Q (k + (ts .medium).intervals.toNat) st' := by
    unfold Sim.mediumBlock
    refine iterM_inv (fun k st hq => ?_) _
    obtain ⟨st', e, hq'⟩ := hst k st hq
    exact ⟨st', by rw [hbm k st hq]; exact e, hq'⟩
  have hq0 : Q 0 { m with phys := { m.phys with input1 := quietRec.toInput } } :=
    ⟨⟨h.ripe, h.rho, h.m, h.cap, h.wet, h.start⟩, rfl, h0, rfl⟩
  obtain ⟨st', e, q1, q2, q3, q4⟩ := hb 0 _ hq0
  refine ⟨st', ?_, q1, q3, by simpa using q4⟩
  have hno : (snobalSim (calmEnv 0.01) ts true dl).intervals .normal = 1 := ht.n_normal
  unfold Sim.normalBlock
  rw [hno]
  show ((if _ then _ else _ : Except Err Model) >>= pure) >>= _ = _
  rw [hbn 0 _ hq0]
  simp only [if_true]
  rw [e]
  rfl

theorem quarter_start : ∃ s, init_snow (calmEnv 0.01) (recordSnow quarterCfg) = .ok s ∧
    ∀ i, Settled 0.01 100 ⟨s, i, none, none⟩ := by
  have hi := init_calm (thr := 200) (vol := 0.01) (z := 1 / 6) (rho := 600) (sat := 1)
    (d := (600 - 1 * 0.01 * RHO_W0) / (1 - 1 * 0.01 * RHO_W0 / RHO_ICE)) (by norm_num) (by norm_num) (by norm_num)
    (by norm_num [RHO_W0, RHO_ICE]) rfl
  refine ⟨_, hi, fun i => ⟨⟨?_, rfl, rfl, ?_, ?_, rfl, rfl, rfl, rfl, rfl, rfl, rfl⟩, ?_, ?_, ?_, ?_, .inl ⟨rfl, rfl⟩⟩⟩ <;>
    norm_num [h2o_left, RHO_W0, RHO_ICE]

/-- `n + 1` quiet hours in mode `all`: four records for each. -/
theorem quarter_run (n : ℕ) : ∃ m, simulate { quarterCfg with output_all := true } (List.replicate (n + 2) quietRec) = .ok m ∧
    Settled 0.01 100 m.phys ∧ m.output_list.length = 4 * (n + 1) := by
  have hg : quarterCfg.Tiled := calmCfg_tiled _ _ _ _ _
  obtain ⟨ts, hts⟩ := parse_of_ne (g := quarterCfg) (by norm_num [quarterCfg, calmCfg, defaultSteps])
    (by norm_num [quarterCfg, calmCfg, defaultSteps])
  have ht := parse_tile hg hts
  obtain ⟨t1, t2, _⟩ := parse_threshold hts
  have hni : (ts .medium).intervals.toNat = 4 := by
    obtain ⟨_, _, _, e2, _⟩ := parse_ok hts
    rw [e2]
    norm_num [quarterCfg, calmCfg, defaultSteps]
    rfl
  have hn : InputData.new quietRec = .ok quietRec.toInput := calmRec_new (by norm_num)
  have hc : mkEnv quarterCfg = .ok (calmEnv 0.01) := calmCfg_env _ _ _ _ _
  obtain ⟨s0, hs0, hset⟩ := quarter_start
  have key : ∀ k (m : Model), Settled 0.01 100 m.phys → m.acc.time_since_out = 0 →
      ∃ m', runSteps (calmEnv 0.01) ts true quietRec.toInput (List.replicate k quietRec) m = .ok m' ∧
        Settled 0.01 100 m'.phys ∧ m'.output_list.length = m.output_list.length + 4 * k := by
    intro k
    induction k with
    | zero => exact fun m h h0 => ⟨m, rfl, h, rfl⟩
    | succ k ih =>
      intro m h h0
      obtain ⟨m1, e1, k1, k2, k3⟩ := quarter_step ht (m0 := 100) (by rw [t1]; norm_num [quarterCfg, calmCfg])
        (by rw [t2]; norm_num [quarterCfg, calmCfg, defaultSteps]) h h0
      obtain ⟨m2, e2, l1, l2⟩ := ih m1 k1 k2
      refine ⟨m2, ?_, l1, by rw [l2, k3, hni]; ring⟩
      rw [List.replicate_succ]
      unfold runSteps
      rw [hn, bind_ok, e1, bind_ok, e2]
  have hm : ∃ m0, mkModel quarterCfg (calmEnv 0.01) quietRec.toInput = .ok m0 ∧ Settled 0.01 100 m0.phys := by
    unfold mkModel
    rw [hs0, bind_ok]
    exact ⟨_, rfl, hset _⟩
  obtain ⟨m0, em, hs⟩ := hm
  obtain ⟨_, o0, p0, _⟩ := mkModel_ok em
  obtain ⟨m, e, k1, k2⟩ := key (n + 1) m0 hs p0
  refine ⟨m, ?_, k1, by rw [k2, o0]; simp⟩
  rw [List.replicate_succ]
  unfold simulate
  dsimp only
  rw [show parse_time_steps { quarterCfg with output_all := true } = parse_time_steps quarterCfg from rfl, hts,
    bind_ok, hn, bind_ok, show mkEnv { quarterCfg with output_all := true } = mkEnv quarterCfg from rfl, hc, bind_ok,
    show mkModel { quarterCfg with output_all := true } (calmEnv 0.01) quietRec.toInput =
      mkModel quarterCfg (calmEnv 0.01) quietRec.toInput from rfl, em, bind_ok, e]

/-- C09: the quiet hours in both modes. -/
example (n : ℕ) : ∃ a b, ∃ blocks : List (List ℤ × List OutRec),
    simulate { quarterCfg with output_all := true } (List.replicate (n + 2) quietRec) = .ok a ∧
    simulate { quarterCfg with output_all := false } (List.replicate (n + 2) quietRec) = .ok b ∧
    a.output_list.length = 4 * (n + 1) ∧ a.phys = b.phys ∧ a.output_list = (blocks.map (·.2)).flatten ∧
    List.Forall₂ Block blocks b.output_list := by
  obtain ⟨a, ha, _, hl⟩ := quarter_run n
  have := C09_run_records quarterCfg (calmCfg_tiled _ _ _ _ _) (List.replicate (n + 2) quietRec)
  rw [ha] at this
  cases hb : simulate { quarterCfg with output_all := false } (List.replicate (n + 2) quietRec) with
  | error e => rw [hb] at this; exact this.elim
  | ok b =>
    rw [hb] at this
    obtain ⟨h1, _, bl, h2, _, h3⟩ := this
    exact ⟨a, b, bl, ha, rfl, hl, h1, h2, h3⟩

end

end Pysnobal
