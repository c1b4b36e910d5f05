import Verif.Props.Shift
import Verif.Props.Subdivision
import Verif.Lemmas.OneStep

/-! # C91: the finer time steps matter only to thin layers -/

namespace Pysnobal

noncomputable section

/-! ## Specification -/

/-- The same configuration with other medium and small time steps, another medium threshold and another output mode. -/
def Config.withLevels (g : Config) (medium small : ℤ) (medium_threshold : ℝ) (all : Bool) : Config :=
  { g with medium_time_step := medium, small_time_step := small, medium_threshold := medium_threshold, output_all := all }

/-- Whenever the next record is processed, no snow layer is lighter than the normal threshold. -/
def NeverThin (g : Config) (rows : List Rec) : Prop :=
  ∀ a b, rows = a ++ b → b ≠ [] → ∀ m, simulate g a = .ok m → m.phys.snow.NoThinLayer g.norm_threshold

/-! ## Proof -/

/-- What a data step that is not subdivided leaves. -/
def normalStep (t : TstepInfo) (m : Model) (d : InputData) (p' : Phys) : Model :=
  { phys := { p' with input1 := p'.input1.add_deltas d }
    acc := { acc := Acc.value_to_bar p'.snow m.acc.acc, time_since_out := 0 }
    current_datetime := m.current_datetime + t.timedelta
    output_list := m.output_list ++ [recordOf p'.snow (m.current_datetime + t.timedelta)] }

theorem do_data_normal_eq {c : Env} {ts : Tsteps} (ht : TileOK ts) {all : Bool} {r1 : Rec}
    {i1 i2 : InputData} (n1 : InputData.new r1 = .ok i1) {m : Model} (h0 : m.acc.time_since_out = 0)
    (hb : below_thold (ts .normal).threshold m.phys.snow = false) :
    do_data_tstep c ts all i1 i2 m =
      (stepPhys c (ts .normal).time_step (deltaRec i1 i2 1).toInput { m.phys with input1 := i1 }).map
        (normalStep (ts .normal) m (deltaRec i1 i2 1).toInput) := by
  cases hp : stepPhys c (ts .normal).time_step (deltaRec i1 i2 1).toInput { m.phys with input1 := i1 } with
  | ok p' => exact do_data_normal ht n1 h0 hb hp
  | error e =>
    unfold do_data_tstep
    rw [inputDeltas_total ht n1 i2, bind_ok, data_tstep_eq]
    unfold Sim.normalBlock
    have hn : ((ts .normal).intervals).toNat = 1 := by rw [ht.n_normal]; rfl
    have hd : (((ts .normal).intervals_per_timestep : ℤ) : ℝ) = 1 := by rw [ht.ipt_normal]; norm_num
    simp [snobalSim, hn, iterM, hb, Sim.do_tstep, hd, hp, Except.map]

theorem runSteps_levels {c : Env} {ts ts' : Tsteps} (ht : TileOK ts) (ht' : TileOK ts') (hn : ts' .normal = ts .normal) (all all' : Bool) :
    ∀ (rs : List Rec) (r1 : Rec) (i1 : InputData) (m : Model), InputData.new r1 = .ok i1 → m.acc.time_since_out = 0 →
      (∀ a b, rs = a ++ b → b ≠ [] → ∀ m1, runSteps c ts all i1 a m = .ok m1 → below_thold (ts .normal).threshold m1.phys.snow = false) →
      runSteps c ts' all' i1 rs m = runSteps c ts all i1 rs m := by
  intro rs
  induction rs with
  | nil => intros; rfl
  | cons r rs ih =>
    intro r1 i1 m n1 h0 hb
    unfold runSteps
    cases n2 : InputData.new r with
    | error e => rfl
    | ok i2 =>
      rw [bind_ok, bind_ok]
      have hb0 := hb [] (r :: rs) rfl (by simp) m rfl
      have e : do_data_tstep c ts' all' i1 i2 m = do_data_tstep c ts all i1 i2 m := by
        rw [do_data_normal_eq ht n1 h0 hb0, do_data_normal_eq ht' n1 h0 (by rw [hn]; exact hb0), hn]
      rw [e]
      cases e1 : do_data_tstep c ts all i1 i2 m with
      | error e => rfl
      | ok m1 =>
        rw [bind_ok, bind_ok]
        refine ih r i2 m1 n2 ?_ ?_
        · rw [do_data_normal_eq ht n1 h0 hb0] at e1
          cases hp : stepPhys c (ts .normal).time_step (deltaRec i1 i2 1).toInput { m.phys with input1 := i1 } with
          | error e => rw [hp] at e1; cases e1
          | ok p' => rw [hp] at e1; cases e1; rfl
        · intro a b hab hb' m2 h2
          refine hb (r :: a) b (by rw [hab]; rfl) hb' m2 ?_
          unfold runSteps
          rw [n2, bind_ok, e1, bind_ok]
          exact h2

/-- C91: take a table during whose simulation no snow layer is lighter than the normal threshold whenever a record is processed.  Then the medium and
small time steps, the medium threshold and the output mode make no difference at all: the simulation has the same outcome, with the same
records and the same state in the end, or the same exception. -/
theorem C91_finer_levels_unused (g : Config) (hg : g.Tiled) (medium small : ℤ) (thr : ℝ) (all : Bool)
    (hg' : (g.withLevels medium small thr all).Tiled) (rows : List Rec) (hn : NeverThin g rows) :
    simulate (g.withLevels medium small thr all) rows = simulate g rows := by
  cases rows with
  | nil => rfl
  | cons r rs =>
    obtain ⟨ts, hts⟩ := parse_of_ne (g := g) hg.2.1.ne' hg.2.2.1.ne'
    obtain ⟨ts', hts'⟩ := parse_of_ne (g := g.withLevels medium small thr all) hg'.2.1.ne' hg'.2.2.1.ne'
    have ht := parse_tile hg hts
    have ht' := parse_tile hg' hts'
    obtain ⟨_, _, e1, _⟩ := parse_ok hts
    obtain ⟨_, _, e1', _⟩ := parse_ok hts'
    have hnn : ts' .normal = ts .normal := e1'.trans e1.symm
    unfold simulate
    dsimp only
    rw [hts, hts', bind_ok, bind_ok]
    cases n1 : InputData.new r with
    | error e => rfl
    | ok i1 =>
      rw [bind_ok, bind_ok]
      rw [show mkEnv (g.withLevels medium small thr all) = mkEnv g from rfl]
      cases hc : mkEnv g with
      | error e => rfl
      | ok c =>
        rw [bind_ok, bind_ok]
        rw [show mkModel (g.withLevels medium small thr all) c i1 = mkModel g c i1 from rfl]
        cases hm : mkModel g c i1 with
        | error e => rfl
        | ok m0 =>
          rw [bind_ok, bind_ok]
          refine runSteps_levels ht ht' hnn g.output_all all rs r i1 m0 n1 (mkModel_ok hm).2.2.1 ?_
          intro a b hab hb m1 h1
          have : (ts .normal).threshold = g.norm_threshold := by rw [e1]
          rw [this]
          refine below_of_noThin (hn (r :: a) b (by rw [hab]; rfl) hb m1 ?_)
          unfold simulate
          dsimp only
          rw [hts, bind_ok, n1, bind_ok, hc, bind_ok, hm, bind_ok]
          exact h1

theorem runs_head {c : Env} {ts : Tsteps} {all : Bool} {dl : Level → InputData} {st st' : Model} {l : List (RStep Phys)}
    (h : (snobalSim c ts all dl).Runs st l st') : ∀ x tl, l = x :: tl → x.pre.snow = st.phys.snow := by
  induction h with
  | nil => intro x tl h; cases h
  | @enter st st' l _ ih =>
    intro x tl h
    rw [ih x tl h]
    show (if st.phys.input1.precip_now then _ else _ : Phys).snow = _
    split <;> rfl
  | step _ _ _ _ _ =>
    intro x tl h
    cases h
    rfl

theorem dataSteps_levels {g : Config} (hg : g.Tiled) {c : Env} {ts ts' : Tsteps} (hts : parse_time_steps g = .ok ts) (ht' : TileOK ts')
    (hn : ts' .normal = ts .normal) {all all' : Bool} {i1 : InputData} {rs : List Rec} {m m' : Model} {ls : List (List (RStep Phys))}
    (h : DataSteps c ts all i1 rs m ls m') (hl : ∀ l ∈ ls, ∀ x ∈ l, x.lv = .normal) : ∀ r1, InputData.new r1 = .ok i1 → m.acc.time_since_out = 0 →
      runSteps c ts' all' i1 rs m = .ok m' := by
  have ht := parse_tile hg hts
  induction h with
  | nil => intros; rfl
  | @cons i1 i2 r rs m m1 m' l ls k1 k2 k3 k4 ih =>
    intro r1 n1 h0
    have hb : below_thold (ts .normal).threshold m.phys.snow = false := by
      obtain ⟨dl, mid, _, hr, _⟩ := k3.parts
      rw [(parse_threshold hts).1]
      rcases executed_interval hg hts k3 with ⟨x, rfl, _, h2⟩ | ⟨_, bs, rfl, hbs, hlen⟩
      · rw [← show x.pre.snow = m.phys.snow from runs_head hr x [] rfl]
        exact not_below_thin.mpr h2
      · exfalso
        cases bs with
        | nil =>
          have := hg.1
          simp at hlen
          omega
        | cons b bs =>
          have hlb : ∀ x ∈ b, x.lv = .normal := fun x hx => hl _ List.mem_cons_self x (by simp [hx])
          rcases hbs b (by simp) with ⟨x, rfl, h1, _⟩ | ⟨⟨x, h1, _⟩, h2, _⟩
          · rw [hlb x (by simp)] at h1; cases h1
          · have hx : x ∈ b := List.mem_of_head? h1
            have := (hlb x hx).symm.trans (h2 x hx)
            cases this
    unfold runSteps
    rw [k1, bind_ok]
    have e : do_data_tstep c ts' all' i1 i2 m = do_data_tstep c ts all i1 i2 m := by
      rw [do_data_normal_eq ht n1 h0 hb, do_data_normal_eq ht' n1 h0 (by rw [hn]; exact hb), hn]
    rw [e, k2, bind_ok]
    refine ih (fun l' hl' => hl l' (by simp [hl'])) r k1 ?_
    rw [do_data_normal_eq ht n1 h0 hb] at k2
    cases hp : stepPhys c (ts .normal).time_step (deltaRec i1 i2 1).toInput { m.phys with input1 := i1 } with
    | error e => rw [hp] at k2; cases k2
    | ok p' => rw [hp] at k2; cases k2; rfl

/-- C91, in terms of the run steps: if a run is completed without subdividing any data step, then with any other medium and small time steps,
any medium threshold and either output mode it is completed as well, with the same records and the same state in the end. -/
theorem C91_undivided_run (g : Config) (hg : g.Tiled) (medium small : ℤ) (thr : ℝ) (all : Bool)
    (hg' : (g.withLevels medium small thr all).Tiled) (rows : List Rec) (ls : List (List (RStep Phys))) (m : Model)
    (h : RunTrace g rows ls m) (hl : ∀ l ∈ ls, ∀ x ∈ l, x.lv = .normal) : simulate (g.withLevels medium small thr all) rows = .ok m := by
  obtain ⟨c, ts, i1, m0, r, rs, rfl, e1, e2, e3, e4, e5⟩ := h
  obtain ⟨ts', hts'⟩ := parse_of_ne (g := g.withLevels medium small thr all) hg'.2.1.ne' hg'.2.2.1.ne'
  obtain ⟨_, _, f1, _⟩ := parse_ok e1
  obtain ⟨_, _, f1', _⟩ := parse_ok hts'
  unfold simulate
  dsimp only
  rw [hts', bind_ok, e3, bind_ok, show mkEnv (g.withLevels medium small thr all) = mkEnv g from rfl, e2, bind_ok,
    show mkModel (g.withLevels medium small thr all) c i1 = mkModel g c i1 from rfl, e4, bind_ok]
  exact dataSteps_levels hg e1 (parse_tile hg' hts') (f1'.trans f1.symm) e5 hl r e3 (mkModel_ok e4).2.2.1

end

end Pysnobal
