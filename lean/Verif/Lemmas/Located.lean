import Verif.Lemmas.OneStep
import Verif.Props.Pack

/-! # Where an exception comes from

For an arbitrary `Sim` whose accumulators never fail once they are in order: a data step either completes or
stops in the physics of one run step, and the levels of the run steps up to and including that one begin a tiling
of the data step. -/

namespace Pysnobal

variable {π α ρ : Type}

/-- Accumulators that never raise: `J` holds between data steps, `J'` after a run step. -/
structure AccSafe (K : Sim π α ρ) (J J' : α → Prop) : Prop where
  accum : ∀ lv p a, J a → ∃ a', K.accum lv p a = .ok a' ∧ J' a'
  snap : ∀ p a t, J' a → ∃ r, K.snap p a t = .ok r
  weak : ∀ a, J' a → J a
  reset : ∀ a, J' a → J (K.reset a)

/-- What holds of the accumulators after a run step. -/
def AfterStep (K : Sim π α ρ) (J J' : α → Prop) (a : α) : Prop :=
  if K.output_divided then J a else J' a

/-- From `st` the run steps `l` are executed, the next one is of level `lv`, and its physics raises `e`;
`rest` completes the levels to a sequence satisfying `P`. -/
structure Sim.Stops (K : Sim π α ρ) (st : SimSt π α ρ) (l : List (RStep π)) (mid : SimSt π α ρ) (lv : Level)
    (rest : List Level) (P : List Level → Prop) (e : Err) : Prop where
  runs : K.Runs st l mid
  thick : lv = .small ∨ K.below lv mid.phys = false
  raises : K.phys lv mid.phys = .error e
  tiles : P (l.map (·.lv) ++ lv :: rest)

/-- A part of the time stepping either completes or stops in the physics of a run step. -/
def Sim.Located (K : Sim π α ρ) (Q : α → Prop) (P : List Level → Prop) (st : SimSt π α ρ)
    (r : Except Err (SimSt π α ρ)) : Prop :=
  (∃ st', r = .ok st' ∧ Q st'.acc) ∨
    ∃ e l mid lv rest, r = .error e ∧ K.Stops st l mid lv rest P e

theorem AccSafe.after {K : Sim π α ρ} {J J' : α → Prop} (h : AccSafe K J J') {a : α}
    (ha : AfterStep K J J' a) : J a := by
  unfold AfterStep at ha
  split at ha
  · exact ha
  · exact h.weak a ha

theorem do_tstep_located {K : Sim π α ρ} {J J' : α → Prop} (hs : AccSafe K J J') {lv : Level}
    {st : SimSt π α ρ} (hJ : J st.acc) (hb : lv = .small ∨ K.below lv st.phys = false) :
    K.Located (AfterStep K J J') (fun l => l = [lv]) st (K.do_tstep lv st) := by
  unfold Sim.do_tstep
  cases hp : K.phys lv st.phys with
  | error e => exact .inr ⟨e, [], st, lv, [], rfl, ⟨.nil _, hb, hp, rfl⟩⟩
  | ok p =>
    obtain ⟨a, ha, hJ'⟩ := hs.accum lv p st.acc hJ
    rw [bind_ok, ha, bind_ok]
    left
    cases ho : K.output_divided
    · refine ⟨_, rfl, ?_⟩
      unfold AfterStep
      rw [ho]
      exact hJ'
    · simp only [if_true]
      unfold Sim.output
      obtain ⟨r, hr⟩ := hs.snap p a (st.current_datetime + K.timedelta lv) hJ'
      dsimp only
      rw [hr, bind_ok, pure_ok, bind_ok, pure_ok]
      refine ⟨_, rfl, ?_⟩
      unfold AfterStep
      rw [ho]
      exact hs.reset a hJ'

theorem Blocks.one_more {P : List Level → Prop} {k : ℕ} {w : List Level} (hw : P w) : Blocks P k (List.replicate k w).flatten :=
  ⟨List.replicate k w, by simp, fun b hb => by rw [List.eq_of_mem_replicate hb]; exact hw, rfl⟩

theorem iterM_located {K : Sim π α ρ} {Q J : α → Prop} {P : List Level → Prop}
    {f : SimSt π α ρ → Except Err (SimSt π α ρ)} (hQ : ∀ a, Q a → J a)
    (hf : ∀ s, J s.acc → K.Located Q P s (f s)) (hr : ∀ s s', f s = .ok s' → ∃ l, K.Runs s l s' ∧ P (l.map (·.lv)))
    {w : List Level} (hw : P w) :
    ∀ (n : ℕ) (s : SimSt π α ρ), J s.acc → K.Located Q (Blocks P (n + 1)) s (iterM f (n + 1) s) := by
  intro n
  induction n with
  | zero =>
    intro s hJ
    simp only [iterM]
    rcases hf s hJ with ⟨s', h1, h2⟩ | ⟨e, l, mid, lv, rest, h1, h2⟩
    · rw [h1, bind_ok]; exact .inl ⟨s', rfl, h2⟩
    · rw [h1]
      refine .inr ⟨e, l, mid, lv, rest, rfl, h2.runs, h2.thick, h2.raises, ?_⟩
      have := Blocks.succ h2.tiles (Blocks.zero (P := P))
      simpa using this
  | succ n ih =>
    intro s hJ
    rw [iterM]
    rcases hf s hJ with ⟨s', h1, h2⟩ | ⟨e, l, mid, lv, rest, h1, h2⟩
    · rw [h1, bind_ok]
      obtain ⟨l1, r1, p1⟩ := hr _ _ h1
      rcases ih s' (hQ _ h2) with h | ⟨e, l, mid, lv, rest, h3, h4⟩
      · exact .inl h
      · refine .inr ⟨e, l1 ++ l, mid, lv, rest, h3, r1.append h4.runs, h4.thick, h4.raises, ?_⟩
        have := Blocks.succ p1 h4.tiles
        simpa [List.append_assoc] using this
    · rw [h1]
      refine .inr ⟨e, l, mid, lv, rest ++ (List.replicate (n + 1) w).flatten, rfl, h2.runs, h2.thick, h2.raises, ?_⟩
      have := Blocks.succ h2.tiles (Blocks.one_more (k := n + 1) hw)
      simpa [List.append_assoc] using this

theorem blocks_single {lv : Level} {n : ℕ} {l : List Level} (h : Blocks (fun l => l = [lv]) n l) :
    l = List.replicate n lv := by
  obtain ⟨bs, h1, h2, h3⟩ := h
  rw [h3, ← h1]
  clear h1 h3
  induction bs with
  | nil => rfl
  | cons b bs ih =>
    rw [List.flatten_cons, h2 b (by simp), ih (fun c hc => h2 c (by simp [hc]))]
    rfl

theorem smallBlock_located {K : Sim π α ρ} {J J' : α → Prop} (hs : AccSafe K J J')
    (hn : 0 < (K.intervals .small).toNat) {st : SimSt π α ρ} (hJ : J st.acc) :
    K.Located (AfterStep K J J') (fun l => l = List.replicate (K.intervals .small).toNat .small) st
      (K.smallBlock st) := by
  unfold Sim.smallBlock
  obtain ⟨n, hn'⟩ : ∃ n, (K.intervals .small).toNat = n + 1 := ⟨_, (Nat.succ_pred_eq_of_pos hn).symm⟩
  rw [hn']
  have := iterM_located (K := K) (Q := AfterStep K J J') (J := J) (P := fun l => l = [Level.small])
    (f := K.do_tstep .small) (fun a => hs.after)
    (fun s h => do_tstep_located hs h (.inl rfl)) (fun s s' h => by
      obtain ⟨p, _, r⟩ := Sim.Runs.single (.inl rfl) h
      exact ⟨_, r, rfl⟩) (w := [.small]) rfl n { st with phys := K.enter .small st.phys } hJ
  rcases this with h | ⟨e, l, mid, lv, rest, h1, h2⟩
  · exact .inl h
  · exact .inr ⟨e, l, mid, lv, rest, h1, .enter h2.runs, h2.thick, h2.raises, blocks_single h2.tiles⟩

theorem mediumBlock_located {K : Sim π α ρ} {J J' : α → Prop} (hs : AccSafe K J J')
    (hn : 0 < (K.intervals .small).toNat) (hm : 0 < (K.intervals .medium).toNat) {st : SimSt π α ρ}
    (hJ : J st.acc) :
    K.Located (AfterStep K J J') (Blocks (IsMediumInterval (K.intervals .small).toNat)
      (K.intervals .medium).toNat) st (K.mediumBlock st) := by
  unfold Sim.mediumBlock
  obtain ⟨n, hn'⟩ : ∃ n, (K.intervals .medium).toNat = n + 1 := ⟨_, (Nat.succ_pred_eq_of_pos hm).symm⟩
  rw [hn']
  refine iterM_located (K := K) (Q := AfterStep K J J') (J := J)
    (P := IsMediumInterval (K.intervals .small).toNat) (fun a => hs.after) (fun s h => ?_) (fun s s' h => ?_)
    (w := [.medium]) (.inl rfl) n st hJ
  · by_cases hb : K.below .medium s.phys
    · simp only [hb, if_true]
      rcases smallBlock_located hs hn h with k | ⟨e, l, mid, lv, rest, h1, h2⟩
      · exact .inl k
      · exact .inr ⟨e, l, mid, lv, rest, h1, h2.runs, h2.thick, h2.raises, .inr h2.tiles⟩
    · simp only [hb, Bool.false_eq_true, if_false]
      rcases do_tstep_located hs h (.inr (by simpa using hb)) with k | ⟨e, l, mid, lv, rest, h1, h2⟩
      · exact .inl k
      · exact .inr ⟨e, l, mid, lv, rest, h1, h2.runs, h2.thick, h2.raises, .inl h2.tiles⟩
  · by_cases hb : K.below .medium s.phys
    · simp only [hb, if_true] at h
      obtain ⟨l, r, hl⟩ := smallBlock_runs h
      exact ⟨l, r, .inr hl⟩
    · simp only [hb, Bool.false_eq_true, if_false] at h
      obtain ⟨p, _, r⟩ := Sim.Runs.single (.inr (by simpa using hb)) h
      exact ⟨_, r, .inl rfl⟩

theorem normalBlock_located {K : Sim π α ρ} {J J' : α → Prop} (hs : AccSafe K J J')
    (hn : 0 < (K.intervals .small).toNat) (hm : 0 < (K.intervals .medium).toNat)
    (hN : 0 < (K.intervals .normal).toNat) {st : SimSt π α ρ} (hJ : J st.acc) :
    K.Located (AfterStep K J J') (IsDataStep (K.intervals .normal).toNat (K.intervals .medium).toNat
      (K.intervals .small).toNat) st (K.normalBlock st) := by
  unfold Sim.normalBlock IsDataStep
  obtain ⟨n, hn'⟩ : ∃ n, (K.intervals .normal).toNat = n + 1 := ⟨_, (Nat.succ_pred_eq_of_pos hN).symm⟩
  rw [hn']
  refine iterM_located (K := K) (Q := AfterStep K J J') (J := J)
    (P := IsNormalInterval (K.intervals .medium).toNat (K.intervals .small).toNat) (fun a => hs.after)
    (fun s h => ?_) (fun s s' h => ?_) (w := [.normal]) (.inl rfl) n st hJ
  · by_cases hb : K.below .normal s.phys
    · simp only [hb, if_true]
      rcases mediumBlock_located hs hn hm h with k | ⟨e, l, mid, lv, rest, h1, h2⟩
      · exact .inl k
      · exact .inr ⟨e, l, mid, lv, rest, h1, h2.runs, h2.thick, h2.raises, .inr h2.tiles⟩
    · simp only [hb, Bool.false_eq_true, if_false]
      rcases do_tstep_located hs h (.inr (by simpa using hb)) with k | ⟨e, l, mid, lv, rest, h1, h2⟩
      · exact .inl k
      · exact .inr ⟨e, l, mid, lv, rest, h1, h2.runs, h2.thick, h2.raises, .inl h2.tiles⟩
  · by_cases hb : K.below .normal s.phys
    · simp only [hb, if_true] at h
      obtain ⟨l, r, hl⟩ := mediumBlock_runs h
      exact ⟨l, r, .inr hl⟩
    · simp only [hb, Bool.false_eq_true, if_false] at h
      obtain ⟨p, _, r⟩ := Sim.Runs.single (.inr (by simpa using hb)) h
      exact ⟨_, r, .inl rfl⟩

/-- A data step completes or stops in the physics of a run step. -/
theorem data_tstep_located {K : Sim π α ρ} {J J' : α → Prop} (hs : AccSafe K J J')
    (hn : 0 < (K.intervals .small).toNat) (hm : 0 < (K.intervals .medium).toNat)
    (hN : 0 < (K.intervals .normal).toNat) {st : SimSt π α ρ} (hJ : J st.acc) :
    K.Located J (IsDataStep (K.intervals .normal).toNat (K.intervals .medium).toNat
      (K.intervals .small).toNat) st (K.data_tstep st) := by
  rw [data_tstep_eq]
  rcases normalBlock_located hs hn hm hN hJ with ⟨s, h1, h2⟩ | ⟨e, l, mid, lv, rest, h1, h2⟩
  · rw [h1, bind_ok]
    left
    cases ho : K.output_divided
    · simp only [if_true]
      have h2' : J' s.acc := by
        unfold AfterStep at h2
        rw [ho] at h2
        exact h2
      unfold Sim.output
      obtain ⟨r, hr⟩ := hs.snap s.phys s.acc s.current_datetime h2'
      rw [hr, bind_ok, pure_ok]
      exact ⟨_, rfl, hs.reset _ h2'⟩
    · simp only [Bool.true_eq_false, if_false]
      exact ⟨s, rfl, hs.after h2⟩
  · rw [h1]
    exact .inr ⟨e, l, mid, lv, rest, rfl, h2⟩

noncomputable section

/-- The accumulators of `Snobal` between records. -/
def AccReady (a : AccT) : Prop := a.time_since_out = 0 ∨ 0 < a.time_since_out ∧ ∃ x, a.acc.swi_sum = some x

theorem energy_average_prog {b v : Energy} {t dt : ℝ} (h : t + dt ≠ 0) : ∃ e, Energy.average b v t dt = .ok e := by
  unfold Energy.average time_average
  simp only [pdiv_of_ne h, bind_ok]
  exact ⟨_, rfl⟩

theorem snobal_accSafe {c : Env} {ts : Tsteps} (ht : TileOK ts) {all : Bool} {dl : Level → InputData} :
    AccSafe (snobalSim c ts all dl) AccReady (fun a => 0 < a.time_since_out ∧ ∃ x, a.acc.swi_sum = some x) where
  accum := by
    intro lv p a ha
    show ∃ a', accumulate (ts lv).time_step p.snow a = .ok a' ∧ _
    have hdt := ht.step_pos lv
    unfold accumulate
    by_cases h : a.time_since_out > 0
    · rw [if_pos h]
      rcases ha with h0 | ⟨_, x, hx⟩
      · linarith
      · unfold Acc.time_average
        obtain ⟨b, hb⟩ := energy_average_prog (b := a.acc.bar) (v := p.snow.en) (t := a.time_since_out)
          (dt := (ts lv).time_step) (by linarith)
        rw [hb, bind_ok, hx]
        dsimp only
        rw [pure_ok, bind_ok, pure_ok]
        exact ⟨_, rfl, by dsimp only; linarith, _, rfl⟩
    · rw [if_neg h]
      exact ⟨_, rfl, hdt, _, rfl⟩
  snap := by
    rintro p a t ⟨_, x, hx⟩
    show ∃ r, snapshot p.snow a.acc t = .ok r
    unfold snapshot
    rw [hx]
    exact ⟨_, rfl⟩
  weak := fun a h => .inr h
  reset := fun a _ => .inl rfl

/-- During the data step from record `i1` to `i2`, starting with the object `m`, the run steps `l` are executed;
the next run step, of level `lv`, starts from `mid` and its physics raises `e`.  `rest` are levels with which the
data step could have gone on. -/
structure StepRaises (c : Env) (ts : Tsteps) (all : Bool) (i1 i2 : InputData) (m : Model)
    (l : List (RStep Phys)) (mid : Model) (lv : Level) (d : InputData) (rest : List Level) (e : Err) : Prop where
  delta : deltaFor i1 i2 (ts lv) = .ok d
  runs : ∃ dl, inputDeltas ts i1 i2 = .ok dl ∧
    (snobalSim c ts all dl).Runs { m with phys := { m.phys with input1 := i1 } } l mid
  thick : lv = .small ∨ below_thold (ts lv).threshold mid.phys.snow = false
  raises : stepPhys c (ts lv).time_step d mid.phys = .error e
  tiles : IsDataStep (ts .normal).intervals.toNat (ts .medium).intervals.toNat (ts .small).intervals.toNat
    (l.map (·.lv) ++ lv :: rest)

theorem do_data_located {c : Env} {ts : Tsteps} (ht : TileOK ts) {all : Bool} {r1 : Rec} {i1 i2 : InputData}
    (n1 : InputData.new r1 = .ok i1) {m : Model} (hJ : AccReady m.acc) :
    (∃ m', do_data_tstep c ts all i1 i2 m = .ok m' ∧ AccReady m'.acc) ∨
      ∃ e l mid lv d rest, do_data_tstep c ts all i1 i2 m = .error e ∧
        StepRaises c ts all i1 i2 m l mid lv d rest e := by
  have hdl := inputDeltas_total ht n1 i2
  unfold do_data_tstep
  rw [hdl, bind_ok]
  rcases data_tstep_located (snobal_accSafe ht) (K := snobalSim c ts all _) (by simpa [snobalSim] using ht.s_pos)
    (by simpa [snobalSim] using ht.m_pos) (by simp [snobalSim, ht.n_normal])
    (st := { m with phys := { m.phys with input1 := i1 } }) hJ with h | ⟨e, l, mid, lv, rest, h1, h2⟩
  · exact .inl h
  · exact .inr ⟨e, l, mid, lv, _, rest, h1, inputDeltas_ok hdl lv, ⟨_, hdl, h2.runs⟩, h2.thick, h2.raises, h2.tiles⟩

/-- The loop of `PySnobal.run` completes or stops in the physics of a run step. -/
theorem runSteps_located {c : Env} {ts : Tsteps} (ht : TileOK ts) {all : Bool} :
    ∀ (rs : List Rec) (r1 : Rec) (i1 : InputData) (m : Model), InputData.new r1 = .ok i1 →
      (∀ r ∈ rs, ∃ i, InputData.new r = .ok i) → AccReady m.acc →
      (∃ m', runSteps c ts all i1 rs m = .ok m') ∨
      ∃ (e : Err) (k : ℕ) (hk : k < rs.length) (i j : InputData) (m1 : Model) (l : List (RStep Phys)) (mid : Model)
        (lv : Level) (d : InputData) (rest : List Level),
        runSteps c ts all i1 rs m = .error e ∧ runSteps c ts all i1 (rs.take k) m = .ok m1 ∧
        InputData.new ((r1 :: rs)[k]'(by simp; omega)) = .ok i ∧ InputData.new rs[k] = .ok j ∧
        do_data_tstep c ts all i j m1 = .error e ∧ StepRaises c ts all i j m1 l mid lv d rest e := by
  intro rs
  induction rs with
  | nil => exact fun _ i1 m _ _ _ => .inl ⟨m, rfl⟩
  | cons r rs ih =>
    intro r1 i1 m n1 hr hJ
    obtain ⟨i2, n2⟩ := hr r (by simp)
    rcases do_data_located ht (c := c) (all := all) (i2 := i2) n1 hJ with ⟨m1, h1, hJ1⟩ | ⟨e, l, mid, lv, d, rest, h1, h2⟩
    · rcases ih r i2 m1 n2 (fun x hx => hr x (by simp [hx])) hJ1 with ⟨m', h⟩ | ⟨e, k, hk, i, j, m2, l, mid, lv, d, rest, h2, h3, h4, h5, h6, h7⟩
      · left
        refine ⟨m', ?_⟩
        unfold runSteps
        rw [n2, bind_ok, h1, bind_ok, h]
      · right
        refine ⟨e, k + 1, by simp; omega, i, j, m2, l, mid, lv, d, rest, ?_, ?_, h4, h5, h6, h7⟩
        · unfold runSteps
          rw [n2, bind_ok, h1, bind_ok, h2]
        · rw [List.take_succ_cons]
          unfold runSteps
          rw [n2, bind_ok, h1, bind_ok, h3]
    · right
      refine ⟨e, 0, by simp, i1, i2, m, l, mid, lv, d, rest, ?_, rfl, n1, n2, h1, h2⟩
      unfold runSteps
      rw [n2, bind_ok, h1]
      rfl

end

end Pysnobal
