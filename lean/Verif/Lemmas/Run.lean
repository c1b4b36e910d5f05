import Verif.Lemmas.Input
import Verif.Lemmas.StepInv
import Verif.Lemmas.Logged

/-! # Invariant rule for whole runs: what every output record satisfies -/

namespace Pysnobal

noncomputable section

/-- Ingredients of an invariant proof over a whole run.  `A` is what is assumed of every forcing
record, `I i p` holds at run step boundaries while record `i` is being processed, `D i d` describes the
deltas derived from record `i`, and `O` is what is shown of the snow state in every output record. -/
structure RunRule (c : Env) (ts : Tsteps) (A : Rec → Prop) (I : InputData → Phys → Prop)
    (D : InputData → InputData → Prop) (O : Snow → Prop) : Prop where
  record : ∀ r i0 i p, A r → InputData.new r = .ok i → I i0 p → I i { p with input1 := i }
  delta : ∀ r1 r2 i1 i2 lv d, A r1 → A r2 → InputData.new r1 = .ok i1 → InputData.new r2 = .ok i2 →
    deltaFor i1 i2 (ts lv) = .ok d → D i1 d
  enter : ∀ i d p, D i d → I i p → p.input1.precip_now = true →
    I i { p with input1 := p.input1.update_precip_deltas d }
  step : ∀ lv i d p p', D i d → I i p → stepPhys c (ts lv).time_step d p = .ok p' →
    O p'.snow ∧ I i { p' with input1 := p'.input1.add_deltas d }
  idle : TileOK ts ∨ ∀ i p, I i p → O p.snow

theorem inputDeltas_ok {ts : Tsteps} {i1 i2 : InputData} {dl : Level → InputData}
    (h : inputDeltas ts i1 i2 = .ok dl) (lv : Level) : deltaFor i1 i2 (ts lv) = .ok (dl lv) := by
  unfold inputDeltas at h
  obtain ⟨n, h1, h⟩ := bind_eq_ok.mp h
  obtain ⟨m, h2, h⟩ := bind_eq_ok.mp h
  obtain ⟨s, h3, h⟩ := bind_eq_ok.mp h
  simp only [pure_ok, Except.ok.injEq] at h
  subst h
  cases lv <;> assumption

theorem inputDeltas_of {ts : Tsteps} {i1 i2 : InputData} {dl : Level → InputData}
    (h : ∀ lv, deltaFor i1 i2 (ts lv) = .ok (dl lv)) : inputDeltas ts i1 i2 = .ok dl := by
  unfold inputDeltas
  rw [h .normal, h .medium, h .small]
  simp only [bind_ok, pure_ok, Except.ok.injEq]
  funext lv
  cases lv <;> rfl

/-- `Executed c ts all i1 i2 m l m'`: `do_data_tstep` called on `m` with records `i1`, `i2` completes, leaves the object as
`m'`, and `l` is the list of the run steps it executes, in order (the log of its physics calls, `Lemmas/Logged.lean`). -/
def Executed (c : Env) (ts : Tsteps) (all : Bool) (i1 i2 : InputData) (m : Model)
    (l : List (RStep Phys)) (m' : Model) : Prop :=
  ∃ dl, inputDeltas ts i1 i2 = .ok dl ∧
    (snobalSim c ts all dl).Executes { m with phys := { m.phys with input1 := i1 } } l m'

theorem snobal_enterKeeps (c : Env) (ts : Tsteps) (all : Bool) (dl : Level → InputData) :
    (snobalSim c ts all dl).EnterKeeps := by
  intro lv p
  show below_thold _ (if p.input1.precip_now then _ else _ : Phys).snow = below_thold _ p.snow
  split <;> rfl

/-- The executed run steps follow one another and tile the data step; in normal mode one record is emitted at the end. -/
theorem Executed.parts {c : Env} {ts : Tsteps} {all : Bool} {i1 i2 : InputData} {m : Model}
    {l : List (RStep Phys)} {m' : Model} (h : Executed c ts all i1 i2 m l m') :
    ∃ dl mid, inputDeltas ts i1 i2 = .ok dl ∧
      (snobalSim c ts all dl).Runs { m with phys := { m.phys with input1 := i1 } } l mid ∧
      IsDataStep (ts .normal).intervals.toNat (ts .medium).intervals.toNat
        (ts .small).intervals.toNat (l.map (·.lv)) ∧
      (all = true ∧ m' = mid ∨ all = false ∧ (snobalSim c ts all dl).output mid = .ok m') := by
  obtain ⟨dl, hdl, he⟩ := h
  obtain ⟨hp, mid, hr, ho⟩ := he.parts (snobal_enterKeeps c ts all dl)
  refine ⟨dl, mid, hdl, hr, Sim.Executes.tiles hp, ?_⟩
  cases all
  · exact .inr ⟨rfl, by simpa [snobalSim] using ho⟩
  · exact .inl ⟨rfl, by simpa [snobalSim] using ho⟩

/-- A data step completes exactly if it executes some run steps. -/
theorem do_data_iff_executed {c : Env} {ts : Tsteps} {all : Bool} {i1 i2 : InputData} {m m' : Model} :
    do_data_tstep c ts all i1 i2 m = .ok m' ↔ ∃ l, Executed c ts all i1 i2 m l m' := by
  unfold do_data_tstep Executed
  cases hdl : inputDeltas ts i1 i2 with
  | error e => simp
  | ok dl =>
    rw [bind_ok, executes_iff]
    constructor
    · rintro ⟨l, hl⟩
      exact ⟨l, dl, rfl, hl⟩
    · rintro ⟨l, dl', e, hl⟩
      cases e
      exact ⟨l, hl⟩

/-- Every completed data step executes some run steps. -/
theorem do_data_executed {c : Env} {ts : Tsteps} {all : Bool} {i1 i2 : InputData} {m m' : Model}
    (h : do_data_tstep c ts all i1 i2 m = .ok m') : ∃ l, Executed c ts all i1 i2 m l m' :=
  do_data_iff_executed.mp h

/-- The executed run steps and the result are determined. -/
theorem Executed.unique {c : Env} {ts : Tsteps} {all : Bool} {i1 i2 : InputData} {m m1 m2 : Model}
    {l1 l2 : List (RStep Phys)} (h1 : Executed c ts all i1 i2 m l1 m1) (h2 : Executed c ts all i1 i2 m l2 m2) :
    l1 = l2 ∧ m1 = m2 := by
  obtain ⟨dl, e1, k1⟩ := h1
  obtain ⟨dl', e2, k2⟩ := h2
  rw [e1] at e2
  cases e2
  exact k1.unique k2

theorem Executed.mid_phys {c : Env} {ts : Tsteps} {all : Bool} {dl : Level → InputData}
    {m' mid : Model}
    (h : all = true ∧ m' = mid ∨ all = false ∧ (snobalSim c ts all dl).output mid = .ok m') :
    m'.phys = mid.phys ∧ m'.current_datetime = mid.current_datetime := by
  rcases h with ⟨_, rfl⟩ | ⟨_, h⟩
  · exact ⟨rfl, rfl⟩
  · obtain ⟨_, _, e⟩ := output_ok h; rw [e]; exact ⟨rfl, rfl⟩

/-- The record `r` shows a snow state satisfying `O`. -/
def Shows (O : Snow → Prop) (r : OutRec) : Prop := ∃ s a t, O s ∧ snapshot s a t = .ok r

theorem RunRule.runs {c : Env} {ts : Tsteps} {A : Rec → Prop} {I : InputData → Phys → Prop}
    {D : InputData → InputData → Prop} {O : Snow → Prop} (R : RunRule c ts A I D O) {all : Bool}
    {dl : Level → InputData} {i : InputData} (hd : ∀ lv, D i (dl lv)) {m m' : Model}
    {l : List (RStep Phys)} (h : (snobalSim c ts all dl).Runs m l m') (hI : I i m.phys) :
    I i m'.phys ∧ (l = [] ∧ m'.phys.snow = m.phys.snow ∨ O m'.phys.snow) ∧
      (∀ r ∈ m'.output_list, r ∈ m.output_list ∨ Shows O r) ∧
      (∀ x ∈ l, I i x.pre ∧ O x.post.snow) := by
  induction h with
  | nil st => exact ⟨hI, .inl ⟨rfl, rfl⟩, fun r hr => .inl hr, by simp⟩
  | @enter st st' l h ih =>
    have : I i ((snobalSim c ts all dl).enter .small st.phys) := by
      show I i (if st.phys.input1.precip_now then _ else _)
      split
      · rename_i hp
        exact R.enter i _ _ (hd _) hI hp
      · exact hI
    obtain ⟨h1, h2, h3, h4⟩ := ih this
    refine ⟨h1, ?_, h3, h4⟩
    rcases h2 with ⟨e1, e2⟩ | h2
    · refine .inl ⟨e1, e2.trans ?_⟩
      show (if st.phys.input1.precip_now then _ else _ : Phys).snow = _
      split <;> rfl
    · exact .inr h2
  | @step st st1 st2 l lv p hb hp hd1 h ih =>
    obtain ⟨hO, hI1⟩ := R.step lv i _ _ _ (hd lv) hI hp
    obtain ⟨p', a, hp', ha, e1, e2, ho⟩ := do_tstep_ok hd1
    rw [hp] at hp'
    cases hp'
    have e3 : st1.phys.snow = p.snow := by rw [e1]; rfl
    obtain ⟨h1, h2, h3, h4⟩ := ih (by rw [e1]; exact hI1)
    refine ⟨h1, ?_, ?_, ?_⟩
    · right
      rcases h2 with ⟨_, h2⟩ | h2
      · rw [h2, e3]; exact hO
      · exact h2
    · intro r hr
      rcases h3 r hr with h5 | h5
      · rcases ho with ⟨_, r', hr', ho, _⟩ | ⟨_, ho, _⟩
        · rw [ho] at h5
          rcases List.mem_append.mp h5 with h6 | h6
          · exact .inl h6
          · rw [List.mem_singleton] at h6
            subst h6
            exact .inr ⟨_, _, _, hO, hr'⟩
        · rw [ho] at h5; exact .inl h5
      · exact .inr h5
    · intro x hx
      rcases List.mem_cons.mp hx with rfl | hx
      · exact ⟨hI, hO⟩
      · exact h4 x hx

theorem RunRule.data {c : Env} {ts : Tsteps} {A : Rec → Prop} {I : InputData → Phys → Prop}
    {D : InputData → InputData → Prop} {O : Snow → Prop} (R : RunRule c ts A I D O) {all : Bool}
    {i0 i1 i2 : InputData} {r1 r2 : Rec} (a1 : A r1) (a2 : A r2) (n1 : InputData.new r1 = .ok i1)
    (n2 : InputData.new r2 = .ok i2) {m m' : Model}
    (h : do_data_tstep c ts all i1 i2 m = .ok m') (hI : I i0 m.phys) :
    I i1 m'.phys ∧ ∀ r ∈ m'.output_list, r ∈ m.output_list ∨ Shows O r := by
  obtain ⟨dl, hdl, hs⟩ := do_data_ok h
  obtain ⟨l, mid, hr, hl, ho⟩ := data_tstep_runs hs
  have hd : ∀ lv, D i1 (dl lv) := fun lv =>
    R.delta r1 r2 i1 i2 lv _ a1 a2 n1 n2 (inputDeltas_ok hdl lv)
  obtain ⟨h1, h2, h3, _⟩ := R.runs hd hr (R.record r1 i0 i1 m.phys a1 n1 hI)
  by_cases hall : all = true
  · have ho : m' = mid := by simpa [snobalSim, hall] using ho
    subst ho
    exact ⟨h1, h3⟩
  · have ho : (snobalSim c ts all dl).output mid = .ok m' := by simpa [snobalSim, hall] using ho
    obtain ⟨r, hr', e⟩ := output_ok ho
    subst e
    refine ⟨h1, ?_⟩
    intro x hx
    rcases List.mem_append.mp hx with hx | hx
    · exact h3 x hx
    · rw [List.mem_singleton] at hx
      subst hx
      right
      refine ⟨_, _, _, ?_, hr'⟩
      rcases R.idle with ht | ht
      · rcases h2 with ⟨e, _⟩ | h2
        · exfalso
          have := IsDataStep.ne_nil (by simp [snobalSim, ht.n_normal])
            (by simpa [snobalSim] using ht.m_pos) (by simpa [snobalSim] using ht.s_pos) hl
          simp [e] at this
        · exact h2
      · exact ht _ _ h1

theorem RunRule.steps {c : Env} {ts : Tsteps} {A : Rec → Prop} {I : InputData → Phys → Prop}
    {D : InputData → InputData → Prop} {O : Snow → Prop} (R : RunRule c ts A I D O) {all : Bool} :
    ∀ (rs : List Rec) (i0 i1 : InputData) (r1 : Rec) (m m' : Model), A r1 → (∀ r ∈ rs, A r) →
      InputData.new r1 = .ok i1 → I i0 m.phys → runSteps c ts all i1 rs m = .ok m' →
      (∃ i, I i m'.phys) ∧ ∀ r ∈ m'.output_list, r ∈ m.output_list ∨ Shows O r := by
  intro rs
  induction rs with
  | nil =>
    intro i0 i1 r1 m m' _ _ _ hI h
    simp [runSteps] at h
    subst h
    exact ⟨⟨i0, hI⟩, fun r hr => .inl hr⟩
  | cons r rs ih =>
    intro i0 i1 r1 m m' a1 ar n1 hI h
    obtain ⟨i2, m1, n2, h2, h3⟩ := runSteps_cons h
    have a2 := ar r (by simp)
    obtain ⟨hI1, hO1⟩ := R.data a1 a2 n1 n2 h2 hI
    obtain ⟨hI2, hO2⟩ := ih i1 i2 r m1 m' a2 (fun x hx => ar x (by simp [hx])) n2 hI1 h3
    refine ⟨hI2, fun x hx => ?_⟩
    rcases hO2 x hx with h | h
    · exact hO1 x h
    · exact .inr h

/-- Every record of a simulation shows a state satisfying `O`. -/
theorem RunRule.simulate {g : Config} {c : Env} {ts : Tsteps} {A : Rec → Prop}
    {I : InputData → Phys → Prop} {D : InputData → InputData → Prop} {O : Snow → Prop}
    (hc : mkEnv g = .ok c) (hts : parse_time_steps g = .ok ts) (R : RunRule c ts A I D O)
    (h0 : ∀ r i s, A r → InputData.new r = .ok i → init_snow c (recordSnow g) = .ok s →
      I i { snow := s, input1 := i, init_ustar := none, init_factor := none })
    {rows : List Rec} (hA : ∀ r ∈ rows, A r) {m : Model} (h : simulate g rows = .ok m) :
    (∃ i, I i m.phys) ∧ ∀ r ∈ m.output_list, Shows O r := by
  cases rows with
  | nil => simp [Pysnobal.simulate] at h
  | cons r rs =>
    obtain ⟨ts', i1, c', m0, e1, e2, e3, e4, e5⟩ := simulate_ok h
    rw [hts] at e1
    cases e1
    rw [hc] at e3
    cases e3
    obtain ⟨k1, k2, k3, k4, k5, k6, k7⟩ := mkModel_ok e4
    have a1 := hA r (by simp)
    have hm : m0.phys = { snow := m0.phys.snow, input1 := i1, init_ustar := none, init_factor := none } := by
      unfold mkModel at e4
      obtain ⟨s, _, h⟩ := bind_eq_ok.mp e4
      simp only [pure_ok, Except.ok.injEq] at h
      subst h
      rfl
    have hI : I i1 m0.phys := by
      rw [hm]
      exact h0 r i1 _ a1 e2 k4
    obtain ⟨hI', hO⟩ := R.steps rs i1 i1 r m0 m a1 (fun x hx => hA x (by simp [hx])) e2 hI e5
    refine ⟨hI', fun x hx => ?_⟩
    rcases hO x hx with h | h
    · rw [k2] at h; simp at h
    · exact h

end

end Pysnobal
