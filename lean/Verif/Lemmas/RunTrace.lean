import Verif.Lemmas.Run
import Verif.Lemmas.Chain

/-! # The run steps of a whole simulation -/

namespace Pysnobal

noncomputable section

/-- `DataSteps c ts all i1 rs m ls m'`: the loop of `PySnobal.run` over the records `rs`, starting with
`i1` as the current record, executes one data step per record; the run steps of the k-th data step are
the k-th list of `ls`. -/
inductive DataSteps (c : Env) (ts : Tsteps) (all : Bool) :
    InputData → List Rec → Model → List (List (RStep Phys)) → Model → Prop
  | nil (i1 : InputData) (m : Model) : DataSteps c ts all i1 [] m [] m
  | cons {i1 i2 : InputData} {r : Rec} {rs : List Rec} {m m1 m' : Model} {l : List (RStep Phys)}
      {ls : List (List (RStep Phys))} :
      InputData.new r = .ok i2 → do_data_tstep c ts all i1 i2 m = .ok m1 →
      Executed c ts all i1 i2 m l m1 → DataSteps c ts all i2 rs m1 ls m' →
      DataSteps c ts all i1 (r :: rs) m (l :: ls) m'

/-- `RunTrace g rows ls m`: the simulation `simulate g rows` ends in `m` and executes the run steps `ls`,
one list per data step. -/
def RunTrace (g : Config) (rows : List Rec) (ls : List (List (RStep Phys))) (m : Model) : Prop :=
  ∃ c ts i1 m0 r rs, rows = r :: rs ∧ parse_time_steps g = .ok ts ∧ mkEnv g = .ok c ∧
    InputData.new r = .ok i1 ∧ mkModel g c i1 = .ok m0 ∧ DataSteps c ts g.output_all i1 rs m0 ls m

theorem runSteps_trace {c : Env} {ts : Tsteps} {all : Bool} : ∀ (rs : List Rec) (i1 : InputData)
    (m m' : Model), runSteps c ts all i1 rs m = .ok m' → ∃ ls, DataSteps c ts all i1 rs m ls m' := by
  intro rs
  induction rs with
  | nil =>
    intro i1 m m' h
    simp [runSteps] at h
    subst h
    exact ⟨[], .nil i1 m⟩
  | cons r rs ih =>
    intro i1 m m' h
    obtain ⟨i2, m1, h1, h2, h3⟩ := runSteps_cons h
    obtain ⟨l, hl⟩ := do_data_executed h2
    obtain ⟨ls, hls⟩ := ih i2 m1 m' h3
    exact ⟨l :: ls, .cons h1 h2 hl hls⟩

/-- Every completed simulation has a trace. -/
theorem simulate_trace {g : Config} {rows : List Rec} {m : Model} (h : simulate g rows = .ok m) :
    ∃ ls, RunTrace g rows ls m := by
  cases rows with
  | nil => simp [simulate] at h
  | cons r rs =>
    obtain ⟨ts, i1, c, m0, e1, e2, e3, e4, e5⟩ := simulate_ok h
    obtain ⟨ls, hls⟩ := runSteps_trace rs i1 m0 m e5
    exact ⟨ls, c, ts, i1, m0, r, rs, rfl, e1, e3, e2, e4, hls⟩

theorem DataSteps.runs {c : Env} {ts : Tsteps} {all : Bool} {i1 : InputData} {rs : List Rec}
    {m m' : Model} {ls : List (List (RStep Phys))} (h : DataSteps c ts all i1 rs m ls m') :
    runSteps c ts all i1 rs m = .ok m' := by
  induction h with
  | nil => rfl
  | cons h1 h2 _ _ ih =>
    unfold runSteps
    rw [h1, bind_ok, h2, bind_ok, ih]

/-- A trace belongs to a completed simulation. -/
theorem RunTrace.simulate {g : Config} {rows : List Rec} {m : Model} {ls : List (List (RStep Phys))}
    (h : RunTrace g rows ls m) : simulate g rows = .ok m := by
  obtain ⟨c, ts, i1, m0, r, rs, rfl, e1, e2, e3, e4, e5⟩ := h
  unfold Pysnobal.simulate
  dsimp only
  rw [e1, bind_ok, e3, bind_ok, e2, bind_ok, e4, bind_ok]
  exact e5.runs

/-- Every run step of a data step is a successful physics step from a state satisfying the invariant. -/
theorem RunRule.executed {c : Env} {ts : Tsteps} {A : Rec → Prop} {I : InputData → Phys → Prop}
    {D : InputData → InputData → Prop} {O : Snow → Prop} (R : RunRule c ts A I D O) {all : Bool}
    {i0 i1 i2 : InputData} {r1 r2 : Rec} (a1 : A r1) (a2 : A r2) (n1 : InputData.new r1 = .ok i1)
    (n2 : InputData.new r2 = .ok i2) {m m' : Model} {l : List (RStep Phys)}
    (h : Executed c ts all i1 i2 m l m') (hI : I i0 m.phys) :
    I i1 m'.phys ∧ ∀ x ∈ l, ∃ d, D i1 d ∧ I i1 x.pre ∧ O x.post.snow ∧
      deltaFor i1 i2 (ts x.lv) = .ok d ∧ stepPhys c (ts x.lv).time_step d x.pre = .ok x.post := by
  obtain ⟨dl, mid, hdl, hr, hl, ho⟩ := h.parts
  have hd : ∀ lv, D i1 (dl lv) := fun lv =>
    R.delta r1 r2 i1 i2 lv _ a1 a2 n1 n2 (inputDeltas_ok hdl lv)
  obtain ⟨h1, h2, h3, h4⟩ := R.runs hd hr (R.record r1 i0 i1 m.phys a1 n1 hI)
  refine ⟨by rw [(Executed.mid_phys ho).1]; exact h1, fun x hx => ?_⟩
  obtain ⟨q1, q2⟩ := h4 x hx
  exact ⟨dl x.lv, hd x.lv, q1, q2, inputDeltas_ok hdl x.lv, (hr.mem hx).1⟩

/-- The invariant rule for the run steps of a whole simulation. -/
theorem RunRule.trace {g : Config} {c : Env} {ts : Tsteps} {A : Rec → Prop}
    {I : InputData → Phys → Prop} {D : InputData → InputData → Prop} {O : Snow → Prop}
    (hc : mkEnv g = .ok c) (hts : parse_time_steps g = .ok ts) (R : RunRule c ts A I D O)
    (h0 : ∀ r i s, A r → InputData.new r = .ok i → init_snow c (recordSnow g) = .ok s →
      I i { snow := s, input1 := i, init_ustar := none, init_factor := none })
    {rows : List Rec} (hA : ∀ r ∈ rows, A r) {m : Model} {ls : List (List (RStep Phys))}
    (h : RunTrace g rows ls m) :
    ∀ l ∈ ls, ∀ x ∈ l, ∃ i d, D i d ∧ I i x.pre ∧ O x.post.snow ∧
      stepPhys c (ts x.lv).time_step d x.pre = .ok x.post := by
  obtain ⟨c', ts', i1, m0, r, rs, rfl, e1, e2, e3, e4, e5⟩ := h
  rw [hts] at e1
  cases e1
  rw [hc] at e2
  cases e2
  have a1 := hA r (by simp)
  have hm : m0.phys = { snow := m0.phys.snow, input1 := i1, init_ustar := none, init_factor := none } := by
    unfold mkModel at e4
    obtain ⟨s, _, h⟩ := bind_eq_ok.mp e4
    simp only [pure_ok, Except.ok.injEq] at h
    subst h
    rfl
  have hI : I i1 m0.phys := by
    rw [hm]
    exact h0 r i1 _ a1 e3 (mkModel_ok e4).2.2.2.1
  have key : ∀ {i0 : InputData} {r1 : Rec}, A r1 → InputData.new r1 = .ok i1 → I i0 m0.phys →
      (∀ x ∈ rs, A x) → ∀ l ∈ ls, ∀ x ∈ l, ∃ i d, D i d ∧ I i x.pre ∧ O x.post.snow ∧
      stepPhys c (ts x.lv).time_step d x.pre = .ok x.post := by
    clear hI hm a1 e4 e3 hA h0 hc hts
    induction e5 with
    | nil => simp
    | @cons i1 i2 r rs m m1 m' l ls k1 k2 k3 k4 ih =>
      intro i0 r1 a1 n1 hI hrs
      have a2 := hrs r (by simp)
      obtain ⟨g1, g2⟩ := R.executed a1 a2 n1 k1 k3 hI
      intro l' hl'
      rcases List.mem_cons.mp hl' with rfl | hl'
      · intro x hx
        obtain ⟨d, q1, q2, q3, _, q4⟩ := g2 x hx
        exact ⟨_, d, q1, q2, q3, q4⟩
      · exact ih a2 k1 g1 (fun x hx => hrs x (by simp [hx])) l' hl'
  exact key a1 e3 hI (fun x hx => hA x (by simp [hx]))

/-- Telescoping over the run steps of a data step: the snow state is handed on unchanged. -/
theorem Runs.telescope {c : Env} {ts : Tsteps} {all : Bool} {dl : Level → InputData} {m m' : Model}
    {l : List (RStep Phys)} (h : (snobalSim c ts all dl).Runs m l m') (f : Snow → ℝ)
    (g : RStep Phys → ℝ) (hf : ∀ x ∈ l, f x.post.snow = f x.pre.snow + g x) :
    f m'.phys.snow = f m.phys.snow + (l.map g).sum := by
  induction h with
  | nil => simp
  | @enter st st' l h ih =>
    rw [ih hf]
    congr 2
    show (if st.phys.input1.precip_now then _ else _ : Phys).snow = _
    split <;> rfl
  | @step st st1 st2 l lv p hb hp hd1 h ih =>
    obtain ⟨p', a, hp', ha, e1, e2, ho⟩ := do_tstep_ok hd1
    rw [hp] at hp'
    cases hp'
    have e3 : st1.phys.snow = p.snow := by rw [e1]; rfl
    rw [ih (fun x hx => hf x (by simp [hx])), e3]
    have := hf ⟨lv, st.phys, p⟩ (by simp)
    simp only at this
    rw [this, List.map_cons, List.sum_cons]
    ring

theorem Executed.telescope {c : Env} {ts : Tsteps} {all : Bool} {i1 i2 : InputData} {m m' : Model}
    {l : List (RStep Phys)} (h : Executed c ts all i1 i2 m l m') (f : Snow → ℝ)
    (g : RStep Phys → ℝ) (hf : ∀ x ∈ l, f x.post.snow = f x.pre.snow + g x) :
    f m'.phys.snow = f m.phys.snow + (l.map g).sum := by
  obtain ⟨dl, mid, hdl, hr, hl, ho⟩ := h.parts
  rw [(Executed.mid_phys ho).1]
  exact Runs.telescope hr f g hf

theorem DataSteps.telescope {c : Env} {ts : Tsteps} {all : Bool} {i1 : InputData} {rs : List Rec}
    {m m' : Model} {ls : List (List (RStep Phys))} (h : DataSteps c ts all i1 rs m ls m') (f : Snow → ℝ)
    (g : RStep Phys → ℝ) (hf : ∀ l ∈ ls, ∀ x ∈ l, f x.post.snow = f x.pre.snow + g x) :
    f m'.phys.snow = f m.phys.snow + (ls.map fun l => (l.map g).sum).sum := by
  induction h with
  | nil => simp
  | cons _ _ h3 _ ih =>
    rw [ih (fun l hl => hf l (by simp [hl])), h3.telescope f g (hf _ (by simp)), List.map_cons,
      List.sum_cons]
    ring

end

end Pysnobal
