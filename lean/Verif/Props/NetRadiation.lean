import Verif.Props.Falls
import Verif.Props.Radiation
import Verif.Props.Ties

/-! # C97: solar and thermal radiation are interchangeable -/

namespace Pysnobal

noncomputable section

/-! ## Specification -/

/-- Two rows that differ at most in net solar and incoming thermal radiation, and agree in the sum of the former and of the 98 % of
the latter that snow absorbs. -/
def Rec.SameAbsorbed (r r' : Rec) : Prop :=
  r' = { r with S_n := r'.S_n, I_lw := r'.I_lw } ∧ r'.S_n + 0.98 * r'.I_lw = r.S_n + 0.98 * r.I_lw

/-! ## Proof -/

/-- The same for input data. -/
def InputData.SameAbsorbed (i i' : InputData) : Prop := ∃ S I : ℝ, S + 0.98 * I = i.S_n + 0.98 * i.I_lw ∧ i' = i.lit S I

/-- The same for states. -/
def AbsorbedPhys (p q : Phys) : Prop := ∃ S I : ℝ, S + 0.98 * I = p.input1.S_n + 0.98 * p.input1.I_lw ∧ q = { p with input1 := p.input1.lit S I }

theorem energy_balance_absorbed (c : Env) (dt : ℝ) (S I : ℝ) (p : Phys) (h : S + 0.98 * I = p.input1.S_n + 0.98 * p.input1.I_lw) :
    energy_balance c dt { p with input1 := p.input1.lit S I } = (energy_balance c dt p).map fun q => { q with input1 := q.input1.lit S I } := by
  rw [energy_balance_lit c dt S I 0 p (by linarith)]
  congr 1
  funext q
  have e : q.snow.en.plus 0 = q.snow.en := by
    unfold Energy.plus
    simp only [add_zero]
  rw [e]
  simp only [ite_self]
  rfl

theorem mass_balance_absorbed (c : Env) (i : InputData) (S I dt : ℝ) (s : Snow) : mass_balance c (i.lit S I) dt s = mass_balance c i dt s := by
  have h2 : ∀ s, precip_event c (i.lit S I) s = precip_event c i s := fun s => by
    unfold precip_event
    rfl
  have h4 : ∀ s, evap_cond c (i.lit S I) dt s = evap_cond c i dt s := fun s => by
    have a : ∀ s, soilEvap c (i.lit S I) dt s = soilEvap c i dt s := fun _ => rfl
    unfold evap_cond
    simp only [a]
  have h5 : ∀ s, h2o_compact c (i.lit S I) s = h2o_compact c i s := fun _ => rfl
  unfold mass_balance
  simp only [h2, h4, h5]

theorem energy_input {c : Env} {dt : ℝ} {p p' : Phys} (h : energy_balance c dt p = .ok p') :
    p'.input1.S_n = p.input1.S_n ∧ p'.input1.I_lw = p.input1.I_lw := by
  unfold energy_balance at h
  split at h
  · obtain ⟨⟨r, q⟩, e1, h⟩ := bind_eq_ok.mp h
    obtain ⟨⟨G, G0⟩, e2, h⟩ := bind_eq_ok.mp h
    obtain ⟨M, e3, h⟩ := bind_eq_ok.mp h
    cases h
    obtain ⟨_, _, _, _, k, _⟩ := h_le_ok e1
    show q.input1.S_n = _ ∧ q.input1.I_lw = _
    rw [k]
    exact ⟨rfl, rfl⟩
  · cases h
    exact ⟨rfl, rfl⟩

theorem stepPhys_absorbed (c : Env) (dt : ℝ) {d d' : InputData} (hd : d.SameAbsorbed d') {p q : Phys} (h : AbsorbedPhys p q) :
    RelE AbsorbedPhys (stepPhys c dt d p) (stepPhys c dt d' q) := by
  obtain ⟨S, I, h1, rfl⟩ := h
  obtain ⟨S', I', _, rfl⟩ := hd
  rw [stepPhys_eq, stepPhys_eq]
  have e0 : stepStart (d.lit S' I') { p with input1 := p.input1.lit S I } =
      { stepStart d p with input1 := (stepStart d p).input1.lit S I } := by
    have : applied (d.lit S' I') (p.input1.lit S I) = (applied d p.input1).lit S I := applied_lit d S I p.input1
    unfold stepStart
    rw [this]
  have hs : S + 0.98 * I = (stepStart d p).input1.S_n + 0.98 * (stepStart d p).input1.I_lw := by
    obtain ⟨a, b⟩ := applied_light d p.input1
    show _ = (applied d p.input1).S_n + 0.98 * (applied d p.input1).I_lw
    rw [a, b, h1]
  rw [e0, energy_balance_absorbed c dt S I _ hs]
  cases e1 : energy_balance c dt (stepStart d p) with
  | error e => rfl
  | ok p1 =>
    obtain ⟨a, b⟩ := energy_input e1
    show RelE AbsorbedPhys (mass_balance c p1.input1 dt p1.snow >>= _) (mass_balance c (p1.input1.lit S I) dt p1.snow >>= _)
    rw [mass_balance_absorbed]
    cases mass_balance c p1.input1 dt p1.snow with
    | error e => rfl
    | ok s => exact ⟨S, I, by rw [hs, ← a, ← b], rfl⟩

theorem AbsorbedPhys.update {p q : Phys} {d d' : InputData} (h : AbsorbedPhys p q) (hd : d.SameAbsorbed d') :
    AbsorbedPhys (if p.input1.precip_now then { p with input1 := p.input1.update_precip_deltas d } else p)
      (if q.input1.precip_now then { q with input1 := q.input1.update_precip_deltas d' } else q) := by
  obtain ⟨S, I, h1, rfl⟩ := h
  obtain ⟨S', I', _, rfl⟩ := hd
  have hp : (p.input1.lit S I).precip_now = p.input1.precip_now := rfl
  simp only [hp]
  cases p.input1.precip_now <;> simp only [Bool.false_eq_true, if_false, if_true]
  · exact ⟨S, I, h1, rfl⟩
  · exact ⟨S, I, h1, rfl⟩

theorem sims_absorbed (c : Env) (ts : Tsteps) (all : Bool) {dl dl' : Level → InputData} (hd : ∀ lv, (dl lv).SameAbsorbed (dl' lv)) :
    SimAlike AbsorbedPhys (snobalSim c ts all dl) (snobalSim c ts all dl') where
  intervals := rfl
  timedelta := rfl
  divided := rfl
  reset := rfl
  below lv p q h := by obtain ⟨S, I, h1, rfl⟩ := h; rfl
  enter lv p q h := h.update (hd lv)
  phys lv p q h := stepPhys_absorbed c _ (hd lv) h
  accum lv p q a h := by obtain ⟨S, I, h1, rfl⟩ := h; rfl
  finish lv p q h := by
    obtain ⟨S, I, h1, rfl⟩ := h
    obtain ⟨S', I', h2, e⟩ := hd lv
    refine ⟨S + S', I + I', ?_, ?_⟩
    · show _ = p.input1.S_n + (dl lv).S_n + 0.98 * (p.input1.I_lw + (dl lv).I_lw)
      linarith
    · show ({ p with input1 := (p.input1.lit S I).add_deltas (dl' lv) } : Phys) = { p with input1 := (p.input1.add_deltas (dl lv)).lit (S + S') (I + I') }
      rw [e]
      rfl
  snap p q a t h := by obtain ⟨S, I, h1, rfl⟩ := h; rfl

theorem toInput_absorbed {r r' : Rec} (h : r.SameAbsorbed r') : r.toInput.SameAbsorbed r'.toInput := by
  refine ⟨r'.S_n, r'.I_lw, h.2, ?_⟩
  rw [h.1]
  rfl

theorem new_absorbed {r r' : Rec} (h : r.SameAbsorbed r') : RelE InputData.SameAbsorbed (InputData.new r) (InputData.new r') := by
  rw [new_eq, new_eq]
  have e : (0 < r'.m_pp ∧ 0 < r'.m_pp * r'.percent_snow ∧ r'.rho_snow ≤ 0) ↔ (0 < r.m_pp ∧ 0 < r.m_pp * r.percent_snow ∧ r.rho_snow ≤ 0) := by
    rw [h.1]
  by_cases hc : 0 < r.m_pp ∧ 0 < r.m_pp * r.percent_snow ∧ r.rho_snow ≤ 0
  · rw [if_pos hc, if_pos (e.mpr hc)]
    rfl
  · rw [if_neg hc, if_neg fun h => hc (e.mp h)]
    exact toInput_absorbed h

theorem deltas_absorbed {i1 i1' i2 i2' : InputData} (h1 : i1.SameAbsorbed i1') (h2 : i2.SameAbsorbed i2') (t : TstepInfo) :
    RelE InputData.SameAbsorbed (deltaFor i1 i2 t) (deltaFor i1' i2' t) := by
  rw [deltaFor_eq, deltaFor_eq]
  split
  · rfl
  · refine new_absorbed ?_
    obtain ⟨S1, I1, a1, rfl⟩ := h1
    obtain ⟨S2, I2, a2, rfl⟩ := h2
    refine ⟨rfl, ?_⟩
    show (S2 - S1) / _ + 0.98 * ((I2 - I1) / _) = (i2.S_n - i1.S_n) / _ + 0.98 * ((i2.I_lw - i1.I_lw) / _)
    rw [← mul_div_assoc, ← mul_div_assoc, ← add_div, ← add_div]
    congr 1
    linarith

theorem inputDeltas_absorbed (ts : Tsteps) {i1 i1' i2 i2' : InputData} (h1 : i1.SameAbsorbed i1') (h2 : i2.SameAbsorbed i2') :
    RelE (fun d d' : Level → InputData => ∀ lv, (d lv).SameAbsorbed (d' lv)) (inputDeltas ts i1 i2) (inputDeltas ts i1' i2') := by
  unfold inputDeltas
  refine RelE.bind (deltas_absorbed h1 h2 _) fun n n' hn => ?_
  refine RelE.bind (deltas_absorbed h1 h2 _) fun m m' hm => ?_
  refine RelE.bind (deltas_absorbed h1 h2 _) fun s s' hs => ?_
  intro lv
  cases lv
  · exact hn
  · exact hm
  · exact hs

theorem data_absorbed (c : Env) (ts : Tsteps) (all : Bool) {i1 i1' i2 i2' : InputData} (h1 : i1.SameAbsorbed i1') (h2 : i2.SameAbsorbed i2')
    {a b : Model} (hab : SameButForcing a b) : RelE SameButForcing (do_data_tstep c ts all i1 i2 a) (do_data_tstep c ts all i1' i2' b) := by
  unfold do_data_tstep
  refine RelE.bind (inputDeltas_absorbed ts h1 h2) fun d d' hd => ?_
  obtain ⟨q1, q2, q3, q4, q5, q6⟩ := hab
  have key := (sims_absorbed c ts all hd).data (a := { a with phys := { a.phys with input1 := i1 } })
    (b := { b with phys := { b.phys with input1 := i1' } }) ⟨by
      obtain ⟨S, I, k1, k2⟩ := h1
      refine ⟨S, I, k1, ?_⟩
      rw [k2, q1, q2, q3], q4, q5, q6⟩
  revert key
  generalize Sim.data_tstep _ _ = x
  generalize Sim.data_tstep _ _ = y
  intro key
  cases x <;> cases y <;> try exact key
  obtain ⟨⟨S, I, k1, k2⟩, k4, k5, k6⟩ := key
  refine ⟨?_, ?_, ?_, k4, k5, k6⟩ <;> rw [k2]

theorem runSteps_absorbed (c : Env) (ts : Tsteps) (all : Bool) {rs rs' : List Rec} (hrs : List.Forall₂ Rec.SameAbsorbed rs rs') :
    ∀ (i1 i1' : InputData) (a b : Model), i1.SameAbsorbed i1' → SameButForcing a b →
      RelE SameButForcing (runSteps c ts all i1 rs a) (runSteps c ts all i1' rs' b) := by
  induction hrs with
  | nil => exact fun i1 i1' a b _ h => h
  | cons hx _ ih =>
    intro i1 i1' a b h1 hab
    unfold runSteps
    refine RelE.bind (new_absorbed hx) fun i2 i2' h2 => ?_
    exact RelE.bind (data_absorbed c ts all h1 h2 hab) fun p q hpq => ih i2 i2' p q h2 hpq

/-- C97: of the radiation only the sum of net solar radiation and 98 % of the incoming thermal radiation matters.  Two runs over tables
that agree in it and in everything else have the same outcome: the same exception, or the same records, snow and output file. -/
theorem C97_only_absorbed_radiation_matters (g : Config) (rows rows' : List Rec) (h : List.Forall₂ Rec.SameAbsorbed rows rows') :
    RelE (fun m m' => m.output_list = m'.output_list ∧ m.phys.snow = m'.phys.snow ∧ m.current_datetime = m'.current_datetime)
      (simulate g rows) (simulate g rows') ∧
    ∀ file, run g rows file = run g rows' file := by
  have hs : RelE SameButForcing (simulate g rows) (simulate g rows') := by
    cases h with
    | nil => rfl
    | @cons r r' rs rs' hr hrs =>
      unfold simulate
      cases parse_time_steps g with
      | error e => rfl
      | ok ts =>
        simp only [bind_ok]
        refine RelE.bind (new_absorbed hr) fun i i' hi => ?_
        cases mkEnv g with
        | error e => rfl
        | ok c =>
          simp only [bind_ok]
          unfold mkModel
          cases init_snow c (recordSnow g) with
          | error e => rfl
          | ok s => exact runSteps_absorbed c ts _ hrs i i' _ _ hi ⟨rfl, rfl, rfl, rfl, rfl, rfl⟩
  constructor
  · revert hs
    cases simulate g rows <;> cases simulate g rows' <;> intro hs <;> try exact hs
    exact ⟨hs.2.2.2.2.2, hs.1, hs.2.2.2.2.1⟩
  · intro file
    unfold run
    revert hs
    cases simulate g rows <;> cases simulate g rows' <;> intro hs
    · rw [show _ = _ from hs]
    · exact hs.elim
    · exact hs.elim
    · simp only [hs.2.2.2.2.2]

end

end Pysnobal
