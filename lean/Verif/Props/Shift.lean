import Verif.Props.Tables
import Verif.Lemmas.OneStep

/-! # C63, C64: what a run depends on — time differences, the order of the rows, the last record -/

namespace Pysnobal

/-! ## Specification -/

section spec

/-- The same configuration, `k` minutes later. -/
def Config.later (k : ℤ) (g : Config) : Config :=
  { g with start_date := g.start_date + k, end_date := g.end_date + k }

/-- The same input row, `k` minutes later. -/
def RawRow.later (k : ℤ) (r : RawRow) : RawRow := { r with date_time := r.date_time + k }

/-- The same row of the output table, `k` minutes later. -/
def OutRow.later (k : ℤ) (r : OutRow) : OutRow := { r with date_time := r.date_time + k }

/-- The same record, `k` minutes later. -/
def OutRec.later (k : ℤ) (r : OutRec) : OutRec := { r with date_time := r.date_time + k }

/-- Two records with the same radiation, air temperature, humidity, wind and soil temperature; their
precipitation may differ. -/
structure Rec.SameWeather (r r' : Rec) : Prop where
  S_n : r.S_n = r'.S_n
  I_lw : r.I_lw = r'.I_lw
  t_a : r.t_a = r'.t_a
  e_a : r.e_a = r'.e_a
  u : r.u = r'.u
  t_g : r.t_g = r'.t_g

end spec

/-! ## Moving the clock -/

variable {π α ρ : Type}

/-- The same object with its clock and the stamps of its records moved. -/
def SimSt.later (k : ℤ) (f : ρ → ρ) (st : SimSt π α ρ) : SimSt π α ρ :=
  { st with current_datetime := st.current_datetime + k, output_list := st.output_list.map f }

theorem iterM_comm {σ : Type} {φ : σ → σ} {F : σ → Except Err σ} (h : ∀ s, F (φ s) = (F s).map φ) (n : ℕ) (s : σ) :
    iterM F n (φ s) = (iterM F n s).map φ := by
  induction n generalizing s with
  | zero => rfl
  | succ n ih =>
    simp only [iterM, h]
    cases F s with
    | error e => rfl
    | ok s' => simpa [Except.map] using ih s'

section
variable {K : Sim π α ρ} {k : ℤ} {f : ρ → ρ} (hs : ∀ p a t, K.snap p a (t + k) = (K.snap p a t).map f)
include hs

theorem output_later (st : SimSt π α ρ) : K.output (st.later k f) = (K.output st).map (SimSt.later k f) := by
  unfold Sim.output
  simp only [SimSt.later, hs]
  cases K.snap st.phys st.acc st.current_datetime <;> simp [Except.map, SimSt.later]

theorem do_tstep_later (lv : Level) (st : SimSt π α ρ) :
    K.do_tstep lv (st.later k f) = (K.do_tstep lv st).map (SimSt.later k f) := by
  unfold Sim.do_tstep
  simp only [SimSt.later]
  cases h1 : K.phys lv st.phys with
  | error e => rfl
  | ok p =>
    simp only [bind_ok]
    cases h2 : K.accum lv p st.acc with
    | error e => rfl
    | ok a =>
      simp only [bind_ok]
      have := output_later hs { st with phys := p, acc := a, current_datetime := st.current_datetime + K.timedelta lv }
      simp only [SimSt.later, add_right_comm st.current_datetime (K.timedelta lv) k] at this
      by_cases ho : K.output_divided = true
      · simp only [ho, if_true, this]
        cases K.output { st with phys := p, acc := a, current_datetime := st.current_datetime + K.timedelta lv } <;>
          simp [Except.map, SimSt.later]
      · simp [ho, Except.map, SimSt.later, add_right_comm]

theorem data_tstep_later (st : SimSt π α ρ) :
    K.data_tstep (st.later k f) = (K.data_tstep st).map (SimSt.later k f) := by
  have h3 : ∀ s, K.smallBlock (SimSt.later k f s) = (K.smallBlock s).map (SimSt.later k f) := fun s =>
    iterM_comm (fun s => do_tstep_later hs .small s) _ { s with phys := K.enter .small s.phys }
  have h2 : ∀ s, K.mediumBlock (SimSt.later k f s) = (K.mediumBlock s).map (SimSt.later k f) := fun s =>
    iterM_comm (fun s => by
      by_cases hb : K.below .medium s.phys = true
      · simp only [SimSt.later, hb, if_true]; exact h3 s
      · simp only [SimSt.later, hb]; exact do_tstep_later hs .medium s) _ s
  have h1 : ∀ s, K.normalBlock (SimSt.later k f s) = (K.normalBlock s).map (SimSt.later k f) := fun s =>
    iterM_comm (fun s => by
      by_cases hb : K.below .normal s.phys = true
      · simp only [SimSt.later, hb, if_true]; exact h2 s
      · simp only [SimSt.later, hb]; exact do_tstep_later hs .normal s) _ s
  rw [data_tstep_eq, data_tstep_eq, h1]
  cases K.normalBlock st with
  | error e => rfl
  | ok s =>
    simp only [Except.map, bind_ok]
    by_cases ho : K.output_divided = false
    · simp only [ho, if_true]; exact output_later hs s
    · simp [ho]

end

noncomputable section

theorem snapshot_later (s : Snow) (a : Acc) (t k : ℤ) :
    snapshot s a (t + k) = (snapshot s a t).map (OutRec.later k) := by
  unfold snapshot
  cases a.swi_sum <;> rfl

theorem do_data_tstep_later (c : Env) (ts : Tsteps) (all : Bool) (i1 i2 : InputData) (m : Model) (k : ℤ) :
    do_data_tstep c ts all i1 i2 (m.later k (OutRec.later k)) =
      (do_data_tstep c ts all i1 i2 m).map (SimSt.later k (OutRec.later k)) := by
  unfold do_data_tstep
  cases inputDeltas ts i1 i2 with
  | error e => rfl
  | ok dl =>
    simp only [bind_ok]
    exact data_tstep_later (K := snobalSim c ts all dl) (fun p a t => snapshot_later p.snow a.acc t k)
      { m with phys := { m.phys with input1 := i1 } }

theorem runSteps_later (c : Env) (ts : Tsteps) (all : Bool) (k : ℤ) (rs : List Rec) (i1 : InputData) (m : Model) :
    runSteps c ts all i1 rs (m.later k (OutRec.later k)) =
      (runSteps c ts all i1 rs m).map (SimSt.later k (OutRec.later k)) := by
  induction rs generalizing i1 m with
  | nil => rfl
  | cons r rs ih =>
    simp only [runSteps]
    cases InputData.new r with
    | error e => rfl
    | ok i2 =>
      simp only [bind_ok, do_data_tstep_later]
      cases do_data_tstep c ts all i1 i2 m with
      | error e => rfl
      | ok m' => simpa [Except.map] using ih i2 m'

theorem simulate_later (g : Config) (k : ℤ) (rows : List Rec) :
    simulate (g.later k) rows = (simulate g rows).map (SimSt.later k (OutRec.later k)) := by
  unfold simulate
  cases rows with
  | nil => rfl
  | cons r rs =>
    simp only [show parse_time_steps (g.later k) = parse_time_steps g from rfl,
      show mkEnv (g.later k) = mkEnv g from rfl, show (g.later k).output_all = g.output_all from rfl]
    cases parse_time_steps g with
    | error e => rfl
    | ok ts =>
      simp only [bind_ok]
      cases InputData.new r with
      | error e => rfl
      | ok i1 =>
        simp only [bind_ok]
        cases mkEnv g with
        | error e => rfl
        | ok c =>
          simp only [bind_ok]
          have : mkModel (g.later k) c i1 = (mkModel g c i1).map (SimSt.later k (OutRec.later k)) := by
            unfold mkModel
            simp only [show recordSnow (g.later k) = recordSnow g from rfl]
            cases init_snow c (recordSnow g) <;> rfl
          rw [this]
          cases mkModel g c i1 with
          | error e => rfl
          | ok m => simpa [Except.map] using runSteps_later c ts g.output_all k rs i1 m

theorem outputTable_later (k : ℤ) (out : List OutRec) :
    outputTable (out.map (OutRec.later k)) = (outputTable out).map (List.map (OutRow.later k)) := by
  cases out with
  | nil => rfl
  | cons r rs =>
    simp only [outputTable, List.map_cons]
    rw [← List.map_cons, ← List.map_mergeSort (r := fun a b => decide (a.date_time ≤ b.date_time))]
    · simp only [Except.map, List.map_map]
      rfl
    · intro a _ b _
      simp [OutRec.later]

theorem run_later (g : Config) (k : ℤ) (rows : List Rec) (file : Option (List OutRow)) :
    (run (g.later k) rows file).1 = (run g rows file).1 ∧
    (run (g.later k) rows file).2 = (match (run g rows file).1 with
      | .ok _ => (run g rows file).2.map (List.map (OutRow.later k))
      | .error _ => file) := by
  unfold run
  rw [simulate_later]
  cases simulate g rows with
  | error e => exact ⟨rfl, rfl⟩
  | ok m =>
    simp only [Except.map, show (SimSt.later k (OutRec.later k) m).output_list =
      m.output_list.map (OutRec.later k) from rfl, outputTable_later]
    cases outputTable m.output_list <;> exact ⟨rfl, rfl⟩

theorem read_input_later (g : Config) (k : ℤ) (rows : List RawRow) :
    read_input_data (g.later k) (rows.map (RawRow.later k)) =
      (read_input_data g rows).map (List.map fun x => (x.1 + k, x.2)) := by
  have hd : firstDelta (rows.map (RawRow.later k)) = firstDelta rows := by
    rcases rows with _ | ⟨a, _ | ⟨b, l⟩⟩
    · rfl
    · rfl
    · simp [firstDelta, RawRow.later]
  unfold read_input_data windowRows
  rw [hd]
  cases firstDelta rows with
  | error e => rfl
  | ok d =>
    simp only [bind_ok, pure_ok]
    rw [← List.map_mergeSort (r := fun a b => decide (a.date_time ≤ b.date_time))
      (fun a _ b _ => by simp [RawRow.later]), List.filter_map]
    have : ((fun r : RawRow => decide ((g.later k).start_date ≤ r.date_time ∧ r.date_time ≤ (g.later k).end_date + d)) ∘
        RawRow.later k) = fun r => decide (g.start_date ≤ r.date_time ∧ r.date_time ≤ g.end_date + d) := by
      funext r
      refine decide_eq_decide.mpr ?_
      show (g.start_date + k ≤ r.date_time + k ∧ r.date_time + k ≤ g.end_date + k + d) ↔ _
      constructor <;> rintro ⟨h1, h2⟩ <;> constructor <;> linarith
    rw [this]
    generalize List.filter _ _ = w
    have e1 : (w.map (RawRow.later k)).map (·.date_time) = (w.map (·.date_time)).map (· + k) := by
      simp [List.map_map, Function.comp, RawRow.later]
    have e2 : ((w.map (·.date_time)).map (· + k)).Nodup ↔ (w.map (·.date_time)).Nodup :=
      List.nodup_map_iff (fun a b h => by simpa using h)
    rw [e1]
    by_cases hn : (w.map (·.date_time)).Nodup
    · rw [if_pos (e2.mpr hn), if_pos hn]
      simp only [Except.map, List.map_map]
      rfl
    · rw [if_neg (fun h => hn (e2.mp h)), if_neg hn]
      rfl

/-- C63: a run depends on its dates only through their differences: moving the configured dates and all
the rows of the input table by `k` minutes gives the same outcome, and the same output table moved by `k`
minutes. -/
theorem C63_time_shift (g : Config) (rows : List RawRow) (file : Option (List OutRow)) (k : ℤ) :
    (runTable (g.later k) (rows.map (RawRow.later k)) file).1 = (runTable g rows file).1 ∧
    ∀ b t, runTable g rows file = (.ok b, some t) →
      (runTable (g.later k) (rows.map (RawRow.later k)) file).2 = some (t.map (OutRow.later k)) := by
  unfold runTable
  rw [read_input_later]
  cases read_input_data g rows with
  | error e => exact ⟨rfl, by intro b t h; cases h⟩
  | ok l =>
    simp only [Except.map, List.map_map]
    have e : (l.map ((fun x : ℤ × Rec => x.2) ∘ fun x => (x.1 + k, x.2))) = l.map (·.2) := rfl
    rw [e]
    obtain ⟨h1, h2⟩ := run_later g k (l.map (·.2)) file
    refine ⟨h1, ?_⟩
    intro b t h
    rw [h2, h]
    rfl

/-- C63: the order of the rows in the input file does not matter, as long as no two rows share a time and
the first two rows are as far apart. -/
theorem C63_row_order (g : Config) (rows rows' : List RawRow) (file : Option (List OutRow))
    (hp : rows.Perm rows') (hn : (rows.map (·.date_time)).Nodup) (hd : firstDelta rows = firstDelta rows') :
    runTable g rows file = runTable g rows' file := by
  have hs : rows.mergeSort (fun a b => decide (a.date_time ≤ b.date_time)) =
      rows'.mergeSort (fun a b => decide (a.date_time ≤ b.date_time)) := by
    have tr : ∀ a b c : RawRow, decide (a.date_time ≤ b.date_time) = true → decide (b.date_time ≤ c.date_time) = true →
        decide (a.date_time ≤ c.date_time) = true := by
      intro a b c; simp only [decide_eq_true_eq]; exact le_trans
    have tot : ∀ a b : RawRow, (decide (a.date_time ≤ b.date_time) || decide (b.date_time ≤ a.date_time)) = true := by
      intro a b; simp [le_total]
    have s1 := List.pairwise_mergeSort tr tot rows
    have s2 := List.pairwise_mergeSort tr tot rows'
    have p1 := List.mergeSort_perm rows (fun a b => decide (a.date_time ≤ b.date_time))
    have p2 := List.mergeSort_perm rows' (fun a b => decide (a.date_time ≤ b.date_time))
    refine List.Perm.eq_of_pairwise ?_ s1 s2 (p1.trans (hp.trans p2.symm))
    intro a b ha hb h1 h2
    have ha' : a ∈ rows := p1.mem_iff.mp ha
    have hb' : b ∈ rows := hp.mem_iff.mpr (p2.mem_iff.mp hb)
    exact List.inj_on_of_nodup_map hn ha' hb' (le_antisymm (by simpa using h1) (by simpa using h2))
  unfold runTable read_input_data windowRows
  rw [hd, hs]

/-- C64: the precipitation of the last record never falls: two runs whose last records differ only in
their precipitation, and both have acceptable precipitation, have the same outcome. -/
theorem C64_last_precipitation_unused (g : Config) (r0 : Rec) (rows : List Rec) (r r' : Rec)
    (hw : r.SameWeather r') (i i' : InputData) (hi : InputData.new r = .ok i) (hi' : InputData.new r' = .ok i') :
    simulate g (r0 :: (rows ++ [r])) = simulate g (r0 :: (rows ++ [r'])) ∧
    ∀ file, run g (r0 :: (rows ++ [r])) file = run g (r0 :: (rows ++ [r'])) file := by
  have key : ∀ c ts all i1 m, do_data_tstep c ts all i1 i m = do_data_tstep c ts all i1 i' m := by
    intro c ts all i1 m
    have e := (new_ok hi).1
    have e' := (new_ok hi').1
    have hd : ∀ t, deltaFor i1 i t = deltaFor i1 i' t := by
      intro t
      unfold deltaFor
      rw [e, e']
      simp [Rec.toInput, hw.S_n, hw.I_lw, hw.t_a, hw.e_a, hw.u, hw.t_g]
    unfold do_data_tstep inputDeltas
    simp only [hd]
  have hr : ∀ c ts all i1 m, runSteps c ts all i1 (rows ++ [r]) m = runSteps c ts all i1 (rows ++ [r']) m := by
    intro c ts all
    induction rows with
    | nil =>
      intro i1 m
      simp only [List.nil_append, runSteps, hi, hi', bind_ok, key]
    | cons x xs ih =>
      intro i1 m
      simp only [List.cons_append, runSteps, ih]
  have hs : simulate g (r0 :: (rows ++ [r])) = simulate g (r0 :: (rows ++ [r'])) := by simp only [simulate, hr]
  exact ⟨hs, fun file => by simp only [run, hs]⟩

/-- No layer of the pack is lighter than `thr`. -/
def Snow.NoThinLayer (thr : ℝ) (s : Snow) : Prop :=
  (s.layer_count = 1 → thr ≤ s.m_s) ∧ (s.layer_count = 2 → thr ≤ s.m_s_0 ∧ thr ≤ s.m_s_l)

theorem below_of_noThin {thr : ℝ} {s : Snow} (h : s.NoThinLayer thr) : below_thold thr s = false := by
  unfold below_thold
  have : s.layer_count = 0 ∨ s.layer_count = 1 ∨ s.layer_count = 2 := by
    unfold Snow.layer_count; split <;> split <;> simp
  rcases this with e | e | e
  · simp [e]
  · simp [e, h.1 e]
  · simp [e, h.2 e]

theorem stepPhys_precip (c : Env) (dt : ℝ) {dl dl' : InputData} (p : Phys)
    (h : p.input1.update_precip_deltas dl = p.input1.update_precip_deltas dl') :
    stepPhys c dt dl p = stepPhys c dt dl' p := by
  unfold stepPhys
  rw [h]

/-- What remains of an object when the working forcing is forgotten. -/
def forget (m : Model) : Snow × AccT × ℤ × List OutRec := (m.phys.snow, m.acc, m.current_datetime, m.output_list)

theorem data_normal_forget {c : Env} {ts : Tsteps} (ht : TileOK ts) {all : Bool} {r1 : Rec} {i1 : InputData}
    (n1 : InputData.new r1 = .ok i1) (i2 i2' : InputData) {m : Model}
    (hb : below_thold (ts .normal).threshold m.phys.snow = false) :
    (do_data_tstep c ts all i1 i2 m).map forget = (do_data_tstep c ts all i1 i2' m).map forget := by
  unfold do_data_tstep
  rw [inputDeltas_total ht n1 i2, inputDeltas_total ht n1 i2', bind_ok, bind_ok, data_tstep_eq, data_tstep_eq]
  unfold Sim.normalBlock
  have hn : ((ts .normal).intervals).toNat = 1 := by rw [ht.n_normal]; rfl
  have e := stepPhys_precip c (ts .normal).time_step
    (dl := (deltaRec i1 i2 ((ts .normal).intervals_per_timestep : ℝ)).toInput)
    (dl' := (deltaRec i1 i2' ((ts .normal).intervals_per_timestep : ℝ)).toInput)
    { m.phys with input1 := i1 } rfl
  cases all <;> simp only [snobalSim, hn, iterM, hb, Sim.do_tstep, e]
  all_goals
    cases stepPhys c (ts .normal).time_step (deltaRec i1 i2' ((ts .normal).intervals_per_timestep : ℝ)).toInput
      { m.phys with input1 := i1 } with
    | error er => rfl
    | ok p =>
      cases h2 : accumulate (ts .normal).time_step p.snow m.acc with
      | error er => simp [h2, Except.map]
      | ok a => cases h3 : a.acc.swi_sum <;> simp [h2, Sim.output, snapshot, h3, Except.map, forget]

/-- C64: a data step that is not divided uses nothing of its second record: if no layer is lighter than the
normal threshold when the last data step begins, two runs that differ in their last record only, whatever
these records are, have the same outcome. -/
theorem C64_undivided_step_uses_first_record (g : Config) (hg : g.Tiled) (r0 : Rec) (rows : List Rec) (m : Model)
    (hm : simulate g (r0 :: rows) = .ok m) (hb : m.phys.snow.NoThinLayer g.norm_threshold)
    (r r' : Rec) (i i' : InputData) (hi : InputData.new r = .ok i) (hi' : InputData.new r' = .ok i')
    (file : Option (List OutRow)) :
    run g (r0 :: (rows ++ [r])) file = run g (r0 :: (rows ++ [r'])) file := by
  have hr : ∀ c ts all i1 r1 m0, TileOK ts → (ts .normal).threshold = g.norm_threshold → InputData.new r1 = .ok i1 →
      runSteps c ts all i1 rows m0 = .ok m →
      (runSteps c ts all i1 (rows ++ [r]) m0).map forget = (runSteps c ts all i1 (rows ++ [r']) m0).map forget := by
    clear hm
    intro c ts all
    induction rows with
    | nil =>
      intro i1 r1 m0 ht hth n1 h
      simp only [runSteps, Except.ok.injEq] at h
      subst h
      have := data_normal_forget (c := c) (all := all) ht n1 i i' (m := m0) (by rw [hth]; exact below_of_noThin hb)
      simp only [List.nil_append, runSteps, hi, hi', bind_ok]
      revert this
      cases do_data_tstep c ts all i1 i m0 <;> cases do_data_tstep c ts all i1 i' m0 <;> simp [Except.map]
    | cons x xs ih =>
      intro i1 r1 m0 ht hth n1 h
      simp only [runSteps] at h
      obtain ⟨i2, hi2, h⟩ := bind_eq_ok.mp h
      obtain ⟨m1, hm1, h⟩ := bind_eq_ok.mp h
      simp only [List.cons_append, runSteps, hi2, bind_ok, hm1]
      exact ih i2 x m1 ht hth hi2 h
  have hs : (simulate g (r0 :: (rows ++ [r]))).map forget = (simulate g (r0 :: (rows ++ [r']))).map forget := by
    unfold simulate at hm ⊢
    dsimp only at hm ⊢
    obtain ⟨ts, hts, hm⟩ := bind_eq_ok.mp hm
    obtain ⟨i1, hi1, hm⟩ := bind_eq_ok.mp hm
    obtain ⟨c, hc, hm⟩ := bind_eq_ok.mp hm
    obtain ⟨m0, hm0, hm⟩ := bind_eq_ok.mp hm
    simp only [hts, hi1, hc, hm0, bind_ok]
    exact hr c ts g.output_all i1 r0 m0 (parse_tile hg hts) (by
      unfold parse_time_steps at hts
      obtain ⟨a, _, hts⟩ := bind_eq_ok.mp hts
      obtain ⟨b, _, hts⟩ := bind_eq_ok.mp hts
      obtain ⟨d, _, hts⟩ := bind_eq_ok.mp hts
      simp only [pure_ok, Except.ok.injEq] at hts
      rw [← hts]) hi1 hm
  unfold run
  revert hs
  cases simulate g (r0 :: (rows ++ [r])) <;> cases simulate g (r0 :: (rows ++ [r'])) <;> simp [Except.map, forget]
  intro _ _ _ h
  rw [h]

end

end Pysnobal
