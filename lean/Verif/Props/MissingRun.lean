import Verif.Lemmas.NanRun

/-! # C77, whole runs: blank cells that do not matter

`Nan.run` and `Nan.runTable` (`NanDriver.lean`) are the whole program over values that may be missing; `run` and
`runTable` are the program over numbers.  `OutRow.ofReal` writes a row of numbers as a row without blanks. -/

namespace Pysnobal

noncomputable section

open Classical

theorem cells_new (r : Rec) : NInput.new r.cells = (InputData.new r).map InputData.cells := by
  have i : InputData := r.toInput
  exact (C77_without_blanks r ⟨0, 0, 0, 0, 0, 0, 0, 0, 0, 0, 0⟩ i i i i ⟨0, 0, 0, 0, 0⟩).1

theorem cells_row (w : RawRow) : nConvertRow w.cells = (convertRow w).cells := by
  have i : InputData := (convertRow w).toInput
  exact (C77_without_blanks (convertRow w) w i i i i ⟨0, 0, 0, 0, 0⟩).2.1

theorem cells_deltaFor (i1 i2 : InputData) (ts : TstepInfo) :
    nDeltaFor i1.cells i2.cells ts = (deltaFor i1 i2 ts).map InputData.cells :=
  (C77_without_blanks ⟨0, 0, 0, 0, 0, 0, 0, 0, 0, 0⟩ ⟨0, 0, 0, 0, 0, 0, 0, 0, 0, 0, 0⟩ i1 i2 i1 i1 ts).2.2.1

namespace Nan

theorem faithful_cells (ts : Tsteps) : Faithful ts (fun n r => n = r.cells) where
  new := by
    rintro n r rfl
    rw [cells_new]
    cases InputData.new r with
    | error e => rfl
    | ok i => exact i.cells_reads
  deltas := by
    rintro n1 r1 n2 r2 d1 i1 d2 i2 rfl rfl e1 e1' e2 e2'
    rw [cells_new, e1'] at e1
    rw [cells_new, e2'] at e2
    cases e1
    cases e2
    unfold inputDeltas Pysnobal.inputDeltas
    rw [cells_deltaFor, cells_deltaFor, cells_deltaFor]
    refine RelE.bind (relE_map _ _) fun a a' ha => ?_
    refine RelE.bind (relE_map _ _) fun b b' hb => ?_
    refine RelE.bind (relE_map _ _) fun c c' hc => ?_
    subst ha hb hc
    intro lv
    cases lv <;> exact InputData.cells_delta _ _

theorem takenAs_delta {n1 : NRec} {r1 : Rec} {i1 i2 : InputData} {d2 : NInput} {ts : TstepInfo}
    (h1 : n1.TakenAs r1) (e1 : InputData.new r1 = .ok i1) (h2 : d2.ReadsAs i2) (hN : 0 < ts.intervals_per_timestep) :
    RelE (fun a b => a.DeltaReads i1.precip_now b) (nDeltaFor n1.toNInput d2 ts) (deltaFor i1 i2 ts) := by
  obtain ⟨n, r, dl', t, q1, q2, q3, q4⟩ := h1.delta e1 h2 hN
  obtain ⟨q5, hr⟩ := t.reads q3
  rw [q1, q2, q3, q5, ← q4]
  exact hr.delta

theorem faithful_taken {ts : Tsteps} (hN : ∀ lv, 0 < (ts lv).intervals_per_timestep) :
    Faithful ts NRec.TakenAs where
  new := by
    intro n r h
    cases e : InputData.new r with
    | ok i => obtain ⟨k1, k2⟩ := h.reads e; rw [k1]; exact k2
    | error x =>
      rw [new_eq] at e
      split at e
      · rename_i hc
        cases e
        obtain ⟨_, _, _, _, _, _, ⟨_, h2⟩ | ⟨h1, h2, h3, h4, _⟩⟩ := h
        · exact absurd hc.1 (not_lt.mpr h2)
        · rw [nnew_eq, if_pos]
          · rfl
          · rw [h1, h3, h4, NVal.mul_some, NVal.lt_some, NVal.lt_some, NVal.lt_some]
            exact ⟨hc.1, hc.2.1, not_lt.mpr hc.2.2⟩
      · cases e
  deltas := by
    intro n1 r1 n2 r2 d1 i1 d2 i2 h1 h2 e1 e1' e2 e2'
    obtain ⟨k1, _⟩ := h1.reads e1'
    obtain ⟨k2, k2'⟩ := h2.reads e2'
    rw [k1] at e1
    rw [k2] at e2
    cases e1
    cases e2
    unfold inputDeltas Pysnobal.inputDeltas
    refine RelE.bind (takenAs_delta h1 e1' k2' (hN .normal)) fun a a' ha => ?_
    refine RelE.bind (takenAs_delta h1 e1' k2' (hN .medium)) fun b b' hb => ?_
    refine RelE.bind (takenAs_delta h1 e1' k2' (hN .small)) fun c c' hc => ?_
    intro lv
    cases lv <;> assumption

end Nan

/-- C77: the whole program over values that may be missing, given forcing without blanks, does what the program over
numbers does: the same outcome, the same error, the same file. -/
theorem C77_complete_forcing_run (g : Config) (rows : List Rec) (table : List RawRow) (file : Option (List OutRow)) :
    Nan.run g (rows.map Rec.cells) (file.map (List.map Nan.OutRow.ofReal)) =
      ((run g rows file).1, (run g rows file).2.map (List.map Nan.OutRow.ofReal)) ∧
    Nan.runTable g (table.map RawRow.cells) (file.map (List.map Nan.OutRow.ofReal)) =
      ((runTable g table file).1, (runTable g table file).2.map (List.map Nan.OutRow.ofReal)) := by
  have hr : ∀ rows : List Rec, Nan.run g (rows.map Rec.cells) (file.map (List.map Nan.OutRow.ofReal)) =
      ((run g rows file).1, (run g rows file).2.map (List.map Nan.OutRow.ofReal)) := fun rows =>
    Nan.run_s g (Nan.simulate_s g (fun ts _ => Nan.faithful_cells ts)
      (List.forall₂_map_left_iff.mpr (List.forall₂_same.mpr fun _ _ => rfl))) file
  refine ⟨hr rows, ?_⟩
  have h1 : Nan.firstDelta (table.map RawRow.cells) = firstDelta table := by
    rcases table with _ | ⟨a, _ | ⟨b, t⟩⟩ <;> rfl
  have h2 : Nan.windowRows g (table.map RawRow.cells) = (windowRows g table).map (List.map RawRow.cells) := by
    unfold Nan.windowRows windowRows
    rw [h1]
    cases firstDelta table with
    | error e => rfl
    | ok d =>
      simp only [bind_ok]
      rw [← List.map_mergeSort (r := fun a b : RawRow => decide (a.date_time ≤ b.date_time)) (fun a _ b _ => rfl),
        List.filter_map]
      rfl
  have h3 : Nan.read_input_data g (table.map RawRow.cells) =
      (read_input_data g table).map (List.map fun x => (x.1, x.2.cells)) := by
    unfold Nan.read_input_data read_input_data
    rw [h2]
    cases windowRows g table with
    | error e => rfl
    | ok w =>
      simp only [Except.map, bind_ok]
      have e : (w.map RawRow.cells).map NRow.date_time = w.map RawRow.date_time := by
        rw [List.map_map]; rfl
      rw [e]
      split
      · simp only [List.map_map, Except.map, pure_ok]
        refine congrArg Except.ok (List.map_congr_left fun r _ => ?_)
        exact congrArg (Prod.mk r.date_time) (cells_row r)
      · rfl
  unfold Nan.runTable runTable
  rw [h3]
  cases read_input_data g table with
  | error e => rfl
  | ok l =>
    simp only [Except.map]
    rw [← hr]
    simp only [List.map_map]
    rfl

/-- C77: blanks that do not matter, in the program itself: the run on a table with such blanks has the outcome, and
leaves the file, of the run on the complete table it is taken for. -/
theorem C77_harmless_blanks_run (g : Config) (hg : g.Tiled) (ns : List NRec) (rows : List Rec)
    (h : List.Forall₂ NRec.TakenAs ns rows) (file : Option (List OutRow)) :
    Nan.run g ns (file.map (List.map Nan.OutRow.ofReal)) =
      ((run g rows file).1, (run g rows file).2.map (List.map Nan.OutRow.ofReal)) :=
  Nan.run_s g (Nan.simulate_s g (fun _ hts => Nan.faithful_taken (fun lv => (parse_tile hg hts).ipt_pos lv)) h) file

end

end Pysnobal
