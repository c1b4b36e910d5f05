import Verif.Props.Modes
import Verif.Lemmas.Admissible

/-! # The records of a data step and of a run in terms of the executed run steps -/

namespace Pysnobal

noncomputable section

/-- Totals reported by the records of a data step are the totals over its run steps, and the last record
shows the final snow state. -/
theorem executed_records {ts : Tsteps} (ht : TileOK ts) {c : Env} {all : Bool} {i1 i2 : InputData}
    {m m' : Model} (h0 : m.acc.time_since_out = 0) {l : List (RStep Phys)}
    (hex : Executed c ts all i1 i2 m l m') :
    m'.acc.time_since_out = 0 ∧ l ≠ [] ∧ ∃ rs r, m'.output_list = m.output_list ++ (rs ++ [r]) ∧
      ((rs ++ [r]).map (·.E_s_sum)).sum = (l.map (·.post.snow.E_s)).sum ∧
      ((rs ++ [r]).map (·.melt_sum)).sum = (l.map (·.post.snow.melt)).sum ∧
      ((rs ++ [r]).map (·.swi_sum)).sum = (l.map (·.post.snow.swi)).sum ∧
      r.m_s = m'.phys.snow.m_s := by
  obtain ⟨dl, mid, hdl, hr, hl, ho⟩ := hex.parts
  have hne : l ≠ [] := by
    have := IsDataStep.ne_nil (by simp [ht.n_normal]) (by simpa using ht.m_pos)
      (by simpa using ht.s_pos) hl
    simpa using this
  rcases ho with ⟨rfl, rfl⟩ | ⟨rfl, ho⟩
  · obtain ⟨k1, rs, k2, k3⟩ := runs_acc_all ht hr h0
    have hsum : ∀ (f : OutRec → ℝ) (g : Snow → ℝ),
        (∀ x r, Summarises [stepOf ts x] r → f r = g x.post.snow) →
        (rs.map f).sum = (l.map fun x => g x.post.snow).sum := by
      intro f g hfg
      clear k2 hne hl hr hex
      induction k3 with
      | nil => rfl
      | cons h _ ih => rw [List.map_cons, List.map_cons, List.sum_cons, List.sum_cons, ih, hfg _ _ h]
    have hrs : rs ≠ [] := by
      intro e; subst e; cases k3; exact hne rfl
    obtain ⟨rs', r, e⟩ : ∃ rs' r, rs = rs' ++ [r] :=
      ⟨rs.dropLast, rs.getLast hrs, (List.dropLast_append_getLast hrs).symm⟩
    refine ⟨k1, hne, rs', r, by rw [k2, e], ?_, ?_, ?_, ?_⟩
    · rw [← e]; exact hsum _ (·.E_s) fun x r h => by
        obtain ⟨_, _, _, _, _, _, _, _, h, _, _⟩ := h
        simpa [total, stepOf] using h
    · rw [← e]; exact hsum _ (·.melt) fun x r h => by
        obtain ⟨_, _, _, _, _, _, _, _, _, h, _⟩ := h
        simpa [total, stepOf] using h
    · rw [← e]; exact hsum _ (·.swi) fun x r h => by
        obtain ⟨_, _, _, _, _, _, _, _, _, _, h⟩ := h
        simpa [total, stepOf] using h
    · have key : ∀ {a b : Model} {l : List (RStep Phys)}, (snobalSim c ts true dl).Runs a l b →
          l = [] ∧ b.output_list = a.output_list ∧ b.phys.snow = a.phys.snow ∨
          ∃ rs r, b.output_list = rs ++ [r] ∧ r.m_s = b.phys.snow.m_s := by
        intro a b l h
        induction h with
        | nil => exact .inl ⟨rfl, rfl, rfl⟩
        | @enter st st' l h ih =>
          rcases ih with ⟨e1, e2, e3⟩ | ih
          · refine .inl ⟨e1, e2, e3.trans ?_⟩
            show (if st.phys.input1.precip_now then _ else _ : Phys).snow = _
            split <;> rfl
          · exact .inr ih
        | @step st st1 st2 l lv p hb hp hd1 h ih =>
          right
          rcases ih with ⟨e1, e2, e3⟩ | ih
          · obtain ⟨p', a, hp', ha, g1, g2, ho⟩ := do_tstep_ok hd1
            rw [hp] at hp'
            cases hp'
            rcases ho with ⟨_, r, hr, ho, _⟩ | ⟨ho, _⟩
            · refine ⟨st.output_list, r, by rw [e2, ho], ?_⟩
              have g3 : st1.phys.snow = p.snow := by rw [g1]; rfl
              rw [e3, g3]
              exact (snapshot_snow hr).2.2.2.2.2.2.2.1
            · cases ho
          · exact ih
      rcases key hr with ⟨e1, _⟩ | ⟨rs2, r2, e1, e2⟩
      · exact absurd e1 hne
      · have : m.output_list ++ (rs' ++ [r]) = rs2 ++ [r2] := by
          rw [← e, ← k2, e1]
        rw [← List.append_assoc] at this
        have h3 := (List.append_inj' this rfl).2
        simp only [List.cons.injEq, and_true] at h3
        rw [h3, e2]
  · have ha := runs_acc_normal ht hr (xs := []) ⟨by simp, by simp [duration, h0], fun h => absurd rfl h⟩
    obtain ⟨r, hr', e⟩ := output_ok ho
    subst e
    obtain ⟨r', k1, k2, _⟩ := snapshot_accFor ha (by simpa using hne) mid.phys.snow mid.current_datetime
    have k3 : snapshot mid.phys.snow mid.acc.acc mid.current_datetime = .ok r := hr'
    rw [k1] at k3
    cases k3
    obtain ⟨_, _, _, _, _, _, _, _, q1, q2, q3⟩ := k2
    refine ⟨rfl, hne, [], r, ?_, ?_, ?_, ?_, ?_⟩
    · have := hr.output_nil (by rfl)
      simp only [this, List.nil_append]
    · simp [q1, total, stepOf, Function.comp_def]
    · simp [q2, total, stepOf, Function.comp_def]
    · simp [q3, total, stepOf, Function.comp_def]
    · exact (snapshot_snow hr').2.2.2.2.2.2.2.1

/-- The same for a whole run. -/
theorem dataSteps_records {ts : Tsteps} (ht : TileOK ts) {c : Env} {all : Bool} {i1 : InputData}
    {rs : List Rec} {m m' : Model} {ls : List (List (RStep Phys))}
    (h : DataSteps c ts all i1 rs m ls m') (h0 : m.acc.time_since_out = 0) :
    ∃ out, m'.output_list = m.output_list ++ out ∧
      (out.map (·.E_s_sum)).sum = (ls.map fun l => (l.map (·.post.snow.E_s)).sum).sum ∧
      (out.map (·.melt_sum)).sum = (ls.map fun l => (l.map (·.post.snow.melt)).sum).sum ∧
      (out.map (·.swi_sum)).sum = (ls.map fun l => (l.map (·.post.snow.swi)).sum).sum ∧
      (out = [] ∧ rs = [] ∨ ∃ o r, out = o ++ [r] ∧ r.m_s = m'.phys.snow.m_s) := by
  induction h with
  | nil => exact ⟨[], by simp, by simp, by simp, by simp, .inl ⟨rfl, rfl⟩⟩
  | cons _ _ h3 _ ih =>
    obtain ⟨k1, _, os, r, k2, k3, k4, k5, k6⟩ := executed_records ht h0 h3
    obtain ⟨out, q1, q2, q3, q4, q5⟩ := ih k1
    refine ⟨(os ++ [r]) ++ out, ?_, ?_, ?_, ?_, .inr ?_⟩
    · rw [q1, k2]; simp
    · rw [List.map_append, List.sum_append, k3, q2]; simp
    · rw [List.map_append, List.sum_append, k4, q3]; simp
    · rw [List.map_append, List.sum_append, k5, q4]; simp
    · rcases q5 with ⟨rfl, rfl⟩ | ⟨o, r', rfl, e⟩
      · rename_i h4
        cases h4
        exact ⟨os, r, by simp, k6⟩
      · exact ⟨os ++ [r] ++ o, r', by simp, e⟩

/-- Precipitation over a whole run. -/
theorem dataSteps_precip {ts : Tsteps} (ht : TileOK ts) {c : Env} {all : Bool} :
    ∀ {i1 : InputData} {rs : List Rec} {r1 : Rec} {m m' : Model} {ls : List (List (RStep Phys))},
      InputData.new r1 = .ok i1 → DataSteps c ts all i1 rs m ls m' →
      (ls.map fun l => (l.map fun x => if x.post.input1.precip_now then x.post.input1.m_pp else 0).sum).sum
        = (((r1 :: rs).dropLast).map fun r => max r.m_pp 0).sum := by
  intro i1 rs r1 m m' ls hn h
  induction h generalizing r1 with
  | nil => simp
  | @cons i1 i2 r rs m m1 m' l ls h1 h2 h3 h4 ih =>
    obtain ⟨k1, k2⟩ := executed_precip ht hn h3
    rw [List.map_cons, List.sum_cons, ih h1]
    have : (l.map fun x => if x.post.input1.precip_now then x.post.input1.m_pp else 0).sum =
        max r1.m_pp 0 := by
      by_cases hp : 0 < r1.m_pp
      · rw [max_eq_left hp.le, ← (k1 hp).1]
        congr 1
        refine List.map_congr_left fun x hx => ?_
        rw [(k2 x hx).1]; simp [hp]
      · rw [max_eq_right (not_lt.mp hp)]
        have : ∀ x ∈ l, (if x.post.input1.precip_now then x.post.input1.m_pp else 0) = (0 : ℝ) := by
          intro x hx
          rw [(k2 x hx).1]; simp [hp]
        rw [List.map_congr_left this]
        simp
    rw [this]
    simp

end

end Pysnobal
