import Verif.Lemmas.RunTrace

/-! # Records show the state after some run step; induction along the run steps of a simulation -/

namespace Pysnobal

noncomputable section

/-- The record `r` shows the snow state after the run step `x`. -/
def ShownAfter (r : OutRec) (x : RStep Phys) : Prop := ∃ a t, snapshot x.post.snow a t = .ok r

theorem Runs.shown {c : Env} {ts : Tsteps} {all : Bool} {dl : Level → InputData} {m m' : Model}
    {l : List (RStep Phys)} (h : (snobalSim c ts all dl).Runs m l m') :
    (l = [] ∨ ∃ x ∈ l, m'.phys.snow = x.post.snow) ∧
      (∀ r ∈ m'.output_list, r ∈ m.output_list ∨ ∃ x ∈ l, ShownAfter r x) := by
  suffices H : (l = [] ∧ m'.phys.snow = m.phys.snow ∨ ∃ x ∈ l, m'.phys.snow = x.post.snow) ∧
      (∀ r ∈ m'.output_list, r ∈ m.output_list ∨ ∃ x ∈ l, ShownAfter r x) by
    exact ⟨H.1.imp (·.1) id, H.2⟩
  induction h with
  | nil => exact ⟨.inl ⟨rfl, rfl⟩, fun r hr => .inl hr⟩
  | @enter st st' l h ih =>
    refine ⟨?_, ih.2⟩
    rcases ih.1 with ⟨e1, e2⟩ | h
    · refine .inl ⟨e1, e2.trans ?_⟩
      show (if st.phys.input1.precip_now then _ else _ : Phys).snow = _
      split <;> rfl
    · exact .inr h
  | @step st st1 st2 l lv p hb hp hd1 h ih =>
    obtain ⟨p', a, hp', ha, e1, e2, ho⟩ := do_tstep_ok hd1
    rw [hp] at hp'
    cases hp'
    have e3 : st1.phys.snow = p.snow := by rw [e1]; rfl
    refine ⟨.inr ?_, fun r hr => ?_⟩
    · rcases ih.1 with ⟨_, h⟩ | ⟨x, hx, h⟩
      · exact ⟨⟨lv, st.phys, p⟩, by simp, by rw [h, e3]⟩
      · exact ⟨x, by simp [hx], h⟩
    · rcases ih.2 r hr with h5 | ⟨x, hx, h⟩
      · rcases ho with ⟨_, r', hr', ho, _⟩ | ⟨_, ho, _⟩
        · rw [ho] at h5
          rcases List.mem_append.mp h5 with h6 | h6
          · exact .inl h6
          · rw [List.mem_singleton] at h6
            subst h6
            exact .inr ⟨⟨lv, st.phys, p⟩, by simp, _, _, hr'⟩
        · rw [ho] at h5; exact .inl h5
      · exact .inr ⟨x, by simp [hx], h⟩

theorem DataSteps.shown {c : Env} {ts : Tsteps} (ht : TileOK ts) {all : Bool} {i1 : InputData}
    {rs : List Rec} {m m' : Model} {ls : List (List (RStep Phys))}
    (h : DataSteps c ts all i1 rs m ls m') :
    ∀ r ∈ m'.output_list, r ∈ m.output_list ∨ ∃ l ∈ ls, ∃ x ∈ l, ShownAfter r x := by
  induction h with
  | nil => exact fun r hr => .inl hr
  | @cons i1 i2 r0 rs m m1 m' l ls h1 h2 h3 h4 ih =>
    intro r hr
    rcases ih r hr with h | ⟨l', hl', h⟩
    · obtain ⟨dl, mid, hdl, hrn, hl, ho⟩ := h3.parts
      obtain ⟨k1, k2⟩ := Runs.shown hrn
      have hne : l ≠ [] := by
        have := IsDataStep.ne_nil (by simp [ht.n_normal]) (by simpa using ht.m_pos)
          (by simpa using ht.s_pos) hl
        simpa using this
      rcases ho with ⟨_, rfl⟩ | ⟨_, ho⟩
      · rcases k2 r h with h | ⟨x, hx, h⟩
        · exact .inl h
        · exact .inr ⟨l, by simp, x, hx, h⟩
      · obtain ⟨r', hr', e⟩ := output_ok ho
        rw [e] at h
        rcases List.mem_append.mp h with h | h
        · rcases k2 r h with h | ⟨x, hx, h⟩
          · exact .inl h
          · exact .inr ⟨l, by simp, x, hx, h⟩
        · rw [List.mem_singleton] at h
          subst h
          rcases k1 with h | ⟨x, hx, h⟩
          · exact absurd h hne
          · refine .inr ⟨l, by simp, x, hx, mid.acc.acc, mid.current_datetime, ?_⟩
            rw [← h]; exact hr'
    · exact .inr ⟨l', by simp [hl'], h⟩

/-- Every record of a simulation shows the snow state at the end of one of its run steps. -/
theorem RunTrace.shown {g : Config} (hg : g.Tiled) {rows : List Rec} {ls : List (List (RStep Phys))}
    {m : Model} (h : RunTrace g rows ls m) :
    ∀ r ∈ m.output_list, ∃ l ∈ ls, ∃ x ∈ l, ShownAfter r x := by
  obtain ⟨c, ts, i1, m0, r, rs, rfl, e1, e2, e3, e4, e5⟩ := h
  have ht := parse_tile hg e1
  intro r hr
  rcases e5.shown ht r hr with h | h
  · rw [(mkModel_ok e4).2.1] at h; simp at h
  · exact h

theorem Runs.induct {c : Env} {ts : Tsteps} {all : Bool} {dl : Level → InputData} {m m' : Model}
    {l : List (RStep Phys)} (h : (snobalSim c ts all dl).Runs m l m') {P : Snow → Prop}
    (h0 : P m.phys.snow) (hs : ∀ x ∈ l, P x.pre.snow → P x.post.snow) :
    P m'.phys.snow ∧ ∀ x ∈ l, P x.pre.snow ∧ P x.post.snow := by
  induction h with
  | nil => exact ⟨h0, by simp⟩
  | @enter st st' l h ih =>
    refine ih ?_ hs
    show P (if st.phys.input1.precip_now then _ else _ : Phys).snow
    split <;> exact h0
  | @step st st1 st2 l lv p hb hp hd1 h ih =>
    obtain ⟨p', a, hp', ha, e1, e2, ho⟩ := do_tstep_ok hd1
    rw [hp] at hp'
    cases hp'
    have e3 : st1.phys.snow = p.snow := by rw [e1]; rfl
    have hp1 : P p.snow := hs ⟨lv, st.phys, p⟩ (by simp) h0
    obtain ⟨k1, k2⟩ := ih (by rw [e3]; exact hp1) (fun x hx => hs x (by simp [hx]))
    refine ⟨k1, fun x hx => ?_⟩
    rcases List.mem_cons.mp hx with rfl | hx
    · exact ⟨h0, hp1⟩
    · exact k2 x hx

/-- Induction along the run steps of a simulation: what holds of the initial snow and is preserved by
every executed run step holds before and after every run step and at the end. -/
theorem RunTrace.induct {g : Config} {rows : List Rec} {ls : List (List (RStep Phys))} {m : Model}
    (h : RunTrace g rows ls m) {P : Snow → Prop}
    (h0 : ∀ c s, mkEnv g = .ok c → init_snow c (recordSnow g) = .ok s → P s)
    (hs : ∀ l ∈ ls, ∀ x ∈ l, P x.pre.snow → P x.post.snow) :
    P m.phys.snow ∧ ∀ l ∈ ls, ∀ x ∈ l, P x.pre.snow ∧ P x.post.snow := by
  obtain ⟨c, ts, i1, m0, r, rs, rfl, e1, e2, e3, e4, e5⟩ := h
  have k0 : P m0.phys.snow := h0 c _ e2 (mkModel_ok e4).2.2.2.1
  clear e4 e3 e1 h0
  induction e5 with
  | nil => exact ⟨k0, by simp⟩
  | @cons i1 i2 r0 rs m m1 m' l ls h1 h2 h3 h4 ih =>
    obtain ⟨dl, mid, hdl, hrn, hl, ho⟩ := h3.parts
    obtain ⟨q1, q2⟩ := Runs.induct hrn (P := P) k0 (hs l (by simp))
    obtain ⟨q3, q4⟩ := ih (fun l hl => hs l (by simp [hl])) (by rw [(Executed.mid_phys ho).1]; exact q1)
    refine ⟨q3, fun l' hl' => ?_⟩
    rcases List.mem_cons.mp hl' with rfl | hl'
    · exact q2
    · exact q4 l' hl'

end

end Pysnobal
