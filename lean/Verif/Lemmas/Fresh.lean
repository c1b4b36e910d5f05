import Verif.Lemmas.Water

/-! # Run steps that end without the cover flag: bare ground or a pack of fresh snow -/

namespace Pysnobal

noncomputable section

variable {c : Env} {dt : ℝ} {dl : InputData} {p p' : Phys} {s0 s1 s2 s3 s4 s5 s6 : Snow}

/-- The pack that snowfall `i` on bare ground `s1` leaves at the end of the run step. -/
def FreshPack (c : Env) (i : InputData) (s1 s' : Snow) : Prop :=
  i.precip_now = true ∧ 0 < i.m_snow ∧ ∃ t, init_snow c (freshSnow i s1) = .ok t ∧
    0 < t.layer_count ∧ s' = { t with melt := 0, E_s := 0, h2o_total := t.h2o_total + (t.h2o + i.m_rain)
                                      swi := t.h2o_total + (t.h2o + i.m_rain) }

theorem StepChain.bare1 (hmax : 0 < c.max_z_s_0) (k : StepChain c dt dl p p' s0 s1 s2 s3 s4 s5 s6)
    (h : s1.snowcover = false) : s1.layer_count = 0 := by
  rcases time_compact_out hmax k.i0 k.tc with ⟨h1, rfl⟩ | ⟨h1, h2, _⟩ | ⟨h1, h2⟩
  · have := k.flag0
    rw [h1] at this
    have h' : ¬ p.snow.layer_count > 0 := by simpa using this.symm
    have e : s1.layer_count = p.snow.layer_count := by rw [k.start]; rfl
    omega
  · rw [h2.snowcover, h1] at h; cases h
  · exact h2.lc

theorem StepChain.ended (hmax : 0 < c.max_z_s_0) (k : StepChain c dt dl p p' s0 s1 s2 s3 s4 s5 s6)
    (h : p'.snow.snowcover = false) :
    p'.snow.layer_count = 0 ∨ FreshPack c p'.input1 s1 p'.snow := by
  have h5 : s5.snowcover = false := by
    cases hf : s5.snowcover
    · rfl
    · exfalso
      have h6 := (k.drained hmax hf).1
      rw [k.frame7] at h
      have : s6.snowcover = false := h
      rw [h6] at this; cases this
  by_cases h4 : s4.snowcover = true
  · left
    rw [k.dead5 h5]
    show s5.layer_count = 0
    rcases h2o_compact_out hmax k.i4 k.hc with ⟨h1, _⟩ | ⟨_, h2 | h2⟩
    · rw [h4] at h1; cases h1
    · rw [h2.1.snowcover, h4] at h5; cases h5
    · exact h2.lc
  have h4' : s4.snowcover = false := by simpa using h4
  by_cases h3 : s3.snowcover = true
  · left
    rw [k.dead4 h4']
    show s4.layer_count = 0
    rcases evap_cond_out hmax k.i3 k.ec with ⟨h1, _⟩ | ⟨_, el, w, _, _, _, _, h6 | h6⟩
    · rw [h3] at h1; cases h1
    · exfalso
      rw [h6.1.snowcover] at h4'
      have : s3.snowcover = false := h4'
      rw [h3] at this; cases this
    · exact h6.lc
  have h3' : s3.snowcover = false := by simpa using h3
  by_cases h2 : s2.snowcover = true
  · left
    rw [k.dead3 h3']
    show s3.layer_count = 0
    rcases snowmelt_out hmax k.i2 k.sm with ⟨h1, _⟩ | ⟨_, t, r, hm, _, h6 | h6⟩
    · rw [h2] at h1; cases h1
    · exfalso
      rw [h6.1.snowcover, hm.frame] at h3'
      have : s2.snowcover = false := h3'
      rw [h2] at this; cases this
    · exact h6.lc
  have h2' : s2.snowcover = false := by simpa using h2
  rw [k.dead2 h2']
  rcases precip_event_ok k.pe with ⟨_, e⟩ | ⟨_, hs, t, ht, e⟩ | ⟨hp, hs, hm, t, ht, e⟩ | ⟨_, hs, _, e⟩
  · left
    have hs : s1.snowcover = false := by rw [e] at h2'; exact h2'
    rw [e]
    show s1.layer_count = 0
    exact k.bare1 hmax hs
  · left
    rcases adj_snow_cases hmax p'.input1.z_snow p'.input1.m_pp (k.i1.flag hs) with ⟨a, _⟩ | ⟨a, _⟩
    · exfalso
      rw [e] at h2'
      have h2'' : t.snowcover = false := h2'
      rw [ht, a.snowcover, hs] at h2''; cases h2''
    · rw [e, ht]
      exact a.lc
  · by_cases h0 : t.layer_count = 0
    · left
      rw [e]; exact h0
    · right
      refine ⟨hp, hm, t, ht, Nat.pos_of_ne_zero h0, ?_⟩
      rw [e]
  · left
    rw [e]
    show s1.layer_count = 0
    exact k.bare1 hmax hs

/-- A variant of `forcingRule` that keeps a property `Q` of the records in reach. -/
theorem forcingRuleQ {c : Env} {ts : Tsteps} (ht : TileOK ts) (Q : InputData → Prop) {S O : Snow → Prop}
    (hstep : ∀ lv d p p' i, S p.snow → Q i → Agree i p'.input1 →
      (p'.input1.precip_now = true → StepForcing p'.input1) →
      stepPhys c (ts lv).time_step d p = .ok p' → O p'.snow ∧ S p'.snow) :
    RunRule c ts (fun r => r.Admissible ∧ ∀ i, InputData.new r = .ok i → Q i)
      (fun i p => S p.snow ∧ Agree i p.input1 ∧ Q i) ShareOf O where
  record := by
    intro r i0 i p hr hn ⟨hs, _⟩
    have hq := hr.2 i hn
    obtain ⟨rfl, hr'⟩ := new_ok hn
    refine ⟨hs, ⟨fun hp => ?_, rfl, rfl, rfl, rfl⟩, hq⟩
    exact toInput_forcing hr.1 (by simpa [Rec.toInput] using hp) hr'
  delta := fun r1 r2 i1 i2 lv d _ _ n1 _ h => delta_share ht n1 h
  enter := fun i d p _ ⟨hs, ha, hq⟩ _ => ⟨hs, ⟨ha.ok, ha.now, ha.rho, ha.t_snow, ha.sat⟩, hq⟩
  step := by
    intro lv i d p p' hd ⟨hs, ha, hq⟩ h
    obtain ⟨ha', hf⟩ := step_forcing hd ha h
    obtain ⟨hO, hS⟩ := hstep lv d p p' i hs hq ha' hf h
    exact ⟨hO, hS, ⟨ha'.ok, ha'.now, ha'.rho, ha'.t_snow, ha'.sat⟩, hq⟩
  idle := .inl ht

theorem forcingRuleQ_start {Q : InputData → Prop} {S : Snow → Prop} {r : Rec} {i : InputData} {s : Snow}
    (hr : r.Admissible ∧ ∀ i, InputData.new r = .ok i → Q i)
    (hn : InputData.new r = .ok i) (hs : S s) : S s ∧ Agree i i ∧ Q i :=
  ⟨hs, (forcingRule_start (S := S) hr.1 hn hs).2, hr.2 i hn⟩

end

end Pysnobal
