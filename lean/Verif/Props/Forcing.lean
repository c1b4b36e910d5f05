import Verif.Lemmas.Run

/-! # C01–C05, C47: the forcing -/

namespace Pysnobal

noncomputable section

/-! ## C01 -/

/-- C01: accepted precipitation is split without loss; admissible records give non-negative parts and
the depth of the snowfall carries exactly the mass of the snowfall. -/
theorem C01_precip_partition (r : Rec) (d : InputData) (h : InputData.new r = .ok d) :
    d.m_snow + d.m_rain = r.m_pp ∧ d.m_pp = r.m_pp ∧ d.m_snow = r.m_pp * r.percent_snow ∧
    (0 ≤ r.m_pp → 0 ≤ r.percent_snow → r.percent_snow ≤ 1 → 0 ≤ d.m_snow ∧ 0 ≤ d.m_rain) ∧
    (0 < r.m_pp → 0 < d.m_snow → d.rho_snow = r.rho_snow ∧ d.z_snow * d.rho_snow = d.m_snow ∧
      0 < d.z_snow) ∧
    (d.m_snow ≤ 0 → d.z_snow = 0) := by
  obtain ⟨rfl, hr⟩ := new_ok h
  refine ⟨by simp [Rec.toInput], rfl, rfl, fun h1 h2 h3 => ?_, fun h1 h2 => ?_, fun h1 => ?_⟩
  · simp only [Rec.toInput]
    constructor
    · positivity
    · nlinarith
  · have h2' : 0 < r.m_pp * r.percent_snow := h2
    have := hr h1 h2'
    simp only [Rec.toInput, h1, h2', and_self, if_true, true_and]
    exact ⟨div_mul_cancel₀ _ this.ne', div_pos h2' this⟩
  · have h1' : ¬ 0 < r.m_pp * r.percent_snow := not_lt.mpr h1
    simp only [Rec.toInput, h1', and_false, if_false]

/-- A mixed-phase record: 4 kg/m2, three quarters snow of density 150, at 1 K above freezing. -/
def mixedRec : Rec :=
  { S_n := 0, I_lw := 300, t_a := 274, e_a := 500, u := 2, t_g := 273, m_pp := 4,
    percent_snow := 0.75, rho_snow := 150, t_pp := 274.16 }

/-- non-vacuity of C01, C03 -/
example : ∃ d, InputData.new mixedRec = .ok d ∧ d.m_snow = 3 ∧ d.m_rain = 1 ∧ d.z_snow = 0.02 := by
  refine ⟨mixedRec.toInput, ?_, ?_, ?_, ?_⟩
  · rw [new_eq, if_neg]; norm_num [mixedRec]
  all_goals norm_num [mixedRec, Rec.toInput]

/-! ## C02 -/

/-- C02: a record is rejected exactly when snow falls with a non-positive density, and the only
exception the constructor raises is that `ValueError`. -/
theorem C02_rejects_exactly (r : Rec) :
    ((∃ e, InputData.new r = .error e) ↔
      0 < r.m_pp ∧ 0 < r.m_pp * r.percent_snow ∧ r.rho_snow ≤ 0) ∧
    (∀ e, InputData.new r = .error e → e = .rhoSnow) := by
  rw [new_eq]
  split <;> rename_i hc
  · simp only [hc]
    exact ⟨by simp, fun e he => by simpa [eq_comm] using he⟩
  · exact ⟨by simpa using hc, fun e he => by simp at he⟩

example : InputData.new { mixedRec with rho_snow := 0 } = .error .rhoSnow := by
  rw [new_eq, if_pos]; norm_num [mixedRec]

/-! ## C03 -/

/-- C03: phase and temperature of precipitation are consistent. -/
theorem C03_phase_temperature (r : Rec) (d : InputData) (h : InputData.new r = .ok d)
    (hp : 0 < r.m_pp) :
    (0 < d.m_rain → FREEZE ≤ d.t_rain ∧ d.t_rain = max r.t_pp FREEZE) ∧
    (0 < d.m_snow → d.t_snow ≤ FREEZE) ∧
    (0 < d.m_snow → 0 < d.m_rain ∨ FREEZE ≤ r.t_pp → d.t_snow = FREEZE ∧ d.h2o_sat_snow = 1) ∧
    (0 < d.m_snow → d.m_rain ≤ 0 → r.t_pp < FREEZE → d.t_snow = r.t_pp ∧ d.h2o_sat_snow = 0) ∧
    (0 ≤ d.h2o_sat_snow ∧ d.h2o_sat_snow ≤ 1) := by
  obtain ⟨rfl, hr⟩ := new_ok h
  refine ⟨fun h1 => ?_, fun h1 => ?_, fun h1 h2 => ?_, fun h1 h2 h3 => ?_, ?_⟩
  · have h1' : 0 < r.m_pp - r.m_pp * r.percent_snow := h1
    simp only [Rec.toInput, hp, h1', and_self, if_true]
    split
    · rename_i h; exact ⟨le_refl _, (max_eq_right h.le).symm⟩
    · rename_i h; exact ⟨not_lt.mp h, (max_eq_left (not_lt.mp h)).symm⟩
  · have h1' : 0 < r.m_pp * r.percent_snow := h1
    simp only [Rec.toInput, hp, h1', and_self, if_true]
    split
    · exact le_refl _
    · rename_i h; push Not at h; exact h.2.le
  · have h1' : 0 < r.m_pp * r.percent_snow := h1
    have h2' : 0 < r.m_pp - r.m_pp * r.percent_snow ∨ FREEZE ≤ r.t_pp := h2
    simp only [Rec.toInput, hp, h1', h2', and_self, if_true]
  · have h1' : 0 < r.m_pp * r.percent_snow := h1
    have h2' : ¬ (0 < r.m_pp - r.m_pp * r.percent_snow ∨ FREEZE ≤ r.t_pp) := by
      push Not; exact ⟨h2, h3⟩
    simp only [Rec.toInput, hp, h1', h2', and_self, if_true, if_false, and_false]
  · simp only [Rec.toInput]
    split <;> norm_num

/-! ## C04 -/

theorem stepPhys_keeps {c : Env} {dt : ℝ} {dl : InputData} {p p' : Phys}
    (h : stepPhys c dt dl p = .ok p') :
    p'.input1.S_n = p.input1.S_n ∧ p'.input1.I_lw = p.input1.I_lw ∧ p'.input1.t_a = p.input1.t_a ∧
    p'.input1.u = p.input1.u ∧ p'.input1.t_g = p.input1.t_g ∧ p'.input1.e_a ≤ p.input1.e_a ∧
    p'.input1.precip_now = p.input1.precip_now ∧ p'.input1.t_rain = p.input1.t_rain ∧
    p'.input1.t_snow = p.input1.t_snow ∧ p'.input1.h2o_sat_snow = p.input1.h2o_sat_snow ∧
    p'.input1.rho_snow = p.input1.rho_snow ∧
    (p.input1.precip_now = true → p'.input1.m_pp = dl.m_pp ∧ p'.input1.m_snow = dl.m_snow ∧
      p'.input1.m_rain = dl.m_rain ∧ p'.input1.z_snow = dl.z_snow) := by
  obtain ⟨h1, h2⟩ := stepPhys_input h
  rw [h1]
  unfold applied InputData.update_precip_deltas
  split
  · exact ⟨rfl, rfl, rfl, rfl, rfl, h2, rfl, rfl, rfl, rfl, rfl, fun _ => ⟨rfl, rfl, rfl, rfl⟩⟩
  · rename_i hp
    exact ⟨rfl, rfl, rfl, rfl, rfl, h2, rfl, rfl, rfl, rfl, rfl, fun h => absurd h hp⟩

/-- Forcing along a sequence of run steps. -/
theorem runs_forcing {c : Env} {ts : Tsteps} {all : Bool} {dl : Level → InputData} {m m' : Model}
    {l : List (RStep Phys)} (h : (snobalSim c ts all dl).Runs m l m') :
    m'.phys.input1.S_n = m.phys.input1.S_n + (l.map fun x => (dl x.lv).S_n).sum ∧
    m'.phys.input1.I_lw = m.phys.input1.I_lw + (l.map fun x => (dl x.lv).I_lw).sum ∧
    m'.phys.input1.t_a = m.phys.input1.t_a + (l.map fun x => (dl x.lv).t_a).sum ∧
    m'.phys.input1.u = m.phys.input1.u + (l.map fun x => (dl x.lv).u).sum ∧
    m'.phys.input1.t_g = m.phys.input1.t_g + (l.map fun x => (dl x.lv).t_g).sum ∧
    m'.phys.input1.e_a ≤ m.phys.input1.e_a + (l.map fun x => (dl x.lv).e_a).sum ∧
    ((∀ x ∈ l, x.post.input1.e_a = x.pre.input1.e_a) →
      m'.phys.input1.e_a = m.phys.input1.e_a + (l.map fun x => (dl x.lv).e_a).sum) := by
  induction h with
  | nil => simp
  | @enter st st' l h ih =>
    have e : ∀ (f : InputData → ℝ), (∀ d d', f (InputData.update_precip_deltas d d') = f d) →
        f ((snobalSim c ts all dl).enter .small st.phys).input1 = f st.phys.input1 := by
      intro f hf
      show f (if st.phys.input1.precip_now then _ else _ : Phys).input1 = _
      split
      · exact hf _ _
      · rfl
    rw [← e (·.S_n) (fun _ _ => rfl), ← e (·.I_lw) (fun _ _ => rfl), ← e (·.t_a) (fun _ _ => rfl),
      ← e (·.u) (fun _ _ => rfl), ← e (·.t_g) (fun _ _ => rfl), ← e (·.e_a) (fun _ _ => rfl)]
    exact ih
  | @step st st1 st2 l lv p hb hp hd1 h ih =>
    obtain ⟨p', a, hp', ha, e1, e2, ho⟩ := do_tstep_ok hd1
    rw [hp] at hp'
    cases hp'
    obtain ⟨k1, k2, k3, k4, k5, k6, _⟩ := stepPhys_keeps hp
    have f : st1.phys.input1 = p.input1.add_deltas (dl lv) := by rw [e1]; rfl
    rw [f] at ih
    obtain ⟨i1, i2, i3, i4, i5, i6, i7⟩ := ih
    simp only [InputData.add_deltas, InputData.update_precip_deltas] at i1 i2 i3 i4 i5 i6 i7
    simp only [List.map_cons, List.sum_cons]
    refine ⟨?_, ?_, ?_, ?_, ?_, ?_, fun hx => ?_⟩
    · rw [i1, k1]; ring
    · rw [i2, k2]; ring
    · rw [i3, k3]; ring
    · rw [i4, k4]; ring
    · rw [i5, k5]; ring
    · linarith
    · rw [i7 (fun x hx' => hx x (by simp [hx']))]
      have := hx ⟨lv, st.phys, p⟩ (by simp)
      simp only at this
      rw [this]; ring

theorem share_sum {ts : Tsteps} (ht : TileOK ts) {l : List Level}
    (hl : IsDataStep (ts .normal).intervals.toNat (ts .medium).intervals.toNat
      (ts .small).intervals.toNat l) (x : ℝ) :
    (l.map (fun lv => x / ((ts lv).intervals_per_timestep : ℝ))).sum = x := by
  have : (fun lv => x / ((ts lv).intervals_per_timestep : ℝ)) =
      fun lv => x * (1 / ((ts lv).intervals_per_timestep : ℝ)) := by
    funext lv; ring
  rw [this, List.sum_map_mul_left, ht.share hl, mul_one]

/-- C04: at the end of a data step the working forcing is the second record, however the step was
subdivided; the vapour pressure is at most the second record's, and equal to it if no run step of the
data step clipped it. -/
theorem C04_forcing_reaches_next_record (g : Config) (hg : g.Tiled) (ts : Tsteps)
    (hts : parse_time_steps g = .ok ts) (c : Env) (all : Bool) (i1 i2 : InputData) (m m' : Model)
    (h : do_data_tstep c ts all i1 i2 m = .ok m') :
    m'.phys.input1.S_n = i2.S_n ∧ m'.phys.input1.I_lw = i2.I_lw ∧ m'.phys.input1.t_a = i2.t_a ∧
    m'.phys.input1.u = i2.u ∧ m'.phys.input1.t_g = i2.t_g ∧ m'.phys.input1.e_a ≤ i2.e_a ∧
    ∃ l, Executed c ts all i1 i2 m l m' ∧
      ((∀ x ∈ l, x.post.input1.e_a = x.pre.input1.e_a) → m'.phys.input1.e_a = i2.e_a) := by
  have ht := parse_tile hg hts
  obtain ⟨l, hex⟩ := do_data_executed h
  have hex' := hex
  obtain ⟨dl, mid, hdl, hr, hl, ho⟩ := hex'.parts
  have hm : m'.phys = mid.phys := (Executed.mid_phys ho).1
  have hd : ∀ lv, dl lv = (deltaRec i1 i2 (ts lv).intervals_per_timestep).toInput := fun lv =>
    (deltaFor_ok (inputDeltas_ok hdl lv)).2
  have hw : ∀ x : ℝ, ((l.map fun y => x / ((ts y.lv).intervals_per_timestep : ℝ))).sum = x := by
    intro x
    have := share_sum ht (l := l.map (·.lv)) hl x
    simpa [List.map_map, Function.comp_def] using this
  obtain ⟨h1, h2, h3, h4, h5, h6, h7⟩ := runs_forcing hr
  simp only [hd, Rec.toInput, deltaRec, hw] at h1 h2 h3 h4 h5 h6 h7
  rw [hm]
  refine ⟨by rw [h1]; ring, by rw [h2]; ring, by rw [h3]; ring, by rw [h4]; ring, by rw [h5]; ring,
    by linarith, l, hex, fun hx => ?_⟩
  rw [h7 hx]; ring

/-! ## C05 -/

/-- Precipitation along a sequence of run steps. -/
theorem runs_precip {c : Env} {ts : Tsteps} {all : Bool} {dl : Level → InputData} {m m' : Model}
    {l : List (RStep Phys)} (h : (snobalSim c ts all dl).Runs m l m') :
    ∀ x ∈ l, x.post.input1.precip_now = m.phys.input1.precip_now ∧
      x.post.input1.t_rain = m.phys.input1.t_rain ∧ x.post.input1.t_snow = m.phys.input1.t_snow ∧
      x.post.input1.h2o_sat_snow = m.phys.input1.h2o_sat_snow ∧
      x.post.input1.rho_snow = m.phys.input1.rho_snow ∧
      (m.phys.input1.precip_now = true → x.post.input1.m_pp = (dl x.lv).m_pp ∧
        x.post.input1.m_snow = (dl x.lv).m_snow ∧ x.post.input1.m_rain = (dl x.lv).m_rain ∧
        x.post.input1.z_snow = (dl x.lv).z_snow) := by
  induction h with
  | nil => simp
  | @enter st st' l h ih =>
    have e : ∀ {β : Type} (f : InputData → β), (∀ d d', f (InputData.update_precip_deltas d d') = f d) →
        f ((snobalSim c ts all dl).enter .small st.phys).input1 = f st.phys.input1 := by
      intro β f hf
      show f (if st.phys.input1.precip_now then _ else _ : Phys).input1 = _
      split
      · exact hf _ _
      · rfl
    rw [← e (·.precip_now) (fun _ _ => rfl), ← e (·.t_rain) (fun _ _ => rfl),
      ← e (·.t_snow) (fun _ _ => rfl), ← e (·.h2o_sat_snow) (fun _ _ => rfl),
      ← e (·.rho_snow) (fun _ _ => rfl)]
    exact ih
  | @step st st1 st2 l lv p hb hp hd1 h ih =>
    obtain ⟨p', a, hp', ha, e1, e2, ho⟩ := do_tstep_ok hd1
    rw [hp] at hp'
    cases hp'
    obtain ⟨_, _, _, _, _, _, k1, k2, k3, k4, k5, k6⟩ := stepPhys_keeps hp
    have f : st1.phys.input1 = p.input1.add_deltas (dl lv) := by rw [e1]; rfl
    rw [f] at ih
    simp only [InputData.add_deltas, InputData.update_precip_deltas, k1, k2, k3, k4, k5] at ih
    intro x hx
    rcases List.mem_cons.mp hx with rfl | hx
    · exact ⟨k1, k2, k3, k4, k5, k6⟩
    · exact ih x hx

/-- Precipitation over the run steps of a data step. -/
theorem executed_precip {ts : Tsteps} (ht : TileOK ts) {c : Env} {all : Bool} {r1 : Rec}
    {i1 i2 : InputData} (h1 : InputData.new r1 = .ok i1) {m m' : Model} {l : List (RStep Phys)}
    (hex : Executed c ts all i1 i2 m l m') :
    (0 < r1.m_pp →
        (l.map fun x => x.post.input1.m_pp).sum = r1.m_pp ∧
        (l.map fun x => x.post.input1.m_snow).sum = i1.m_snow ∧
        (l.map fun x => x.post.input1.m_rain).sum = i1.m_rain ∧
        (l.map fun x => x.post.input1.z_snow).sum = i1.z_snow) ∧
      ∀ x ∈ l, x.post.input1.precip_now = decide (0 < r1.m_pp) ∧
        x.post.input1.t_rain = i1.t_rain ∧ x.post.input1.t_snow = i1.t_snow ∧
        x.post.input1.h2o_sat_snow = i1.h2o_sat_snow ∧ x.post.input1.rho_snow = i1.rho_snow := by
  obtain ⟨dl, mid, hdl, hr, hl, ho⟩ := hex.parts
  have hm : m'.phys = mid.phys := (Executed.mid_phys ho).1
  have hd : ∀ lv, dl lv = (deltaRec i1 i2 (ts lv).intervals_per_timestep).toInput := fun lv =>
    (deltaFor_ok (inputDeltas_ok hdl lv)).2
  have hw : ∀ x : ℝ, ((l.map fun y => x / ((ts y.lv).intervals_per_timestep : ℝ))).sum = x := by
    intro x
    have := share_sum ht (l := l.map (·.lv)) hl x
    simpa [List.map_map, Function.comp_def] using this
  obtain ⟨rfl, _⟩ := new_ok h1
  have hp := runs_precip hr
  refine ⟨fun h0 => ?_, fun x hx => ?_⟩
  · have hn : ∀ lv, (0 : ℝ) < ((ts lv).intervals_per_timestep : ℝ) := fun lv => by
      exact_mod_cast ht.ipt_pos lv
    have hx : ∀ x ∈ l,
        x.post.input1.m_pp = r1.m_pp / ((ts x.lv).intervals_per_timestep : ℝ) ∧
        x.post.input1.m_snow = r1.toInput.m_snow / ((ts x.lv).intervals_per_timestep : ℝ) ∧
        x.post.input1.m_rain = r1.toInput.m_rain / ((ts x.lv).intervals_per_timestep : ℝ) ∧
        x.post.input1.z_snow = r1.toInput.z_snow / ((ts x.lv).intervals_per_timestep : ℝ) := by
      intro x hx
      obtain ⟨_, _, _, _, _, k⟩ := hp x hx
      obtain ⟨k1, k2, k3, k4⟩ := k (by simp [Rec.toInput, h0])
      have hnx := hn x.lv
      rw [k1, k2, k3, k4, hd]
      refine ⟨rfl, ?_, ?_, ?_⟩
      · simp only [Rec.toInput, deltaRec]; ring
      · simp only [Rec.toInput, deltaRec]; ring
      · have a1 : 0 < r1.m_pp / ((ts x.lv).intervals_per_timestep : ℝ) := div_pos h0 hnx
        have a2 : 0 < r1.m_pp / ((ts x.lv).intervals_per_timestep : ℝ) * r1.percent_snow ↔
            0 < r1.m_pp * r1.percent_snow := by
          rw [div_mul_eq_mul_div]
          exact div_pos_iff_of_pos_right hnx
        simp only [Rec.toInput, deltaRec, a1, a2, h0, true_and]
        split
        · field_simp
        · simp
    have hsum : ∀ (f : InputData → ℝ) (y : ℝ),
        (∀ x ∈ l, f x.post.input1 = y / ((ts x.lv).intervals_per_timestep : ℝ)) →
        (l.map fun x => f x.post.input1).sum = y := by
      intro f y hf
      rw [List.map_congr_left hf, hw]
    exact ⟨hsum (·.m_pp) _ fun x h => (hx x h).1, hsum (·.m_snow) _ fun x h => (hx x h).2.1,
      hsum (·.m_rain) _ fun x h => (hx x h).2.2.1, hsum (·.z_snow) _ fun x h => (hx x h).2.2.2⟩
  · obtain ⟨k1, k2, k3, k4, k5, _⟩ := hp x hx
    exact ⟨by rw [k1]; rfl, k2, k3, k4, k5⟩

/-- C05: the precipitation handed to the mass balance over the run steps of a data step adds up to the
record's precipitation — total, snow, rain and depth of snowfall — however the step was subdivided;
phase, temperature, wetness and density of the precipitation are the record's in every run step. -/
theorem C05_precip_conserved (g : Config) (hg : g.Tiled) (ts : Tsteps)
    (hts : parse_time_steps g = .ok ts) (c : Env) (all : Bool) (r1 : Rec) (i1 i2 : InputData)
    (h1 : InputData.new r1 = .ok i1) (m m' : Model)
    (h : do_data_tstep c ts all i1 i2 m = .ok m') :
    ∃ l, Executed c ts all i1 i2 m l m' ∧
      (0 < r1.m_pp →
        (l.map fun x => x.post.input1.m_pp).sum = r1.m_pp ∧
        (l.map fun x => x.post.input1.m_snow).sum = i1.m_snow ∧
        (l.map fun x => x.post.input1.m_rain).sum = i1.m_rain ∧
        (l.map fun x => x.post.input1.z_snow).sum = i1.z_snow) ∧
      ∀ x ∈ l, x.post.input1.precip_now = decide (0 < r1.m_pp) ∧
        x.post.input1.t_rain = i1.t_rain ∧ x.post.input1.t_snow = i1.t_snow ∧
        x.post.input1.h2o_sat_snow = i1.h2o_sat_snow ∧ x.post.input1.rho_snow = i1.rho_snow := by
  obtain ⟨l, hex⟩ := do_data_executed h
  exact ⟨l, hex, executed_precip (parse_tile hg hts) h1 hex⟩

end

end Pysnobal
