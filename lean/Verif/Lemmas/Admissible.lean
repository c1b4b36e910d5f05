import Verif.Props.Pack
import Verif.Props.Forcing
import Verif.Lemmas.RunTrace

/-! # Admissible forcing and the run rule for it -/

namespace Pysnobal

noncomputable section

/-- A forcing record is admissible: precipitation is split into non-negative parts and new snow, if any,
is not denser than ice and not colder than 0 K. -/
def Rec.Admissible (r : Rec) : Prop :=
  0 < r.m_pp → 0 ≤ r.percent_snow ∧ r.percent_snow ≤ 1 ∧
    (0 < r.percent_snow → r.rho_snow ≤ RHO_ICE ∧ 0 < r.t_pp)

/-- Admissible parameters of the snow model. -/
structure Env.OK (c : Env) : Prop where
  max_z : 0 < c.max_z_s_0
  small : 0 ≤ c.small_threshold
  vol : 0 ≤ c.max_h2o_vol
  vol_lt : c.max_h2o_vol * RHO_W0 < RHO_ICE

/-- Admissible configuration: a positive active layer, a non-negative threshold and a retention capacity
between 0 and 91 % of the volume. -/
structure Config.Admissible (g : Config) : Prop where
  max_active : 0 < g.max_active
  small_threshold : 0 ≤ g.small_threshold
  max_h2o : 0 ≤ g.max_h2o
  max_h2o_lt : g.max_h2o * RHO_W0 < RHO_ICE

theorem Config.Admissible.env {g : Config} (h : g.Admissible) {c : Env} (hc : mkEnv g = .ok c) : c.OK := by
  obtain ⟨e1, e2, e3, _⟩ := mkEnv_ok hc
  exact ⟨by rw [e1]; exact h.max_active, by rw [e2]; exact h.small_threshold,
    by rw [e3]; exact h.max_h2o, by rw [e3]; exact h.max_h2o_lt⟩

/-- What admissible forcing means for the values a run step uses. -/
structure StepForcing (i : InputData) : Prop where
  m_pp : i.m_pp = i.m_snow + i.m_rain
  snow : 0 ≤ i.m_snow
  rain : 0 ≤ i.m_rain
  z : 0 ≤ i.z_snow
  depth : i.z_snow * i.rho_snow = i.m_snow
  none : i.m_snow = 0 → i.z_snow = 0
  dens : 0 < i.m_snow → 0 < i.rho_snow ∧ i.rho_snow ≤ RHO_ICE ∧ 0 < i.t_snow ∧ i.t_snow ≤ FREEZE
  sat : 0 ≤ i.h2o_sat_snow ∧ i.h2o_sat_snow ≤ 1

theorem toInput_forcing {r : Rec} (h : r.Admissible) (hp : 0 < r.m_pp)
    (hr : 0 < r.m_pp → 0 < r.m_pp * r.percent_snow → 0 < r.rho_snow) : StepForcing r.toInput := by
  obtain ⟨h1, h2, h3⟩ := h hp
  have hs : 0 ≤ r.m_pp * r.percent_snow := by positivity
  have hn : 0 ≤ r.m_pp - r.m_pp * r.percent_snow := by nlinarith
  refine ⟨?_, hs, hn, ?_, ?_, ?_, ?_, ?_⟩
  · simp only [Rec.toInput]; ring
  · simp only [Rec.toInput]
    split
    · rename_i hc
      have := hr hp hc.2
      exact div_nonneg hs this.le
    · exact le_refl _
  · simp only [Rec.toInput]
    split
    · rename_i hc
      have := hr hp hc.2
      field_simp
    · rename_i hc
      have : ¬ 0 < r.m_pp * r.percent_snow := fun h => hc ⟨hp, h⟩
      have : r.m_pp * r.percent_snow = 0 := le_antisymm (not_lt.mp this) hs
      rw [this]; ring
  · simp only [Rec.toInput]
    intro h0
    rw [h0]; simp
  · intro hm
    have hm' : 0 < r.m_pp * r.percent_snow := hm
    have hps : 0 < r.percent_snow := by
      rcases h1.lt_or_eq with h | h
      · exact h
      · rw [← h] at hm'; simp at hm'
    refine ⟨hr hp hm', (h3 hps).1, ?_⟩
    simp only [Rec.toInput]
    rw [if_pos ⟨hp, hm'⟩]
    split
    · norm_num [FREEZE]
    · rename_i hc
      push Not at hc
      exact ⟨(h3 hps).2, hc.2.le⟩
  · simp only [Rec.toInput]
    split <;> norm_num

/-- The working forcing `j` belongs to the record `i` being processed. -/
structure Agree (i j : InputData) : Prop where
  ok : i.precip_now = true → StepForcing i
  now : j.precip_now = i.precip_now
  rho : j.rho_snow = i.rho_snow
  t_snow : j.t_snow = i.t_snow
  sat : j.h2o_sat_snow = i.h2o_sat_snow

/-- The deltas `d` belong to the record `i`: each is a share of the record's precipitation. -/
def ShareOf (i d : InputData) : Prop :=
  i.precip_now = true → ∃ w : ℝ, 0 < w ∧ d.m_pp = w * i.m_pp ∧ d.m_snow = w * i.m_snow ∧
    d.m_rain = w * i.m_rain ∧ d.z_snow = w * i.z_snow

theorem StepForcing.share {i j : InputData} (h : StepForcing i) {w : ℝ} (hw : 0 < w)
    (e1 : j.m_pp = w * i.m_pp) (e2 : j.m_snow = w * i.m_snow) (e3 : j.m_rain = w * i.m_rain)
    (e4 : j.z_snow = w * i.z_snow) (e5 : j.rho_snow = i.rho_snow) (e6 : j.t_snow = i.t_snow)
    (e7 : j.h2o_sat_snow = i.h2o_sat_snow) : StepForcing j := by
  refine ⟨?_, ?_, ?_, ?_, ?_, ?_, ?_, ?_⟩
  · rw [e1, e2, e3, h.m_pp]; ring
  · rw [e2]; exact mul_nonneg hw.le h.snow
  · rw [e3]; exact mul_nonneg hw.le h.rain
  · rw [e4]; exact mul_nonneg hw.le h.z
  · rw [e4, e5, e2, ← h.depth]; ring
  · rw [e2, e4]
    intro h0
    rcases mul_eq_zero.mp h0 with h1 | h1
    · exact absurd h1 hw.ne'
    · rw [h.none h1]; ring
  · rw [e2, e5, e6]
    intro h0
    exact h.dens (pos_of_mul_pos_right h0 hw.le)
  · rw [e7]; exact h.sat

/-- Deltas of admissible records are shares. -/
theorem delta_share {ts : Tsteps} (ht : TileOK ts) {r1 : Rec} {i1 i2 : InputData} {lv : Level}
    {d : InputData} (n1 : InputData.new r1 = .ok i1) (h : deltaFor i1 i2 (ts lv) = .ok d) :
    ShareOf i1 d := by
  obtain ⟨rfl, hr⟩ := new_ok n1
  obtain ⟨_, rfl⟩ := deltaFor_ok h
  intro hp
  have h0 : 0 < r1.m_pp := by simpa [Rec.toInput] using hp
  have hn : (0 : ℝ) < ((ts lv).intervals_per_timestep : ℝ) := by exact_mod_cast ht.ipt_pos lv
  refine ⟨1 / ((ts lv).intervals_per_timestep : ℝ), by positivity, ?_, ?_, ?_, ?_⟩
  · simp only [Rec.toInput, deltaRec]; ring
  · simp only [Rec.toInput, deltaRec]; ring
  · simp only [Rec.toInput, deltaRec]; ring
  · have a1 : 0 < r1.m_pp / ((ts lv).intervals_per_timestep : ℝ) := div_pos h0 hn
    have a2 : 0 < r1.m_pp / ((ts lv).intervals_per_timestep : ℝ) * r1.percent_snow ↔
        0 < r1.m_pp * r1.percent_snow := by
      rw [div_mul_eq_mul_div]
      exact div_pos_iff_of_pos_right hn
    simp only [Rec.toInput, deltaRec, a1, a2, h0, true_and]
    split
    · field_simp
    · simp

theorem step_forcing {c : Env} {dt : ℝ} {i d : InputData} {p p' : Phys} (hd : ShareOf i d)
    (ha : Agree i p.input1) (h : stepPhys c dt d p = .ok p') :
    Agree i p'.input1 ∧ (p'.input1.precip_now = true → StepForcing p'.input1) := by
  obtain ⟨_, _, _, _, _, _, k1, k2, k3, k4, k5, k6⟩ := stepPhys_keeps h
  refine ⟨⟨ha.ok, by rw [k1, ha.now], by rw [k5, ha.rho], by rw [k3, ha.t_snow], by rw [k4, ha.sat]⟩, ?_⟩
  intro hp
  rw [k1, ha.now] at hp
  obtain ⟨w, hw, e1, e2, e3, e4⟩ := hd hp
  obtain ⟨q1, q2, q3, q4⟩ := k6 (by rw [ha.now]; exact hp)
  exact (ha.ok hp).share hw (by rw [q1, e1]) (by rw [q2, e2]) (by rw [q3, e3]) (by rw [q4, e4])
    (by rw [k5, ha.rho]) (by rw [k3, ha.t_snow]) (by rw [k4, ha.sat])

/-- A snow invariant kept by every run step with admissible forcing is an invariant of runs with
admissible records. -/
theorem forcingRule {c : Env} {ts : Tsteps} (ht : TileOK ts) {S O : Snow → Prop}
    (hstep : ∀ lv d p p', S p.snow → (p'.input1.precip_now = true → StepForcing p'.input1) →
      stepPhys c (ts lv).time_step d p = .ok p' → O p'.snow ∧ S p'.snow) :
    RunRule c ts Rec.Admissible (fun i p => S p.snow ∧ Agree i p.input1) ShareOf O where
  record := by
    intro r i0 i p hr hn ⟨hs, _⟩
    obtain ⟨rfl, hr'⟩ := new_ok hn
    refine ⟨hs, ⟨fun hp => ?_, rfl, rfl, rfl, rfl⟩⟩
    exact toInput_forcing hr (by simpa [Rec.toInput] using hp) hr'
  delta := fun r1 r2 i1 i2 lv d _ _ n1 _ h => delta_share ht n1 h
  enter := fun i d p _ ⟨hs, ha⟩ _ => ⟨hs, ha.ok, ha.now, ha.rho, ha.t_snow, ha.sat⟩
  step := by
    intro lv i d p p' hd ⟨hs, ha⟩ h
    obtain ⟨ha', hf⟩ := step_forcing hd ha h
    obtain ⟨hO, hS⟩ := hstep lv d p p' hs hf h
    exact ⟨hO, hS, ha'.ok, ha'.now, ha'.rho, ha'.t_snow, ha'.sat⟩
  idle := .inl ht

/-- Start of a simulation. -/
theorem forcingRule_start {S : Snow → Prop} {r : Rec} {i : InputData} {s : Snow} (hr : r.Admissible)
    (hn : InputData.new r = .ok i) (hs : S s) :
    S s ∧ Agree i i := by
  obtain ⟨rfl, hr'⟩ := new_ok hn
  exact ⟨hs, fun hp => toInput_forcing hr (by simpa [Rec.toInput] using hp) hr', rfl, rfl, rfl, rfl⟩

/-! ## Non-negative water -/

theorem h2o_left_nonneg {d r v : ℝ} (hd : 0 ≤ d) (hr : r ≤ RHO_ICE) (hv : 0 ≤ v) :
    0 ≤ h2o_left d r v := by
  unfold h2o_left RHO_W0
  unfold RHO_ICE at *
  have : 0 ≤ 917 - r := by linarith
  positivity

theorem wet_nonneg {c : Env} (hv : 0 ≤ c.max_h2o_vol) {i : InputData} (h : StepForcing i) :
    0 ≤ wetWater c i := by
  unfold wetWater
  by_cases hm : 0 < i.m_snow
  · exact h2o_left_nonneg h.z (h.dens hm).2.1 (mul_nonneg h.sat.1 hv)
  · have : i.m_snow = 0 := le_antisymm (not_lt.mp hm) h.snow
    rw [h.none this]
    simp [h2o_left]

theorem evapH2o_nonneg {w e : ℝ} (h : 0 ≤ w) : 0 ≤ evapH2o w e := by
  unfold evapH2o
  split
  · dsimp only
    split
    · exact le_refl _
    · rename_i h1; exact (not_le.mp h1).le
  · exact h

theorem capacity_nonneg {c : Env} (hv : 0 ≤ c.max_h2o_vol) {s : Snow} (hi : Inv c s) (h0 : 0 < s.z_s_0)
    (hr : s.rho ≤ 600) (hw : 0 ≤ s.h2o_total) : 0 ≤ capacity c s := by
  unfold capacity
  have hz := hi.z_pos h0
  refine h2o_left_nonneg hz.le ?_ hv
  rw [div_le_iff₀ hz, (hi.pack h0).1]
  unfold RHO_ICE
  nlinarith

/-- water held by freshly initialised snow -/
theorem fresh_h2o_nonneg {c : Env} (hc : c.OK) {s : Snow} {d : ℝ} (hz : 0 < s.z_s)
    (hr : s.rho ≤ RHO_ICE) (hs : 0 ≤ s.h2o_sat ∧ s.h2o_sat ≤ 1)
    (hd : d = (s.rho - s.h2o_sat * c.max_h2o_vol * RHO_W0) /
          (1 - s.h2o_sat * c.max_h2o_vol * RHO_W0 / RHO_ICE)) :
    0 ≤ h2o_left s.z_s d c.max_h2o_vol ∧ 0 ≤ s.h2o_sat * h2o_left s.z_s d c.max_h2o_vol := by
  have hw : s.h2o_sat * c.max_h2o_vol * RHO_W0 < RHO_ICE := by
    have h1 := hc.vol_lt
    have h2 : 0 ≤ c.max_h2o_vol * RHO_W0 := mul_nonneg hc.vol (by norm_num [RHO_W0])
    nlinarith [hs.1, hs.2]
  have hI : (0 : ℝ) < RHO_ICE := by norm_num [RHO_ICE]
  have hden : 0 < 1 - s.h2o_sat * c.max_h2o_vol * RHO_W0 / RHO_ICE := by
    rw [sub_pos, div_lt_one hI]; exact hw
  have hd' : d ≤ RHO_ICE := by
    rw [hd, div_le_iff₀ hden, mul_sub, mul_one, mul_div_cancel₀ _ hI.ne']
    linarith
  have := h2o_left_nonneg hz.le hd' hc.vol
  exact ⟨this, mul_nonneg hs.1 this⟩

end

end Pysnobal
