import Verif.Lemmas.Steps

/-! # Preservation of the structural invariant by every routine of a run step -/

namespace Pysnobal

noncomputable section

/-- Frame rule for the structural invariant. -/
theorem Inv.frame {c : Env} {s s' : Snow} (h : Inv c s)
    (h1 : s'.z_s = s.z_s ∧ s'.z_s_0 = s.z_s_0 ∧ s'.z_s_l = s.z_s_l)
    (h2 : s'.m_s = s.m_s ∧ s'.m_s_0 = s.m_s_0 ∧ s'.m_s_l = s.m_s_l ∧ s'.rho = s.rho)
    (h3 : s.z_s_0 ≤ 0 → s'.cc_s_0 = s.cc_s_0 ∧ s'.t_s = s.t_s ∧ s'.t_s_0 = s.t_s_0 ∧
      s'.h2o_sat = s.h2o_sat ∧ s'.h2o_vol = s.h2o_vol ∧ s'.h2o_max = s.h2o_max)
    (h4 : s.z_s_l = 0 → s'.cc_s_l = s.cc_s_l ∧ s'.t_s_l = s.t_s_l)
    (h5 : s'.snowcover = true → 0 < s.z_s_0) : Inv c s' := by
  obtain ⟨a1, a2, a3⟩ := h1
  obtain ⟨b1, b2, b3, b4⟩ := h2
  refine ⟨?_, ?_, ?_, ?_, ?_, ?_, ?_⟩
  · rw [a1, a2, a3]; exact h.sum
  · rw [a3]; exact h.zl
  · rw [a2, a3]; exact h.full
  · rw [a3, b3]; intro hl; obtain ⟨e1, e2⟩ := h4 hl; rw [e1, e2]; exact h.one hl
  · rw [a2, b1, b2, b4]; intro hl
    obtain ⟨e1, e2, e3, e4, e5, e6⟩ := h3 hl
    rw [e1, e2, e3, e4, e5, e6]; exact h.bare hl
  · rw [a1, a2, a3, b1, b2, b3, b4]; exact h.pack
  · rw [a2]; exact h5

theorem time_compact_inv {c : Env} (hmax : 0 < c.max_z_s_0) {dt : ℝ} {s s' : Snow} (hi : Inv c s)
    (h : time_compact c dt s = .ok s') : Inv c s' := by
  rcases time_compact_ok h with ⟨_, rfl⟩ | ⟨hs, _, _, _, _, _, _, _, _, hr, rfl⟩
  · exact hi
  · refine adj_layers_inv hmax ((hi.toL (hi.flag hs)).frame rfl rfl rfl rfl rfl) ?_ (fun _ => trivial)
    intro _
    exact (mul_div_cancel₀ _ hr).symm

theorem precip_event_inv {c : Env} (hmax : 0 < c.max_z_s_0) {i : InputData} {s s' : Snow}
    (hi : Inv c s) (h : precip_event c i s = .ok s') : Inv c s' := by
  rcases precip_event_ok h with ⟨_, rfl⟩ | ⟨_, hs, s1, rfl, rfl⟩ | ⟨_, hs, _, s1, h1, rfl⟩ | ⟨_, _, _, rfl⟩
  · exact hi.frame ⟨rfl, rfl, rfl⟩ ⟨rfl, rfl, rfl, rfl⟩ (fun _ => ⟨rfl, rfl, rfl, rfl, rfl, rfl⟩)
      (fun _ => ⟨rfl, rfl⟩) hi.flag
  · have := adj_snow_inv hmax hi (hi.flag hs) i.z_snow i.m_pp
    exact this.frame ⟨rfl, rfl, rfl⟩ ⟨rfl, rfl, rfl, rfl⟩ (fun _ => ⟨rfl, rfl, rfl, rfl, rfl, rfl⟩)
      (fun _ => ⟨rfl, rfl⟩) this.flag
  · have := init_snow_inv hmax h1 hs
    exact this.frame ⟨rfl, rfl, rfl⟩ ⟨rfl, rfl, rfl, rfl⟩ (fun _ => ⟨rfl, rfl, rfl, rfl, rfl, rfl⟩)
      (fun _ => ⟨rfl, rfl⟩) this.flag
  · exact hi.frame ⟨rfl, rfl, rfl⟩ ⟨rfl, rfl, rfl, rfl⟩ (fun _ => ⟨rfl, rfl, rfl, rfl, rfl, rfl⟩)
      (fun _ => ⟨rfl, rfl⟩) hi.flag

theorem MeltRes.inv {c : Env} {dt : ℝ} {s s1 : Snow} {r : ℝ} (m : MeltRes dt s s1 r) (hi : Inv c s)
    (h0 : 0 < s.z_s_0) : Inv c s1 := by
  have hf := m.frame
  refine hi.frame (by rw [hf]; exact ⟨rfl, rfl, rfl⟩) (by rw [hf]; exact ⟨rfl, rfl, rfl, rfl⟩)
    (fun h => absurd h0 (not_lt.mpr h)) ?_ (fun _ => h0)
  intro hl
  have := (hi.toL h0).lc.1 hl
  exact ⟨m.one (by omega), by rw [hf]⟩

theorem snowmelt_inv {c : Env} (hmax : 0 < c.max_z_s_0) {dt : ℝ} {s s' : Snow}
    (hi : Inv c s) (h : snowmelt c dt s = .ok s') : Inv c s' := by
  rcases snowmelt_ok h with ⟨_, rfl⟩ | ⟨hs, s1, r, m, h⟩
  · exact hi.frame ⟨rfl, rfl, rfl⟩ ⟨rfl, rfl, rfl, rfl⟩ (fun _ => ⟨rfl, rfl, rfl, rfl, rfl, rfl⟩)
      (fun _ => ⟨rfl, rfl⟩) hi.flag
  · have h0 := hi.flag hs
    have h1 := m.inv hi h0
    rcases h with ⟨_, _, rfl⟩ | ⟨_, rfl⟩
    · refine adj_snow_inv hmax h1 ?_ _ _
      rw [m.frame]; exact h0
    · exact h1

theorem evap_cond_inv {c : Env} (hmax : 0 < c.max_z_s_0) {i : InputData} {dt : ℝ} {s s' : Snow}
    (hi : Inv c s) (h : evap_cond c i dt s = .ok s') : Inv c s' := by
  rcases evap_cond_ok h with ⟨_, rfl⟩ | ⟨_, _, rfl⟩ | ⟨hs, _, el, w, _, _, _, rfl⟩
  · exact hi.frame ⟨rfl, rfl, rfl⟩ ⟨rfl, rfl, rfl, rfl⟩ (fun _ => ⟨rfl, rfl, rfl, rfl, rfl, rfl⟩)
      (fun _ => ⟨rfl, rfl⟩) hi.flag
  · exact hi.frame ⟨rfl, rfl, rfl⟩ ⟨rfl, rfl, rfl, rfl⟩ (fun _ => ⟨rfl, rfl, rfl, rfl, rfl, rfl⟩)
      (fun _ => ⟨rfl, rfl⟩) hi.flag
  · have : Inv c { s with h2o_total := w, E_s := s.E * dt + el } :=
      hi.frame ⟨rfl, rfl, rfl⟩ ⟨rfl, rfl, rfl, rfl⟩ (fun _ => ⟨rfl, rfl, rfl, rfl, rfl, rfl⟩)
        (fun _ => ⟨rfl, rfl⟩) hi.flag
    exact adj_snow_inv hmax this (hi.flag hs) _ _

theorem h2o_compact_inv {c : Env} (hmax : 0 < c.max_z_s_0) {i : InputData} {s s' : Snow}
    (hi : Inv c s) (h : h2o_compact c i s = .ok s') : Inv c s' := by
  rcases h2o_compact_ok h with ⟨_, rfl⟩ | ⟨hs, _, w, _, ⟨_, rfl⟩ | ⟨_, r, _, hr, rfl⟩⟩
  · exact hi
  · exact hi
  · refine adj_layers_inv hmax ((hi.toL (hi.flag hs)).frame rfl rfl rfl rfl rfl) ?_ (fun _ => trivial)
    intro _
    show s.m_s = r * (s.m_s / r)
    field_simp

theorem runoff_inv {c : Env} (hmax : 0 < c.max_z_s_0) {s s' : Snow}
    (hi : Inv c s) (h : runoff c s = .ok s') : Inv c s' := by
  rcases runoff_ok h with ⟨_, rfl⟩ | ⟨hs, _, _, _, rfl⟩ | ⟨hs, _, _, _, _, rfl⟩
  · exact hi.frame ⟨rfl, rfl, rfl⟩ ⟨rfl, rfl, rfl, rfl⟩ (fun _ => ⟨rfl, rfl, rfl, rfl, rfl, rfl⟩)
      (fun _ => ⟨rfl, rfl⟩) hi.flag
  · have h0 := hi.flag hs
    have : Inv c { s with h2o_max := capacity c s, swi := s.h2o_total - capacity c s,
                          h2o := capacity c s, h2o_sat := 1, h2o_vol := c.max_h2o_vol } :=
      hi.frame ⟨rfl, rfl, rfl⟩ ⟨rfl, rfl, rfl, rfl⟩ (fun h => absurd h0 (not_lt.mpr h))
        (fun _ => ⟨rfl, rfl⟩) hi.flag
    exact adj_snow_inv hmax this h0 _ _
  · have h0 := hi.flag hs
    exact hi.frame ⟨rfl, rfl, rfl⟩ ⟨rfl, rfl, rfl, rfl⟩ (fun h => absurd h0 (not_lt.mpr h))
      (fun _ => ⟨rfl, rfl⟩) hi.flag

theorem adjust_inv {c : Env} {s s' : Snow} (hi : Inv c s) (hs : s.snowcover = true)
    (h : s.adjust_layer_temps = .ok s') : Inv c s' := by
  have h0 := hi.flag hs
  rcases adjust_ok h with ⟨_, t, _, rfl⟩ | ⟨h2, _, rfl⟩ | ⟨h2, _, _, _, _, _, _, _, rfl⟩ | ⟨_, rfl⟩
  · exact hi.frame ⟨rfl, rfl, rfl⟩ ⟨rfl, rfl, rfl, rfl⟩ (fun h => absurd h0 (not_lt.mpr h))
      (fun _ => ⟨rfl, rfl⟩) hi.flag
  · have := (lc_eq_two.mp h2).2
    exact hi.frame ⟨rfl, rfl, rfl⟩ ⟨rfl, rfl, rfl, rfl⟩ (fun h => absurd h0 (not_lt.mpr h))
      (fun h => by rw [h] at this; exact absurd this (lt_irrefl _)) hi.flag
  · have := (lc_eq_two.mp h2).2
    exact hi.frame ⟨rfl, rfl, rfl⟩ ⟨rfl, rfl, rfl, rfl⟩ (fun h => absurd h0 (not_lt.mpr h))
      (fun h => by rw [h] at this; exact absurd this (lt_irrefl _)) hi.flag
  · exact hi

theorem mass_balance_inv {c : Env} (hmax : 0 < c.max_z_s_0) {i : InputData} {dt : ℝ} {s s' : Snow}
    (hi : Inv c s) (h : mass_balance c i dt s = .ok s') : Inv c s' := by
  obtain ⟨s1, s2, s3, s4, s5, s6, h1, h2, h3, h4, h5, h6, h7⟩ := mass_balance_ok h
  have i6 := runoff_inv hmax (h2o_compact_inv hmax (evap_cond_inv hmax (snowmelt_inv hmax
    (precip_event_inv hmax (time_compact_inv hmax hi h1) h2) h3) h4) h5) h6
  rcases h7 with ⟨hs, h7⟩ | ⟨_, rfl⟩
  · exact adjust_inv i6 hs h7
  · exact i6

/-- `energy_balance` leaves the pack alone except for its fluxes. -/
theorem energy_balance_snow {c : Env} {dt : ℝ} {p p' : Phys} (h : energy_balance c dt p = .ok p') :
    p'.snow = { p.snow with E := p'.snow.E, en := p'.snow.en } := by
  rcases energy_balance_ok h with ⟨_, r, p1, G, G0, M, _, _, _, rfl⟩ | ⟨_, rfl⟩ <;> rfl

theorem energy_balance_input {c : Env} {dt : ℝ} {p p' : Phys} (h : energy_balance c dt p = .ok p') :
    p'.input1 = { p.input1 with e_a := p'.input1.e_a } ∧ p'.input1.e_a ≤ p.input1.e_a := by
  rcases energy_balance_ok h with ⟨_, r, p1, G, G0, M, h1, _, _, rfl⟩ | ⟨_, rfl⟩
  · obtain ⟨sv, _, _, _, e, _⟩ := h_le_ok h1
    show p1.input1 = { p.input1 with e_a := p1.input1.e_a } ∧ p1.input1.e_a ≤ p.input1.e_a
    rw [e]
    exact ⟨rfl, min_le_left _ _⟩
  · exact ⟨rfl, le_refl _⟩

theorem start_inv {c : Env} (hmax : 0 < c.max_z_s_0) {s : Snow} (hi : Inv c s) :
    Inv c { s with h2o_total := 0, snowcover := decide (s.layer_count > 0) } :=
  hi.frame ⟨rfl, rfl, rfl⟩ ⟨rfl, rfl, rfl, rfl⟩ (fun _ => ⟨rfl, rfl, rfl, rfl, rfl, rfl⟩)
    (fun _ => ⟨rfl, rfl⟩) (fun h => (hi.lc_pos_iff hmax).mp (by simpa using h))

theorem stepPhys_inv {c : Env} (hmax : 0 < c.max_z_s_0) {dt : ℝ} {dl : InputData} {p p' : Phys}
    (hi : Inv c p.snow) (h : stepPhys c dt dl p = .ok p') : Inv c p'.snow := by
  obtain ⟨p1, h1, h2, _⟩ := stepPhys_ok h
  have e := energy_balance_snow h1
  have : Inv c p1.snow := by
    rw [e]
    exact (start_inv hmax hi).frame ⟨rfl, rfl, rfl⟩ ⟨rfl, rfl, rfl, rfl⟩
      (fun _ => ⟨rfl, rfl, rfl, rfl, rfl, rfl⟩) (fun _ => ⟨rfl, rfl⟩) (start_inv hmax hi).flag
  exact mass_balance_inv hmax this h2

/-- The forcing after a run step is the applied forcing, possibly with a lower vapour pressure. -/
theorem stepPhys_input {c : Env} {dt : ℝ} {dl : InputData} {p p' : Phys}
    (h : stepPhys c dt dl p = .ok p') :
    p'.input1 = { applied dl p.input1 with e_a := p'.input1.e_a } ∧
      p'.input1.e_a ≤ p.input1.e_a := by
  obtain ⟨p1, h1, _, h2⟩ := stepPhys_ok h
  have e := energy_balance_input h1
  have : p'.input1 = p1.input1 := by rw [h2]
  rw [this]
  refine ⟨e.1, e.2.trans ?_⟩
  show (applied dl p.input1).e_a ≤ _
  unfold applied InputData.update_precip_deltas
  split <;> exact le_refl _

end

end Pysnobal
