import Verif.Lemmas.Outcome
import Verif.Lemmas.HleTotal

/-! # A completed run step as the chain of its routines -/

namespace Pysnobal

noncomputable section

/-- The states between the routines of a completed run step. -/
structure StepChain (c : Env) (dt : ℝ) (dl : InputData) (p p' : Phys) (s0 s1 s2 s3 s4 s5 s6 : Snow) :
    Prop where
  start : s0 = { p.snow with h2o_total := 0, snowcover := decide (p.snow.layer_count > 0),
                             E := s0.E, en := s0.en }
  fluxes : p.snow.layer_count = 0 → s0.E = 0 ∧ s0.en = Energy.zero
  temps : 0 < p.snow.layer_count → 0 < p.snow.t_s_0 ∧ (p.snow.layer_count = 2 → 0 < p.snow.t_s_l)
  input : p'.input1 = { applied dl p.input1 with e_a := p'.input1.e_a }
  tc : time_compact c dt s0 = .ok s1
  pe : precip_event c p'.input1 s1 = .ok s2
  sm : snowmelt c dt s2 = .ok s3
  ec : evap_cond c p'.input1 dt s3 = .ok s4
  hc : h2o_compact c p'.input1 s4 = .ok s5
  ro : runoff c s5 = .ok s6
  fin : (s6.snowcover = true ∧ s6.adjust_layer_temps = .ok p'.snow) ∨
    (s6.snowcover = false ∧ p'.snow = s6)
  i0 : Inv c s0
  i1 : Inv c s1
  i2 : Inv c s2
  i3 : Inv c s3
  i4 : Inv c s4
  i5 : Inv c s5
  i6 : Inv c s6
  /-- where the fluxes come from -/
  eb : energy_balance c dt { p with input1 := applied dl p.input1, snow := { p.snow with h2o_total := 0, snowcover := decide (p.snow.layer_count > 0) } } =
    .ok { p' with snow := s0 }

theorem sati_pos {t w : ℝ} (h : sati t = .ok w) : 0 < t := sati_ok_iff.mp ⟨w, h⟩

theorem step_chain {c : Env} (hmax : 0 < c.max_z_s_0) {dt : ℝ} {dl : InputData} {p p' : Phys}
    (hi : Inv c p.snow) (h : stepPhys c dt dl p = .ok p') :
    ∃ s0 s1 s2 s3 s4 s5 s6, StepChain c dt dl p p' s0 s1 s2 s3 s4 s5 s6 := by
  obtain ⟨p1, h1, h2, hp⟩ := stepPhys_ok h
  have hin := (stepPhys_input h).1
  have e := energy_balance_snow h1
  have i0 : Inv c p1.snow := by
    rw [e]
    exact (start_inv hmax hi).frame ⟨rfl, rfl, rfl⟩ ⟨rfl, rfl, rfl, rfl⟩
      (fun _ => ⟨rfl, rfl, rfl, rfl, rfl, rfl⟩) (fun _ => ⟨rfl, rfl⟩) (start_inv hmax hi).flag
  have hp1 : p1.input1 = p'.input1 := by rw [hp]
  rw [hp1] at h2
  obtain ⟨s1, s2, s3, s4, s5, s6, k1, k2, k3, k4, k5, k6, k7⟩ := mass_balance_ok h2
  have i1 := time_compact_inv hmax i0 k1
  have i2 := precip_event_inv hmax i1 k2
  have i3 := snowmelt_inv hmax i2 k3
  have i4 := evap_cond_inv hmax i3 k4
  have i5 := h2o_compact_inv hmax i4 k5
  have i6 := runoff_inv hmax i5 k6
  refine ⟨p1.snow, s1, s2, s3, s4, s5, s6, ⟨e, ?_, ?_, hin, k1, k2, k3, k4, k5, k6, k7, i0, i1, i2, i3, i4, i5,
    i6, ?_⟩⟩
  · intro h0
    rcases energy_balance_ok h1 with ⟨hl, _⟩ | ⟨_, rfl⟩
    · have hl' : 0 < p.snow.layer_count := hl
      omega
    · exact ⟨rfl, rfl⟩
  · intro h0
    rcases energy_balance_ok h1 with ⟨hl, r, p2, G, G0, M, g1, g2, _, _⟩ | ⟨h0', _⟩
    · obtain ⟨_, es, _, g4, _, g5, _⟩ := h_le_ok g1
      refine ⟨sati_pos g4, fun h2 => ?_⟩
      rw [g5] at g2
      unfold heat_transfer at g2
      have hne : ¬ Snow.layer_count { p.snow with
                                         h2o_total := 0
                                         snowcover := decide (p.snow.layer_count > 0) } = 1 := by
        show ¬ p.snow.layer_count = 1
        omega
      simp only [hne, if_false] at g2
      obtain ⟨g, hg, _⟩ := bind_eq_ok.mp g2
      unfold g_soil Snow.e_s_l at hg
      simp only [Bool.false_eq_true, if_false] at hg
      obtain ⟨el, hel, _⟩ := bind_eq_ok.mp hg
      exact sati_pos hel
    · have h0'' : p.snow.layer_count = 0 := h0'
      omega
  · rw [h1, hp]

variable {c : Env} {dt : ℝ} {dl : InputData} {p p' : Phys} {s0 s1 s2 s3 s4 s5 s6 : Snow}

theorem StepChain.flag0 (k : StepChain c dt dl p p' s0 s1 s2 s3 s4 s5 s6) :
    s0.snowcover = decide (p.snow.layer_count > 0) := by rw [k.start]

theorem precip_flag {i : InputData} {s s' : Snow} (hmax : 0 < c.max_z_s_0) (hi : Inv c s)
    (h : precip_event c i s = .ok s') (hf : s'.snowcover = true) : s.snowcover = true := by
  rcases precip_event_ok h with ⟨_, rfl⟩ | ⟨_, hs, _⟩ | ⟨_, hs, _, t, h1, rfl⟩ | ⟨_, hs, _, rfl⟩
  · exact hf
  · exact hs
  · have hf' : t.snowcover = true := hf
    rcases init_snow_out hmax h1 with h2 | h2
    · obtain ⟨_, _, d, _, _, _, _, _, _, _, _, _, _, _, _, _, _, _, _, _, _, _, _, e⟩ := h2
      rw [e] at hf'; exact hf'
    · obtain ⟨_, _, _, _, _, _, _, _, _, _, _, _, _, _, _, _, _, e⟩ := h2
      rw [e] at hf'; exact hf'
  · exact hf

theorem StepChain.flag1 (hmax : 0 < c.max_z_s_0) (k : StepChain c dt dl p p' s0 s1 s2 s3 s4 s5 s6)
    (h : s1.snowcover = true) : s0.snowcover = true ∧ Stay c s0 s0.m_s s1 := by
  rcases time_compact_out hmax k.i0 k.tc with ⟨h1, h2⟩ | ⟨h1, h2, _⟩ | ⟨h1, h2⟩
  · rw [h2] at h; rw [h] at h1; cases h1
  · exact ⟨h1, h2⟩
  · rw [h2.snowcover] at h; cases h

/-- The pack after precipitation has fallen on it. -/
structure Rained (c : Env) (i : InputData) (s s' : Snow) : Prop where
  mass : s'.m_s = s.m_s + (if i.precip_now then i.m_pp else 0)
  water : s'.h2o_total = s.h2o_total + (s.h2o + (if i.precip_now then wetWater c i + i.m_rain else 0))
  h2o : s'.h2o = s.h2o + (if i.precip_now then wetWater c i else 0)
  stay : ∃ t, Stay c s (s.m_s + (if i.precip_now then i.m_pp else 0)) t ∧
    s' = { t with h2o := s'.h2o, h2o_total := s'.h2o_total }

theorem StepChain.flag2 (hmax : 0 < c.max_z_s_0) (k : StepChain c dt dl p p' s0 s1 s2 s3 s4 s5 s6)
    (h : s2.snowcover = true) : s1.snowcover = true ∧ Rained c p'.input1 s1 s2 := by
  have hf := precip_flag hmax k.i1 k.pe h
  refine ⟨hf, ?_⟩
  have h0 := k.i1.flag hf
  rcases precip_event_ok k.pe with ⟨hp, e⟩ | ⟨hp, _, t, ht, e⟩ | ⟨_, hs, _⟩ | ⟨_, hs, _⟩
  · rw [e]
    constructor <;> simp only [hp, Bool.false_eq_true, if_false, add_zero]
    exact ⟨s1, Stay.rfl' h0, rfl⟩
  · rcases adj_snow_cases hmax p'.input1.z_snow p'.input1.m_pp h0 with ⟨a, _⟩ | ⟨a, _⟩
    · rw [← ht] at a
      rw [e]
      constructor <;> simp only [hp, if_true]
      · exact a.m_s
      · rw [a.h2o_total, a.h2o]; ring
      · rw [a.h2o]
      · exact ⟨t, a, rfl⟩
    · rw [← ht] at a
      rw [e] at h
      have h' : t.snowcover = true := h
      rw [a.snowcover] at h'; cases h'
  · rw [hf] at hs; cases hs
  · rw [hf] at hs; cases hs

theorem StepChain.flag3 (hmax : 0 < c.max_z_s_0) (k : StepChain c dt dl p p' s0 s1 s2 s3 s4 s5 s6)
    (h : s3.snowcover = true) : s2.snowcover = true ∧ ∃ t r, MeltRes dt s2 t r ∧ Stay c t s2.m_s s3 := by
  rcases snowmelt_out hmax k.i2 k.sm with ⟨h1, h2⟩ | ⟨h1, t, r, h2, _, h3 | h3⟩
  · rw [h2] at h
    have h' : s2.snowcover = true := h
    rw [h'] at h1; cases h1
  · exact ⟨h1, t, r, h2, h3.1⟩
  · rw [h3.snowcover] at h; cases h

theorem StepChain.flag4 (hmax : 0 < c.max_z_s_0) (k : StepChain c dt dl p p' s0 s1 s2 s3 s4 s5 s6)
    (h : s4.snowcover = true) : s3.snowcover = true ∧ s4.rho ≤ 600 ∧ ∃ el w,
      soilEvap c p'.input1 dt { s3 with h2o_total := evapH2o s3.h2o_total (s3.E * dt) } = .ok el ∧
      w = evapH2o (evapH2o s3.h2o_total (s3.E * dt)) el ∧ s4.E_s = s3.E * dt + el ∧
      Stay c { s3 with h2o_total := w, E_s := s3.E * dt + el } (s3.m_s + s4.E_s) s4 ∧
      (c.small_threshold < s4.m_s ∨ s4.E_s = w - s3.h2o_total) := by
  rcases evap_cond_out hmax k.i3 k.ec with ⟨h1, h2⟩ | ⟨h1, el, w, h2, h3, h4, h5, h6 | h6⟩
  · rw [h2] at h
    have h' : s3.snowcover = true := h
    rw [h'] at h1; cases h1
  · obtain ⟨a, b, d⟩ := h6
    refine ⟨h1, b, el, w, h2, h3, h5, by rw [h5]; exact a, ?_⟩
    rw [a.m_s, h5]; exact d
  · rw [h6.snowcover] at h; cases h

theorem StepChain.flag5 (hmax : 0 < c.max_z_s_0) (k : StepChain c dt dl p p' s0 s1 s2 s3 s4 s5 s6)
    (h : s5.snowcover = true) : s4.snowcover = true ∧ Stay c s4 s4.m_s s5 ∧ s5.rho ≤ 600 := by
  rcases h2o_compact_out hmax k.i4 k.hc with ⟨h1, h2⟩ | ⟨h1, h2 | h2⟩
  · rw [h2] at h; rw [h] at h1; cases h1
  · refine ⟨h1, h2.1, ?_⟩
    have := (k.flag4 hmax h1).2.1
    rcases h2.2 with e | e
    · rw [e]; exact this
    · linarith [e.2]
  · rw [h2.snowcover] at h; cases h

/-- What `runoff` does to a pack that is still there. -/
def Drained (c : Env) (s s' : Snow) : Prop :=
  s'.snowcover = true ∧ s'.rho ≤ 600 ∧ s'.h2o_max = capacity c s ∧
      s'.m_s = s.m_s - s'.swi ∧ s'.h2o + s'.swi = s.h2o_total ∧
      s'.h2o_total = s.h2o_total ∧ s'.melt = s.melt ∧ s'.E_s = s.E_s ∧ s'.E = s.E ∧ s'.en = s.en ∧
      s'.cc_s_0 = s.cc_s_0 ∧ s'.cc_s_l = s.cc_s_l ∧ s'.t_s = s.t_s ∧ s'.t_s_0 = s.t_s_0 ∧
      s'.t_s_l = s.t_s_l ∧ s'.z_s_0 = s.z_s_0 ∧ s'.z_s_l = s.z_s_l ∧ s'.z_s = s.z_s ∧
      ((capacity c s < s.h2o_total ∧ s'.swi = s.h2o_total - capacity c s ∧ s'.h2o = capacity c s ∧
          s'.h2o_sat = 1 ∧ s'.h2o_vol = c.max_h2o_vol) ∨
       (s.h2o_total ≤ capacity c s ∧ capacity c s ≠ 0 ∧ s'.swi = 0 ∧ s'.h2o = s.h2o_total ∧
          s'.h2o_sat = s'.h2o / s'.h2o_max ∧ s'.h2o_vol = s'.h2o_sat * c.max_h2o_vol))

theorem StepChain.drained (hmax : 0 < c.max_z_s_0) (k : StepChain c dt dl p p' s0 s1 s2 s3 s4 s5 s6)
    (h : s5.snowcover = true) : Drained c s5 s6 := by
  have hr := (k.flag5 hmax h).2.2
  rcases runoff_out hmax k.i5 hr k.ro with ⟨h1, _⟩ | ⟨_, h2⟩
  · rw [h] at h1; cases h1
  · exact h2

theorem StepChain.flag6 (k : StepChain c dt dl p p' s0 s1 s2 s3 s4 s5 s6)
    (h : s5.snowcover = false) : s6 = { s5 with swi := s5.h2o_total } := by
  rcases runoff_ok k.ro with ⟨_, e⟩ | ⟨hs, _⟩ | ⟨hs, _⟩
  · exact e
  · rw [h] at hs; cases hs
  · rw [h] at hs; cases hs

/-- `adjust_layer_temps` only writes temperatures. -/
theorem adjust_frame {s s' : Snow} (h : s.adjust_layer_temps = .ok s') :
    s' = { s with t_s := s'.t_s, t_s_0 := s'.t_s_0, t_s_l := s'.t_s_l } := by
  rcases adjust_ok h with ⟨_, t, _, rfl⟩ | ⟨_, _, rfl⟩ | ⟨_, _, _, _, _, _, _, _, rfl⟩ | ⟨_, rfl⟩ <;> rfl

theorem StepChain.frame7 (k : StepChain c dt dl p p' s0 s1 s2 s3 s4 s5 s6) :
    p'.snow = { s6 with t_s := p'.snow.t_s, t_s_0 := p'.snow.t_s_0, t_s_l := p'.snow.t_s_l } := by
  rcases k.fin with ⟨_, h⟩ | ⟨_, h⟩
  · exact adjust_frame h
  · rw [h]

/-- The cover flag at the end says that the pack lasted through every routine. -/
theorem StepChain.persist (hmax : 0 < c.max_z_s_0) (k : StepChain c dt dl p p' s0 s1 s2 s3 s4 s5 s6)
    (h : p'.snow.snowcover = true) :
    s6.snowcover = true ∧ s5.snowcover = true ∧ s4.snowcover = true ∧ s3.snowcover = true ∧
      s2.snowcover = true ∧ s1.snowcover = true ∧ s0.snowcover = true ∧ 0 < p.snow.layer_count := by
  have h6 : s6.snowcover = true := by rw [k.frame7] at h; exact h
  have h5 : s5.snowcover = true := by
    cases hf : s5.snowcover
    · rw [k.flag6 hf] at h6
      have : s5.snowcover = true := h6
      rw [hf] at this; cases this
    · rfl
  have h4 := (k.flag5 hmax h5).1
  have h3 := (k.flag4 hmax h4).1
  have h2 := (k.flag3 hmax h3).1
  have h1 := (k.flag2 hmax h2).1
  have h0 := (k.flag1 hmax h1).1
  refine ⟨h6, h5, h4, h3, h2, h1, h0, ?_⟩
  rw [k.flag0] at h0
  simpa using h0

/-- After the pack has gone the remaining routines only report. -/
theorem StepChain.dead5 (k : StepChain c dt dl p p' s0 s1 s2 s3 s4 s5 s6)
    (h : s5.snowcover = false) : p'.snow = { s5 with swi := s5.h2o_total } := by
  have e := k.flag6 h
  rcases k.fin with ⟨h', _⟩ | ⟨_, h'⟩
  · rw [e] at h'
    have : s5.snowcover = true := h'
    rw [h] at this; cases this
  · rw [h', e]

theorem StepChain.dead4 (k : StepChain c dt dl p p' s0 s1 s2 s3 s4 s5 s6)
    (h : s4.snowcover = false) : p'.snow = { s4 with swi := s4.h2o_total } := by
  have e : s5 = s4 := by
    rcases h2o_compact_ok k.hc with ⟨_, e⟩ | ⟨hs, _⟩
    · exact e
    · rw [h] at hs; cases hs
  rw [← e] at h ⊢
  exact k.dead5 h

theorem StepChain.dead3 (k : StepChain c dt dl p p' s0 s1 s2 s3 s4 s5 s6)
    (h : s3.snowcover = false) : p'.snow = { s3 with E_s := 0, swi := s3.h2o_total } := by
  have e : s4 = { s3 with E_s := 0 } := by
    rcases evap_cond_ok k.ec with ⟨_, e⟩ | ⟨hs, _⟩ | ⟨hs, _⟩
    · exact e
    · rw [h] at hs; cases hs
    · rw [h] at hs; cases hs
  rw [k.dead4 (by rw [e]; exact h), e]

theorem StepChain.dead2 (k : StepChain c dt dl p p' s0 s1 s2 s3 s4 s5 s6)
    (h : s2.snowcover = false) : p'.snow = { s2 with melt := 0, E_s := 0, swi := s2.h2o_total } := by
  have e : s3 = { s2 with melt := 0 } := by
    rcases snowmelt_ok k.sm with ⟨_, e⟩ | ⟨hs, _⟩
    · exact e
    · rw [h] at hs; cases hs
  rw [k.dead3 (by rw [e]; exact h), e]

end

end Pysnobal
