import Verif.Props.Vapour
import Verif.Props.Start

/-! # C60: temperatures and cold contents agree after every run step -/

namespace Pysnobal

noncomputable section

variable {c : Env} {dt : ℝ} {dl : InputData} {p p' : Phys} {s0 s1 s2 s3 s4 s5 s6 : Snow}

/-- The temperature of a lower layer, before temperatures are recomputed, is one of the temperatures of the pack
at the start of the step. -/
theorem StepChain.lower_temp (hmax : 0 < c.max_z_s_0) (k : StepChain c dt dl p p' s0 s1 s2 s3 s4 s5 s6)
    (hs : s6.snowcover = true) (h2 : s6.layer_count = 2) : s6.t_s_l ∈ packTemps p.snow ∧
      s6.t_s = p.snow.t_s ∧ s6.t_s_0 = p.snow.t_s_0 := by
  have hs' : s5.snowcover = true := by
    by_contra h
    have := k.flag6 (by simpa using h)
    rw [this] at hs
    exact h hs
  obtain ⟨f4, st5, _⟩ := k.flag5 hmax hs'
  obtain ⟨f3, _, el, w, hel, hw, hE, st4, _⟩ := k.flag4 hmax f4
  obtain ⟨f2, t, r, hm, st3⟩ := k.flag3 hmax f3
  obtain ⟨f1, rn⟩ := k.flag2 hmax f2
  obtain ⟨f0, st1⟩ := k.flag1 hmax f1
  obtain ⟨u, ru, ru'⟩ := rn.stay
  have e0 : s0.layer_count = p.snow.layer_count ∧ s0.t_s = p.snow.t_s ∧ s0.t_s_l = p.snow.t_s_l ∧
      s0.t_s_0 = p.snow.t_s_0 := by rw [k.start]; exact ⟨rfl, rfl, rfl, rfl⟩
  have eu : s2.layer_count = u.layer_count ∧ s2.t_s = u.t_s ∧ s2.t_s_l = u.t_s_l ∧ s2.t_s_0 = u.t_s_0 := by
    rw [ru']; exact ⟨rfl, rfl, rfl, rfl⟩
  have et : t.layer_count = s2.layer_count ∧ t.t_s = s2.t_s ∧ t.t_s_l = s2.t_s_l ∧ t.t_s_0 = s2.t_s_0 := by
    rw [hm.frame]; exact ⟨rfl, rfl, rfl, rfl⟩
  obtain ⟨_, _, _, _, _, _, _, _, _, _, _, _, d1, d2, d3, d4, d5, _⟩ := k.drained hmax hs'
  have p3 : 0 < s3.layer_count := (k.i3.lc_pos_iff hmax).mpr (k.i3.flag f3)
  have p4 : 0 < s4.layer_count := (k.i4.lc_pos_iff hmax).mpr (k.i4.flag f4)
  have m3 : s3.t_s = p.snow.t_s := by
    rw [st3.t_s, et.2.1, eu.2.1, ru.t_s, st1.t_s, e0.2.1]
  have m4 : s4.t_s = p.snow.t_s := by rw [st4.t_s]; exact m3
  have hmean : p.snow.t_s ∈ packTemps p.snow := by unfold packTemps; split <;> simp
  refine ⟨?_, by rw [d1, st5.t_s, m4], ?_⟩
  · rw [d3]
    have l5 : s5.layer_count = 2 := by
      rw [lc_eq_two] at h2 ⊢
      rw [← d4, ← d5]; exact h2
    rcases st5.base p4 l5 with ⟨a, b⟩ | ⟨_, b⟩
    · rw [b]
      rcases st4.base p3 a with ⟨a', b'⟩ | ⟨_, b'⟩
      · rw [b']
        have h := k.base_temp hmax f3
        rw [if_pos (show s3.layer_count = 2 from a')] at h
        exact h
      · rw [b']
        show s3.t_s ∈ _
        rw [m3]; exact hmean
    · rw [b, m4]; exact hmean
  · rw [d2, st5.t_s_0, st4.t_s_0]
    show s3.t_s_0 = _
    rw [st3.t_s_0, et.2.2.2, eu.2.2.2, ru.t_s_0, st1.t_s_0, e0.2.2.2]

theorem StepChain.surface_temp (hmax : 0 < c.max_z_s_0) (k : StepChain c dt dl p p' s0 s1 s2 s3 s4 s5 s6)
    (hs : s6.snowcover = true) : s6.t_s_0 = p.snow.t_s_0 := by
  have hs' : s5.snowcover = true := by
    by_contra h
    have := k.flag6 (by simpa using h)
    rw [this] at hs
    exact h hs
  obtain ⟨f4, st5, _⟩ := k.flag5 hmax hs'
  obtain ⟨f3, _, el, w, hel, hw, hE, st4, _⟩ := k.flag4 hmax f4
  obtain ⟨f2, t, r, hm, st3⟩ := k.flag3 hmax f3
  obtain ⟨f1, rn⟩ := k.flag2 hmax f2
  obtain ⟨f0, st1⟩ := k.flag1 hmax f1
  obtain ⟨u, ru, ru'⟩ := rn.stay
  have e0 : s0.t_s_0 = p.snow.t_s_0 := by rw [k.start]
  have eu : s2.t_s_0 = u.t_s_0 := by rw [ru']
  have et : t.t_s_0 = s2.t_s_0 := by rw [hm.frame]
  obtain ⟨_, _, _, _, _, _, _, _, _, _, _, _, d1, d2, _⟩ := k.drained hmax hs'
  rw [d2, st5.t_s_0, st4.t_s_0]
  show s3.t_s_0 = _
  rw [st3.t_s_0, et, eu, ru.t_s_0, st1.t_s_0, e0]

theorem new_tsno_cold {m t cc x : ℝ} (h : new_tsno m t cc = .ok x) : cc = cp_ice t * m * (x - FREEZE) := by
  unfold new_tsno at h
  obtain ⟨q, hq, h⟩ := bind_eq_ok.mp h
  rw [pdiv_eq_ok] at hq
  simp only [pure_ok, Except.ok.injEq] at h
  rw [← h, hq.2]
  have := hq.1
  have h1 : m ≠ 0 := fun h => this (by rw [h, zero_mul])
  have h2 : cp_ice t ≠ 0 := fun h => this (by rw [h, mul_zero])
  field_simp
  ring

/-- C60, run step: after every run step the temperatures of the pack are those of its cold contents.  Through a
step that the cover lasts, the heat capacity is that of ice at the temperatures the step started with: the cold
content is the heat capacity times mass times temperature below freezing, for the surface layer, for the lower
layer and for the whole pack; a two-layer pack whose cold contents add up to zero is at freezing throughout, and
the one layer of a one-layer pack has the temperature of the pack.  A pack that fell in the step has the
temperature of the precipitation throughout. -/
theorem C60_temperature_step (g : Config) (hmax : 0 < g.max_active) (rows : List Rec)
    (ls : List (List (RStep Phys))) (m : Model) (h : RunTrace g rows ls m) :
    ∀ l ∈ ls, ∀ x ∈ l,
      (x.post.snow.snowcover = true → x.post.snow.layer_count = 1 →
        x.post.snow.t_s = x.post.snow.t_s_0 ∧ x.post.snow.cc_s_l = 0 ∧
        x.post.snow.cc_s_0 =
          cp_ice x.pre.snow.t_s_0 * x.post.snow.m_s_0 * (x.post.snow.t_s_0 - FREEZE)) ∧
      (x.post.snow.snowcover = true → x.post.snow.layer_count = 2 →
        x.post.snow.cc_s_0 + x.post.snow.cc_s_l = 0 →
        x.post.snow.t_s = FREEZE ∧ x.post.snow.t_s_0 = FREEZE ∧ x.post.snow.t_s_l = FREEZE) ∧
      (x.post.snow.snowcover = true → x.post.snow.layer_count = 2 →
        x.post.snow.cc_s_0 + x.post.snow.cc_s_l ≠ 0 →
        x.post.snow.cc_s_0 =
          cp_ice x.pre.snow.t_s_0 * x.post.snow.m_s_0 * (x.post.snow.t_s_0 - FREEZE) ∧
        (∃ T ∈ packTemps x.pre.snow,
          x.post.snow.cc_s_l = cp_ice T * x.post.snow.m_s_l * (x.post.snow.t_s_l - FREEZE)) ∧
        x.post.snow.cc_s_0 + x.post.snow.cc_s_l =
          cp_ice x.pre.snow.t_s * x.post.snow.m_s * (x.post.snow.t_s - FREEZE)) ∧
      (x.post.snow.snowcover = false → 0 < x.post.snow.layer_count →
        x.post.snow.t_s_0 = x.post.input1.t_snow ∧ x.post.snow.t_s = x.post.input1.t_snow ∧
        x.post.snow.cc_s_0 = coldAt x.post.input1.t_snow x.post.snow.m_s_0 ∧
        (x.post.snow.layer_count = 2 → x.post.snow.t_s_l = x.post.input1.t_snow ∧
          x.post.snow.cc_s_l = coldAt x.post.input1.t_snow x.post.snow.m_s_l)) := by
  obtain ⟨c, ts, hc, hts, hm, hx⟩ := trace_step hmax h
  intro l hl x hxl
  obtain ⟨d, h1, h2, h3⟩ := hx l hl x hxl
  obtain ⟨s0, s1, s2, s3, s4, s5, s6, k⟩ := step_chain hm h1 h3
  have fin : x.post.snow.snowcover = true → s6.snowcover = true ∧ s6.adjust_layer_temps = .ok x.post.snow := by
    intro hs
    have f6 := (k.persist hm hs).1
    rcases k.fin with ⟨_, h⟩ | ⟨h, _⟩
    · exact ⟨f6, h⟩
    · rw [f6] at h; cases h
  have fr := k.frame7
  have g1 : x.post.snow.cc_s_0 = s6.cc_s_0 ∧ x.post.snow.cc_s_l = s6.cc_s_l ∧ x.post.snow.m_s = s6.m_s ∧
      x.post.snow.layer_count = s6.layer_count ∧ x.post.snow.m_s_0 = s6.m_s_0 ∧ x.post.snow.m_s_l = s6.m_s_l := by
    rw [fr]; exact ⟨rfl, rfl, rfl, rfl, rfl, rfl⟩
  obtain ⟨g1, g2, g3, g4, g5, g6⟩ := g1
  refine ⟨fun hs hlc => ?_, fun hs hlc hz => ?_, fun hs hlc hz => ?_, fun hs hlc => ?_⟩
  · obtain ⟨f6, hadj⟩ := fin hs
    rw [g4] at hlc
    rcases adjust_ok hadj with ⟨_, t, ht, e⟩ | ⟨h2, _⟩ | ⟨h2, _⟩ | ⟨h2, _⟩
    · have z6 := k.i6.flag f6
      have hzl : s6.z_s_l = 0 := by
        rcases k.i6.zl.eq_or_lt with h | h
        · exact h.symm
        · have := (k.i6.toL z6).lc.2 h; omega
      refine ⟨by rw [e], by rw [g2]; exact (k.i6.one hzl).2.1, ?_⟩
      have := new_tsno_cold ht
      rw [k.surface_temp hm f6] at this
      rw [g1, g5, this, e]
    · omega
    · omega
    · omega
  · obtain ⟨f6, hadj⟩ := fin hs
    rw [g4] at hlc
    rw [g1, g2] at hz
    rcases adjust_ok hadj with ⟨h2, _⟩ | ⟨_, _, e⟩ | ⟨_, hn, _⟩ | ⟨h2, _⟩
    · omega
    · rw [e]; exact ⟨rfl, rfl, rfl⟩
    · exact absurd hz hn
    · omega
  · obtain ⟨f6, hadj⟩ := fin hs
    rw [g4] at hlc
    obtain ⟨q1, q2, q3⟩ := k.lower_temp hm f6 hlc
    rw [g1, g2] at hz
    rcases adjust_ok hadj with ⟨h2, _⟩ | ⟨_, hn, _⟩ | ⟨_, _, t0, tl, t, k0, kl, kt, e⟩ | ⟨h2, _⟩
    · omega
    · exact absurd hn hz
    · refine ⟨?_, ⟨_, q1, ?_⟩, ?_⟩
      · rw [g1, g5, new_tsno_cold k0, q3, e]
      · rw [g2, g6, new_tsno_cold kl, e]
      · rw [g1, g2, g3, new_tsno_cold kt, q2, e]
    · omega
  · rcases k.ended hm hs with h | ⟨hp, hm', t, ht, hlt, e⟩
    · omega
    · rcases init_snow_out hm ht with h | h
      · obtain ⟨_, _, d, _, _, _, _, _, _, _, _, _, _, _, q5, q6, q7, q8, _⟩ := h
        have e1 : x.post.snow.t_s_0 = t.t_s_0 ∧ x.post.snow.t_s = t.t_s ∧ x.post.snow.cc_s_0 = t.cc_s_0 ∧
            x.post.snow.m_s_0 = t.m_s_0 ∧ x.post.snow.layer_count = t.layer_count ∧ x.post.snow.t_s_l = t.t_s_l ∧
            x.post.snow.cc_s_l = t.cc_s_l ∧ x.post.snow.m_s_l = t.m_s_l := by
          rw [e]; exact ⟨rfl, rfl, rfl, rfl, rfl, rfl, rfl, rfl⟩
        obtain ⟨a1, a2, a3, a4, a5, a6, a7, a8⟩ := e1
        rw [a1, a2, a3, a4, a5, a6, a7, a8, q5, q6, q7, ← cold_content_spec, ← cold_content_spec]
        refine ⟨rfl, rfl, rfl, fun h2 => ?_⟩
        rcases q8 with ⟨b, _⟩ | ⟨_, b1, b2⟩
        · omega
        · exact ⟨b1, b2⟩
      · obtain ⟨_, _, _, _, hz0, hzl, _⟩ := h
        have : t.layer_count = 0 := lc_eq_zero.mpr ⟨hz0, hzl.le⟩
        omega

end

end Pysnobal
