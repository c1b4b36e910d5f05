import Verif.Props.Compaction
import Verif.Props.Water
import Verif.Lemmas.MassProgress

/-! # C62: when the snow cover ends -/

namespace Pysnobal

noncomputable section

variable {c : Env}

/-- Vapour exchange with the pack: the ice loses no more than the pack, and if the pack gains, so does the ice. -/
theorem vapour_ice (h e0 e1 : ℝ) : (e0 + e1 ≤ 0 → evapH2o (evapH2o h e0) e1 ≤ h) ∧
    (0 ≤ e0 + e1 → evapH2o (evapH2o h e0) e1 - h ≤ VAP_SUB * (e0 + e1)) ∧
    (e0 + e1 = evapH2o (evapH2o h e0) e1 - h → e0 + e1 = 0 ∨ (e0 < 0 ∧ 0 < e1 ∧ evapH2o (evapH2o h e0) e1 = 0)) := by
  have v0 : 0 < VAP_SUB := by norm_num [VAP_SUB]
  have v1 : VAP_SUB < 1 := by norm_num [VAP_SUB]
  unfold evapH2o
  dsimp only
  by_cases hh : h > 0
  · simp only [hh, if_true]
    by_cases h0 : h + e0 * VAP_SUB ≤ 0
    · simp only [h0, if_true, lt_irrefl, if_false, gt_iff_lt]
      refine ⟨fun _ => hh.le, fun h1 => ?_, fun h1 => ?_⟩
      · have := mul_nonneg v0.le h1; linarith
      · have he : e0 < 0 := by
          by_contra hn
          have := mul_nonneg (not_lt.mp hn) v0.le
          linarith
        refine .inr ⟨he, ?_, trivial⟩
        nlinarith
    · simp only [h0, if_false]
      rw [if_pos (not_le.mp h0)]
      by_cases h1 : h + e0 * VAP_SUB + e1 * VAP_SUB ≤ 0
      · simp only [h1, if_true]
        refine ⟨fun _ => hh.le, fun h2 => ?_, fun h2 => ?_⟩
        · have := mul_nonneg v0.le h2; linarith
        · exfalso
          have : (e0 + e1) * VAP_SUB ≤ -h := by linarith
          nlinarith
      · simp only [h1, if_false]
        refine ⟨fun h2 => ?_, fun h2 => ?_, fun h2 => ?_⟩
        · have := mul_nonpos_of_nonneg_of_nonpos v0.le h2; linarith
        · linarith
        · have : (e0 + e1) * (1 - VAP_SUB) = 0 := by linarith
          rcases mul_eq_zero.mp this with h | h
          · exact .inl h
          · linarith
  · simp only [hh, if_false]
    exact ⟨fun _ => le_refl _, fun h1 => by have := mul_nonneg v0.le h1; linarith, fun h1 => .inl (by linarith)⟩

theorem time_compact_flag {dt : ℝ} (hdt : 0 < dt) (hc : c.OK) {s s' : Snow} (hi : Inv c s) (hs : s.snowcover = true)
    (hm : c.small_threshold < s.m_s) (h : time_compact c dt s = .ok s') : s'.snowcover = true := by
  have h0 := hi.flag hs
  have hr := inv_rho_pos hi h0 (lt_of_le_of_lt hc.small hm)
  rcases time_compact_out hc.max_z hi h with ⟨h1, rfl⟩ | ⟨_, h2, _⟩ | ⟨_, h2⟩
  · exact hs
  · rw [h2.snowcover]; exact hs
  · exfalso
    rcases time_compact_ok h with ⟨_, e⟩ | ⟨_, _, rate, d1, d2, q1, _, q2, q3, _, e⟩
    · rw [e] at h2
      have := h2.snowcover
      rw [hs] at this; cases this
    · obtain ⟨r, k1, k2, _⟩ := compactRate_pos hdt s
      rw [q1] at k1
      cases k1
      have hm0 : 0 < s.m_s := lt_of_le_of_lt hc.small hm
      have hd1 : 0 < d1 := by
        rw [q2]
        have : (0:ℝ) < if s.rho < 100 then 1 else Real.exp (-0.046 * (s.rho - 100)) := by
          split
          · norm_num
          · exact Real.exp_pos _
        positivity
      have hd2 : 0 < d2 := by rw [q3]; positivity
      have hr' : 0 < s.rho + (d1 + d2) * s.rho := by have := hr.1; positivity
      rcases adj_layers_cases hc.max_z { s with rho := s.rho + (d1 + d2) * s.rho
                                                z_s := s.m_s / (s.rho + (d1 + d2) * s.rho) } with ⟨a, _⟩ | ⟨_, a | a⟩
      · rw [← e] at a
        have := a.snowcover
        rw [h2.snowcover] at this
        have h3 : s.snowcover = false := this.symm
        rw [hs] at h3; cases h3
      · exact absurd hm (not_lt.mpr a)
      · have : 0 < s.m_s / (s.rho + (d1 + d2) * s.rho) := by positivity
        exact absurd this (not_lt.mpr a)

/-- A pack heavier than the smallest threshold lasts through a run step if less melts than it holds and
sublimation leaves it above the threshold, and with one exception only then. -/
theorem StepChain.lasts {dt : ℝ} {dl : InputData} {p p' : Phys} {s0 s1 s2 s3 s4 s5 s6 : Snow} (hc : c.OK)
    (hdt : 0 < dt) (k : StepChain c dt dl p p' s0 s1 s2 s3 s4 s5 s6)
    (hf : p'.input1.precip_now = true → StepForcing p'.input1) (hl : 0 < p.snow.layer_count)
    (hm : c.small_threshold < p.snow.m_s) {M : ℝ}
    (hM : M = p.snow.m_s + if p'.input1.precip_now then p'.input1.m_pp else 0) :
    (p'.snow.melt < M → c.small_threshold < M + p'.snow.E_s → p'.snow.snowcover = true) ∧
    (p'.snow.snowcover = true → p'.snow.melt < M ∧ (c.small_threshold < M + p'.snow.E_s ∨
      (p'.snow.E < 0 ∧ p'.snow.E * dt < p'.snow.E_s ∧ p'.snow.h2o_total = 0))) := by
  have f0 : s0.snowcover = true := by rw [k.flag0]; exact decide_eq_true hl
  have m0 : s0.m_s = p.snow.m_s := by rw [k.start]
  have f1 : s1.snowcover = true := time_compact_flag hdt hc k.i0 f0 (by rw [m0]; exact hm) k.tc
  have m1 : s1.m_s = p.snow.m_s := by rw [((k.flag1 hc.max_z f1).2).m_s, m0]
  have z1 := k.i1.flag f1
  have hMge : p.snow.m_s ≤ M := by
    rw [hM]
    split
    · rename_i hn
      have := hf hn
      rw [this.m_pp]
      linarith [this.snow, this.rain]
    · linarith
  have hMp : c.small_threshold < M := lt_of_lt_of_le hm hMge
  have hM0 : 0 < M := lt_of_le_of_lt hc.small hMp
  have f2 : s2.snowcover = true := by
    rcases precip_event_ok k.pe with ⟨_, e⟩ | ⟨hn, _, t, ht, e⟩ | ⟨_, hs, _⟩ | ⟨_, hs, _⟩
    · rw [e]; exact f1
    · rcases adj_snow_cases hc.max_z p'.input1.z_snow p'.input1.m_pp z1 with ⟨a, _⟩ | ⟨_, a, _⟩
      · rw [← ht] at a
        rw [e]
        show t.snowcover = true
        rw [a.snowcover]; exact f1
      · exfalso
        rw [if_pos hn] at hM
        rw [m1] at a
        rcases a with a | a
        · linarith
        · have := (hf hn).z
          have := k.i1.z_pos z1
          linarith
    · rw [f1] at hs; cases hs
    · rw [f1] at hs; cases hs
  have m2 : s2.m_s = M := by rw [((k.flag2 hc.max_z f2).2).mass, m1, hM]
  have z2 := k.i2.flag f2
  obtain ⟨t, r, hmr, hsm⟩ : ∃ t r, MeltRes dt s2 t r ∧
      ((t.melt > 0 ∧ t.rho ≠ 0 ∧ s3 = adj_snow c ((-1) * t.melt / t.rho) 0 t) ∨ (¬ t.melt > 0 ∧ s3 = t)) := by
    rcases snowmelt_ok k.sm with ⟨hs, _⟩ | ⟨_, t, r, a, b⟩
    · rw [f2] at hs; cases hs
    · exact ⟨t, r, a, b⟩
  have ft : t.m_s = M ∧ t.z_s = s2.z_s ∧ t.rho = s2.rho ∧ t.z_s_0 = s2.z_s_0 ∧ t.snowcover = true := by
    rw [hmr.frame]; exact ⟨m2, rfl, rfl, rfl, f2⟩
  obtain ⟨t1, t2, t3, t4, t5⟩ := ft
  have hr2 := (inv_rho_pos k.i2 z2 (by rw [m2]; exact hM0)).1
  have hz2 := k.i2.z_pos z2
  have hp2 : M = s2.rho * s2.z_s := by rw [← m2]; exact (k.i2.pack z2).1
  have melt3 : s3.melt = t.melt := by
    rcases hsm with ⟨_, _, e⟩ | ⟨_, e⟩
    · rcases adj_snow_cases hc.max_z ((-1) * t.melt / t.rho) 0 (s := t) (by rw [t4]; exact z2) with ⟨a, _⟩ | ⟨a, _⟩
      · rw [e]; exact a.melt
      · rw [e]; exact a.melt
    · rw [e]
  have f3 : s3.snowcover = true ↔ t.melt < M := by
    rcases hsm with ⟨hpos, hne, e⟩ | ⟨hn, e⟩
    · have hdz : t.z_s + (-1) * t.melt / t.rho = (M - t.melt) / s2.rho := by
        rw [t2, t3, hp2]; field_simp; ring
      rcases adj_snow_cases hc.max_z ((-1) * t.melt / t.rho) 0 (s := t) (by rw [t4]; exact z2) with ⟨a, _⟩ | ⟨a, b, _⟩
      · have hs3 : s3.snowcover = true := by rw [e, a.snowcover]; exact t5
        refine ⟨fun _ => ?_, fun _ => hs3⟩
        by_contra hge
        have hle := not_lt.mp hge
        have hzle : t.z_s + (-1) * t.melt / t.rho ≤ 0 := by
          rw [hdz]; exact div_nonpos_of_nonpos_of_nonneg (by linarith) hr2.le
        have hdz0 : (-1) * t.melt / t.rho ≠ 0 := by
          rw [t3]; exact div_ne_zero (by linarith) hr2.ne'
        have hrho : ¬ adjRho ((-1) * t.melt / t.rho) 0 t > 600 := by
          unfold adjRho
          split
          · rw [t1, add_zero]
            have := div_nonpos_of_nonneg_of_nonpos hM0.le hzle
            linarith
          · norm_num
        rw [adj_snow_move hrho hdz0] at e
        rcases adj_layers_cases hc.max_z { t with z_s := t.z_s + (-1) * t.melt / t.rho, m_s := t.m_s + 0
                                                  rho := adjRho ((-1) * t.melt / t.rho) 0 t } with ⟨_, _, q, _⟩ | ⟨q, _⟩
        · exact absurd q (not_lt.mpr hzle)
        · rw [← e] at q
          have := q.snowcover
          rw [hs3] at this; cases this
      · have hs3 : s3.snowcover = false := by rw [e]; exact a.snowcover
        refine ⟨fun h => (by rw [hs3] at h; cases h), fun h => ?_⟩
        exfalso
        rw [add_zero, t1, hdz] at b
        rcases b with b | b
        · linarith
        · have : 0 < (M - t.melt) / s2.rho := div_pos (by linarith) hr2
          linarith
    · have hs3 : s3.snowcover = true := by rw [e]; exact t5
      exact ⟨fun _ => by linarith [not_lt.mp hn], fun _ => hs3⟩
  by_cases h3 : s3.snowcover = true
  swap
  · have h3' : s3.snowcover = false := by simpa using h3
    have e := k.dead3 h3'
    have : ¬ t.melt < M := fun h => h3 (f3.mpr h)
    rw [e]
    refine ⟨fun h => absurd ?_ this, fun h => absurd h h3⟩
    rw [← melt3]; exact h
  have hmelt := f3.mp h3
  have z3 := k.i3.flag h3
  obtain ⟨_, t', r', hmr', hst⟩ := k.flag3 hc.max_z h3
  have m3 : s3.m_s = M := by rw [hst.m_s, m2]
  have hr3 := (inv_rho_pos k.i3 z3 (by rw [m3]; exact hM0)).1
  have hz3 := k.i3.z_pos z3
  have hp3 : M = s3.rho * s3.z_s := by rw [← m3]; exact (k.i3.pack z3).1
  -- melt and vapour of the step as reported
  have e4 : s4.melt = s3.melt ∧ (c.small_threshold < M + s4.E_s → s4.snowcover = true) ∧
      (s4.snowcover = true → s4.m_s = M + s4.E_s ∧ (c.small_threshold < M + s4.E_s ∨
        (s4.E < 0 ∧ s4.E * dt < s4.E_s ∧ s4.h2o_total = 0))) := by
    rcases evap_cond_ok k.ec with ⟨hs, _⟩ | ⟨_, hs, _⟩ | ⟨_, _, el, w, _, hw, hrne, e⟩
    · rw [h3] at hs; cases hs
    · have := (k.i3.lc_pos_iff hc.max_z).mpr z3
      omega
    · obtain ⟨v1, v2, v3⟩ := vapour_ice s3.h2o_total (s3.E * dt) el
      rw [← hw] at v1 v2 v3
      have z3' : 0 < ({ s3 with h2o_total := w, E_s := s3.E * dt + el } : Snow).z_s_0 := z3
      rcases adj_snow_cases hc.max_z ((s3.E * dt + el + s3.h2o_total - w) / s3.rho / 2) (s3.E * dt + el) z3' with
        ⟨a, _, b⟩ | ⟨a, b, _⟩
      · rw [← e] at a
        have hE : s4.E_s = s3.E * dt + el := a.E_s
        have hE' : s4.E = s3.E := a.E
        have hw' : s4.h2o_total = w := a.h2o_total
        refine ⟨a.melt, fun _ => (by rw [a.snowcover]; exact h3), fun _ => ⟨by rw [a.m_s, hE]; show s3.m_s + _ = _; rw [m3], ?_⟩⟩
        rw [hE, hE', hw']
        rcases b with ⟨b, _⟩ | b
        · have h1 : s3.E * dt + el + s3.h2o_total - w = 0 := by
            rcases div_eq_zero_iff.mp b with b | b
            · rcases div_eq_zero_iff.mp b with b | b
              · exact b
              · exact absurd b hrne
            · norm_num at b
          rcases v3 (by linarith) with v | ⟨q1, q2, q3⟩
          · left; rw [v]; linarith
          · right
            refine ⟨?_, by linarith, q3⟩
            by_contra hn
            have := mul_nonneg (not_lt.mp hn) hdt.le
            linarith
        · left
          have b' : c.small_threshold < s3.m_s + (s3.E * dt + el) := b
          rw [m3] at b'; exact b'
      · rw [← e] at a
        have hE : s4.E_s = s3.E * dt + el := a.E_s
        have hs : s4.snowcover = false := a.snowcover
        refine ⟨a.melt, fun h => ?_, fun h => (by rw [hs] at h; cases h)⟩
        exfalso
        rw [hE] at h
        rcases b with b | b
        · have b' : s3.m_s + (s3.E * dt + el) ≤ c.small_threshold := b
          rw [m3] at b'; linarith
        · have b' : s3.z_s + (s3.E * dt + el + s3.h2o_total - w) / s3.rho / 2 ≤ 0 := b
          have e1 : s3.z_s + (s3.E * dt + el + s3.h2o_total - w) / s3.rho / 2 =
              (2 * M + (s3.E * dt + el + s3.h2o_total - w)) / (2 * s3.rho) := by
            rw [hp3]; field_simp
          rw [e1] at b'
          have b2 : 2 * M + (s3.E * dt + el + s3.h2o_total - w) ≤ 0 := by
            by_contra hn
            have := div_pos (not_le.mp hn) (show 0 < 2 * s3.rho by linarith)
            linarith
          rcases le_total (s3.E * dt + el) 0 with hn | hn
          · have := v1 hn
            have := hc.small
            linarith
          · have := v2 hn
            have : VAP_SUB * (s3.E * dt + el) ≤ s3.E * dt + el := by
              have : VAP_SUB ≤ 1 := by norm_num [VAP_SUB]
              nlinarith
            linarith
  obtain ⟨me, f4, m4⟩ := e4
  by_cases h4 : s4.snowcover = true
  swap
  · have h4' : s4.snowcover = false := by simpa using h4
    have e := k.dead4 h4'
    rw [e]
    exact ⟨fun _ h => absurd (f4 h) h4, fun h => absurd h h4⟩
  have z4 := k.i4.flag h4
  have f5 : c.small_threshold < M + s4.E_s → s5.snowcover = true := by
    intro hthr
    rcases h2o_compact_ok k.hc with ⟨_, e⟩ | ⟨_, hle, w, hw, ⟨_, e⟩ | ⟨hw6, ρ, hρ, hρ0, e⟩⟩
    · rw [e]; exact h4
    · rw [e]; exact h4
    · have hr4 := (inv_rho_pos k.i4 z4 (by rw [(m4 h4).1]; linarith [hc.small])).1
      have hw0 : (0 : ℝ) < w := by linarith [show (0 : ℝ) < 0.000001 by norm_num]
      have hρp : 0 < ρ := by
        rw [hρ]
        have : 0 ≤ (550 - s4.rho) / (1 + 0.4 / w) := div_nonneg (by linarith) (by positivity)
        linarith
      rcases adj_layers_cases hc.max_z { s4 with rho := ρ, z_s := s4.m_s / ρ } with ⟨a, _⟩ | ⟨_, a | a⟩
      · rw [e, a.snowcover]; exact h4
      · have a' : s4.m_s ≤ c.small_threshold := a
        rw [(m4 h4).1] at a'
        linarith
      · have a' : s4.m_s / ρ ≤ 0 := a
        have : 0 < s4.m_s / ρ := div_pos (by rw [(m4 h4).1]; linarith [hc.small]) hρp
        linarith
  have hfin : s5.snowcover = true → p'.snow.snowcover = true ∧ p'.snow.melt = t.melt ∧ p'.snow.E_s = s4.E_s ∧
      p'.snow.E = s4.E ∧ p'.snow.h2o_total = s4.h2o_total := by
    intro f5
    obtain ⟨_, s5', _⟩ := k.flag5 hc.max_z f5
    obtain ⟨f6, _, _, _, _, g0, g1, g2, g3, _⟩ := k.drained hc.max_z f5
    have e := k.frame7
    refine ⟨by rw [e]; exact f6, ?_, ?_, ?_, ?_⟩
    · rw [e]; show s6.melt = _; rw [g1, s5'.melt, me, melt3]
    · rw [e]; show s6.E_s = _; rw [g2, s5'.E_s]
    · rw [e]; show s6.E = _; rw [g3, s5'.E]
    · rw [e]; show s6.h2o_total = _; rw [g0, s5'.h2o_total]
  by_cases h5 : s5.snowcover = true
  · obtain ⟨q1, q2, q3, q4, q5⟩ := hfin h5
    rw [q2, q3, q4, q5]
    exact ⟨fun _ _ => q1, fun _ => ⟨hmelt, (m4 h4).2⟩⟩
  · have h5' : s5.snowcover = false := by simpa using h5
    have e := k.dead5 h5'
    have hE5 : s5.E_s = s4.E_s := by
      rcases h2o_compact_out hc.max_z k.i4 k.hc with ⟨q, _⟩ | ⟨_, ⟨q, _⟩ | q⟩
      · rw [h4] at q; cases q
      · exact q.E_s
      · exact q.E_s
    rw [e]
    refine ⟨fun _ h => absurd (f5 ?_) h5, fun h => absurd h h5⟩
    rw [← hE5]; exact h

/-- C62, run step: with admissible data, a run step that starts with a pack heavier than the smallest mass
threshold ends with a snow cover if the reported melt is less than the mass of the pack with the precipitation of
the step and the reported vapour exchange leaves that mass above the threshold; and only then, except that vapour
exchange may take the pack below the threshold when the surface sublimates, the soil gives vapour and all the
liquid water has evaporated.  A pack that is not heavier than the threshold and less dense than 550 kg/m³ is
released at once. -/
theorem C62_cover_lasts_step (g : Config) (hg : g.Tiled) (ha : g.AdmissibleStart) (rows : List Rec)
    (hr : ∀ r ∈ rows, r.Admissible) (ls : List (List (RStep Phys))) (m : Model) (h : RunTrace g rows ls m) :
    ∃ ts, parse_time_steps g = .ok ts ∧ ∀ l ∈ ls, ∀ x ∈ l, 0 < x.pre.snow.layer_count →
      (g.small_threshold < x.pre.snow.m_s → x.post.snow.melt < x.pre.snow.m_s + x.precip →
        g.small_threshold < x.pre.snow.m_s + x.precip + x.post.snow.E_s → x.post.snow.snowcover = true) ∧
      (g.small_threshold < x.pre.snow.m_s → x.post.snow.snowcover = true →
        x.post.snow.melt < x.pre.snow.m_s + x.precip ∧
        (g.small_threshold < x.pre.snow.m_s + x.precip + x.post.snow.E_s ∨
          (x.post.snow.E < 0 ∧ x.post.snow.E * (ts x.lv).time_step < x.post.snow.E_s ∧
            x.post.snow.h2o_total = 0))) ∧
      (x.pre.snow.m_s ≤ g.small_threshold → x.pre.snow.rho < 550 → x.post.snow.snowcover = false) := by
  obtain ⟨c, ts, hc, hts, ho, ht, hx⟩ := trace_closed hg ha hr h
  have hsm := (mkEnv_ok hc).2.1
  refine ⟨ts, hts, fun l hl x hxl hlc => ?_⟩
  obtain ⟨d, ⟨h1, _⟩, _, hf, h3, _⟩ := hx l hl x hxl
  obtain ⟨s0, s1, s2, s3, s4, s5, s6, k⟩ := step_chain ho.max_z h1 h3
  rw [← hsm]
  refine ⟨fun hm => (k.lasts ho (ht.step_pos x.lv) hf hlc hm rfl).1,
    fun hm => (k.lasts ho (ht.step_pos x.lv) hf hlc hm rfl).2, fun hm hrho => ?_⟩
  by_contra hcov
  have hcov' : x.post.snow.snowcover = true := by simpa using hcov
  obtain ⟨_, _, _, _, _, f1, f0, _⟩ := k.persist ho.max_z hcov'
  have e0 : s0.m_s = x.pre.snow.m_s ∧ s0.rho = x.pre.snow.rho := by rw [k.start]; exact ⟨rfl, rfl⟩
  rcases time_compact_ok k.tc with ⟨q | q, _⟩ | ⟨_, _, _, d1, d2, _, _, _, _, _, e⟩
  · rw [f0] at q; cases q
  · rw [e0.2] at q; linarith
  · rcases adj_layers_cases ho.max_z { s0 with rho := s0.rho + (d1 + d2) * s0.rho
                                               z_s := s0.m_s / (s0.rho + (d1 + d2) * s0.rho) } with ⟨_, a, _⟩ | ⟨a, _⟩
    · exact absurd (show c.small_threshold < s0.m_s from a) (by rw [e0.1]; exact not_lt.mpr hm)
    · rw [← e] at a
      have := a.snowcover
      rw [f1] at this; cases this

end

end Pysnobal
