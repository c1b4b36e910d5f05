import Verif.Lemmas.Admissible

/-! # Water along the routines of a run step: signs and the mass ledger -/

namespace Pysnobal

noncomputable section

variable {c : Env} {dt : ℝ} {dl : InputData} {p p' : Phys} {s0 s1 s2 s3 s4 s5 s6 : Snow}

/-- Precipitation a run step hands to the mass balance. -/
def stepPrecip (p' : Phys) : ℝ := if p'.input1.precip_now then p'.input1.m_pp else 0

/-- State of the ledger inside a run step that started with snow mass `m`, after inflow `a`: while the
pack is there its mass is exactly `m + a`; after it has gone the water in hand is at least that. -/
structure Books (c : Env) (m a : ℝ) (s : Snow) : Prop where
  total : 0 ≤ s.h2o_total
  h2o : 0 ≤ s.h2o
  alive : s.snowcover = true → s.m_s = m + a
  dead : s.snowcover = false → m + a ≤ s.m_s + s.h2o_total

theorem StepChain.books1 (hc : c.OK) (k : StepChain c dt dl p p' s0 s1 s2 s3 s4 s5 s6)
    (hh : 0 ≤ p.snow.h2o) : Books c p.snow.m_s 0 s1 ∧ (s1.snowcover = true → s1.h2o_total = 0) ∧
      (s1.snowcover = false → s1.m_s = 0 ∧ s1.layer_count = 0 ∧ max p.snow.m_s 0 = s1.h2o_total) := by
  have e1 : s0.m_s = p.snow.m_s := by rw [k.start]
  have e2 : s0.h2o = p.snow.h2o := by rw [k.start]
  have e3 : s0.h2o_total = 0 := by rw [k.start]
  rcases time_compact_out hc.max_z k.i0 k.tc with ⟨h1, rfl⟩ | ⟨h1, h2, _⟩ | ⟨h1, h2⟩
  · have hl : s1.layer_count = 0 := by
      have := k.flag0
      rw [h1] at this
      have h' : ¬ p.snow.layer_count > 0 := by simpa using this.symm
      have e : s1.layer_count = p.snow.layer_count := by rw [k.start]; rfl
      omega
    have hb := k.i0.bare ((k.i0.lc_zero_iff hc.max_z).mp hl)
    refine ⟨⟨by rw [e3], by rw [e2]; exact hh, fun h => absurd (h.symm.trans h1) (by simp), fun _ => ?_⟩,
      fun h => absurd (h.symm.trans h1) (by simp), fun _ => ⟨hb.1, hl, ?_⟩⟩
    · rw [← e1, hb.1, e3]
    · rw [← e1, hb.1, e3]; simp
  · refine ⟨⟨by rw [h2.h2o_total, e3], by rw [h2.h2o, e2]; exact hh, fun _ => by rw [h2.m_s, e1]; ring,
      fun h => ?_⟩, fun _ => by rw [h2.h2o_total, e3], fun h => ?_⟩
    · rw [h2.snowcover, h1] at h; cases h
    · rw [h2.snowcover, h1] at h; cases h
  · have hT : s1.h2o_total = max p.snow.m_s 0 := by rw [h2.h2o_total, e3, e1]; ring
    refine ⟨⟨by rw [hT]; exact le_max_right _ _, by rw [h2.h2o], fun h => ?_, fun _ => ?_⟩,
      fun h => ?_, fun _ => ⟨h2.m_s, h2.lc, hT.symm⟩⟩
    · rw [h2.snowcover] at h; cases h
    · rw [h2.m_s, hT]; linarith [le_max_left p.snow.m_s 0]
    · rw [h2.snowcover] at h; cases h

theorem StepChain.books2 (hc : c.OK) (k : StepChain c dt dl p p' s0 s1 s2 s3 s4 s5 s6)
    (hh : 0 ≤ p.snow.h2o) (hf : p'.input1.precip_now = true → StepForcing p'.input1) :
    Books c p.snow.m_s (stepPrecip p') s2 := by
  obtain ⟨b, ht, hb⟩ := k.books1 hc hh
  unfold stepPrecip
  rcases precip_event_ok k.pe with ⟨hp, rfl⟩ | ⟨hp, hs, t, ht', rfl⟩ | ⟨hp, hs, hm, t, hi, rfl⟩ |
    ⟨hp, hs, hm, rfl⟩
  · simp only [hp, Bool.false_eq_true, if_false]
    exact ⟨add_nonneg b.total b.h2o, b.h2o, b.alive, fun h => by
      have := b.dead h
      have := b.h2o
      show _ ≤ s1.m_s + (s1.h2o_total + s1.h2o)
      linarith⟩
  · have F := hf hp
    have hw := wet_nonneg hc.vol F
    simp only [hp, if_true]
    have h0 := k.i1.flag hs
    rcases adj_snow_cases hc.max_z p'.input1.z_snow p'.input1.m_pp h0 with ⟨a, _⟩ | ⟨a, _⟩
    · rw [← ht'] at a
      refine ⟨?_, ?_, fun _ => ?_, fun h => ?_⟩
      · show 0 ≤ t.h2o_total + (t.h2o + wetWater c p'.input1 + p'.input1.m_rain)
        rw [a.h2o_total, a.h2o]
        linarith [b.total, b.h2o, F.rain]
      · show 0 ≤ t.h2o + wetWater c p'.input1
        rw [a.h2o]; linarith [b.h2o]
      · show t.m_s = _
        rw [a.m_s, b.alive hs]; ring
      · have h' : t.snowcover = false := h
        rw [a.snowcover, hs] at h'; cases h'
    · rw [← ht'] at a
      have e : t.h2o_total = max (s1.m_s + p'.input1.m_pp) 0 := by
        rw [a.h2o_total, ht hs]; ring
      have e' := le_max_left (s1.m_s + p'.input1.m_pp) 0
      have e'' := le_max_right (s1.m_s + p'.input1.m_pp) 0
      refine ⟨?_, ?_, fun h => ?_, fun _ => ?_⟩
      · show 0 ≤ t.h2o_total + (t.h2o + wetWater c p'.input1 + p'.input1.m_rain)
        rw [e, a.h2o]; linarith [F.rain]
      · show 0 ≤ t.h2o + wetWater c p'.input1
        rw [a.h2o]; linarith
      · have h' : t.snowcover = true := h
        rw [a.snowcover] at h'; cases h'
      · show _ ≤ t.m_s + (t.h2o_total + (t.h2o + wetWater c p'.input1 + p'.input1.m_rain))
        rw [e, a.h2o, a.m_s]
        have := b.alive hs
        linarith [F.rain]
  · have F := hf hp
    simp only [hp, if_true]
    obtain ⟨hm0, _, hT⟩ := hb hs
    have hlem : p.snow.m_s ≤ s1.h2o_total := by rw [← hT]; exact le_max_left _ _
    have hfl : t.snowcover = false ∧ (0 ≤ t.h2o) ∧ p'.input1.m_snow + s1.h2o_total ≤ t.m_s + t.h2o_total ∧
        0 ≤ t.h2o_total := by
      rcases init_snow_out hc.max_z hi with h | h
      · obtain ⟨_, h2, d, _, h3, h4, _, _, _, h5, h6, _, _, h7, _, _, _, _, _, _, _, _, _, h8⟩ := h
        have n := fresh_h2o_nonneg hc (s := freshSnow p'.input1 s1) h2 (F.dens hm).2.1 F.sat h3
        refine ⟨by rw [h8]; exact hs, ?_, ?_, ?_⟩
        · rw [h6, h5]; exact n.2
        · have : (freshSnow p'.input1 s1).rho * (freshSnow p'.input1 s1).z_s = p'.input1.m_snow := by
            rw [← F.depth]; simp only [freshSnow]; ring
          rw [h4, h7, this]; exact le_refl _
        · rw [h7]; exact b.total
      · obtain ⟨_, h1, _, h2, _, _, h3, _, _, _, _, _, _, _, _, _, _, h8⟩ := h
        have : (freshSnow p'.input1 s1).rho * (freshSnow p'.input1 s1).z_s = p'.input1.m_snow := by
          rw [← F.depth]; simp only [freshSnow]; ring
        rw [this] at h3
        have e3 : t.h2o_total = s1.h2o_total + max p'.input1.m_snow 0 := h3
        refine ⟨by rw [h8]; exact hs, by rw [h2], ?_, ?_⟩
        · rw [h1, e3]; linarith [le_max_left p'.input1.m_snow 0]
        · rw [e3]; linarith [b.total, le_max_right p'.input1.m_snow 0]
    obtain ⟨q1, q2, q3, q4⟩ := hfl
    refine ⟨?_, q2, fun h => ?_, fun _ => ?_⟩
    · show 0 ≤ t.h2o_total + (t.h2o + p'.input1.m_rain)
      linarith [F.rain]
    · have h' : t.snowcover = true := h
      rw [q1] at h'; cases h'
    · show _ ≤ t.m_s + (t.h2o_total + (t.h2o + p'.input1.m_rain))
      rw [F.m_pp]; linarith
  · have F := hf hp
    simp only [hp, if_true]
    obtain ⟨hm0, _, hT⟩ := hb hs
    have hlem : p.snow.m_s ≤ s1.h2o_total := by rw [← hT]; exact le_max_left _ _
    have := b.h2o
    have := b.total
    refine ⟨?_, b.h2o, fun h => ?_, fun _ => ?_⟩
    · show 0 ≤ s1.h2o_total + (s1.h2o + p'.input1.m_rain)
      linarith [F.rain]
    · have h' : s1.snowcover = true := h
      rw [hs] at h'; cases h'
    · show _ ≤ s1.m_s + (s1.h2o_total + (s1.h2o + p'.input1.m_rain))
      rw [hm0, F.m_pp]; linarith [not_lt.mp hm]

theorem MeltRes.melt_nonneg {s s' : Snow} {r : ℝ} (h : MeltRes dt s s' r) : 0 ≤ s'.melt := by
  rw [h.melt_eq]
  refine add_nonneg ?_ ?_
  · split
    · rename_i h; exact Pysnobal.melt_nonneg (le_of_lt h)
    · exact le_refl _
  · split
    · rename_i h; exact Pysnobal.melt_nonneg (le_of_lt h.2)
    · exact le_refl _

theorem MeltRes.refrozen {s s' : Snow} {r : ℝ} (hmax : 0 < c.max_z_s_0) (hi : Inv c s)
    (h0 : 0 < s.z_s_0) (hw : 0 ≤ s.h2o_total) (h : MeltRes dt s s' r) :
    0 ≤ r ∧ r ≤ s.h2o_total + s'.melt := by
  refine h.bound hi.sum h0 hi.zl ?_ (add_nonneg hw h.melt_nonneg)
  rw [lc_eq_two]
  exact ⟨fun h => ⟨h0, h⟩, fun h => h.2⟩

theorem MeltRes.total_nonneg {s s' : Snow} {r : ℝ} (hmax : 0 < c.max_z_s_0) (hi : Inv c s)
    (h0 : 0 < s.z_s_0) (hw : 0 ≤ s.h2o_total) (h : MeltRes dt s s' r) : 0 ≤ s'.h2o_total := by
  rw [h.water]
  have := (h.refrozen hmax hi h0 hw).2
  split
  · exact le_refl _
  · linarith

theorem StepChain.books3 (hc : c.OK) (k : StepChain c dt dl p p' s0 s1 s2 s3 s4 s5 s6) {m a : ℝ}
    (b : Books c m a s2) : Books c m a s3 ∧ 0 ≤ s3.melt := by
  rcases snowmelt_out hc.max_z k.i2 k.sm with ⟨h1, rfl⟩ | ⟨h1, t, r, h2, _, h3 | h3⟩
  · exact ⟨⟨b.total, b.h2o, b.alive, b.dead⟩, le_refl _⟩
  · have ht := h2.total_nonneg hc.max_z k.i2 (k.i2.flag h1) b.total
    have e : t.h2o = s2.h2o ∧ t.snowcover = s2.snowcover := by rw [h2.frame]; exact ⟨rfl, rfl⟩
    obtain ⟨h3, _⟩ := h3
    refine ⟨⟨by rw [h3.h2o_total]; exact ht, by rw [h3.h2o, e.1]; exact b.h2o, fun _ => ?_, fun h => ?_⟩,
      by rw [h3.melt]; exact h2.melt_nonneg⟩
    · rw [h3.m_s]; exact b.alive h1
    · rw [h3.snowcover, e.2, h1] at h; cases h
  · have ht := h2.total_nonneg hc.max_z k.i2 (k.i2.flag h1) b.total
    refine ⟨⟨?_, by rw [h3.h2o], fun h => ?_, fun _ => ?_⟩, by rw [h3.melt]; exact h2.melt_nonneg⟩
    · rw [h3.h2o_total]; linarith [le_max_right s2.m_s 0]
    · rw [h3.snowcover] at h; cases h
    · rw [h3.h2o_total, h3.m_s, ← b.alive h1]; linarith [le_max_left s2.m_s 0]

theorem StepChain.books4 (hc : c.OK) (k : StepChain c dt dl p p' s0 s1 s2 s3 s4 s5 s6) {m a : ℝ}
    (b : Books c m a s3) : Books c m (a + s4.E_s) s4 ∧ s4.melt = s3.melt := by
  rcases evap_cond_out hc.max_z k.i3 k.ec with ⟨h1, rfl⟩ | ⟨h1, el, w, h2, h3, h4, h5, h6 | h6⟩
  · exact ⟨⟨b.total, b.h2o, fun h => absurd (h.symm.trans h1) (by simp),
      fun h => by have := b.dead h; simpa using this⟩, rfl⟩
  · obtain ⟨h6, _, _⟩ := h6
    have hw : 0 ≤ w := by rw [h3]; exact evapH2o_nonneg (evapH2o_nonneg b.total)
    refine ⟨⟨by rw [h6.h2o_total]; exact hw, by rw [h6.h2o]; exact b.h2o, fun _ => ?_, fun h => ?_⟩,
      h6.melt⟩
    · rw [h6.m_s, b.alive h1, h5]; ring
    · rw [h6.snowcover] at h
      rw [show s3.snowcover = false from h] at h1; cases h1
  · have hw : 0 ≤ w := by rw [h3]; exact evapH2o_nonneg (evapH2o_nonneg b.total)
    have e : s4.h2o_total = w + max (s3.m_s + (s3.E * dt + el)) 0 := h6.h2o_total
    refine ⟨⟨?_, by rw [h6.h2o], fun h => ?_, fun _ => ?_⟩, h6.melt⟩
    · rw [e]; linarith [le_max_right (s3.m_s + (s3.E * dt + el)) 0]
    · rw [h6.snowcover] at h; cases h
    · rw [e, h6.m_s, h5]
      have := b.alive h1
      linarith [le_max_left (s3.m_s + (s3.E * dt + el)) 0]

theorem StepChain.books5 (hc : c.OK) (k : StepChain c dt dl p p' s0 s1 s2 s3 s4 s5 s6) {m a : ℝ}
    (b : Books c m a s4) : Books c m a s5 ∧ s5.melt = s4.melt ∧ s5.E_s = s4.E_s := by
  rcases h2o_compact_out hc.max_z k.i4 k.hc with ⟨h1, rfl⟩ | ⟨h1, h2 | h2⟩
  · exact ⟨b, rfl, rfl⟩
  · obtain ⟨h2, _⟩ := h2
    refine ⟨⟨by rw [h2.h2o_total]; exact b.total, by rw [h2.h2o]; exact b.h2o, fun _ => ?_, fun h => ?_⟩,
      h2.melt, h2.E_s⟩
    · rw [h2.m_s]; exact b.alive h1
    · rw [h2.snowcover, h1] at h; cases h
  · refine ⟨⟨?_, by rw [h2.h2o], fun h => ?_, fun _ => ?_⟩, h2.melt, h2.E_s⟩
    · rw [h2.h2o_total]; linarith [le_max_right s4.m_s 0, b.total]
    · rw [h2.snowcover] at h; cases h
    · rw [h2.h2o_total, h2.m_s, ← b.alive h1]; linarith [le_max_left s4.m_s 0, b.total]

/-- What the ledger says at the end of a run step. -/
structure Closed (m : ℝ) (p' : Phys) : Prop where
  melt : 0 ≤ p'.snow.melt
  swi : 0 ≤ p'.snow.swi
  h2o : 0 ≤ p'.snow.h2o
  total : 0 ≤ p'.snow.h2o_total
  max : 0 ≤ p'.snow.h2o_max ∨ p'.snow.snowcover = false
  alive : p'.snow.snowcover = true →
    p'.snow.m_s = m + stepPrecip p' + p'.snow.E_s - p'.snow.swi
  dead : p'.snow.snowcover = false →
    m + stepPrecip p' + p'.snow.E_s ≤ p'.snow.m_s + p'.snow.swi

theorem StepChain.closed (hc : c.OK) (k : StepChain c dt dl p p' s0 s1 s2 s3 s4 s5 s6)
    (hh : 0 ≤ p.snow.h2o) (hf : p'.input1.precip_now = true → StepForcing p'.input1) :
    Closed p.snow.m_s p' := by
  have b2 := k.books2 hc hh hf
  obtain ⟨b3, q3⟩ := k.books3 hc b2
  obtain ⟨b4, q4⟩ := k.books4 hc b3
  obtain ⟨b5, q5, q5'⟩ := k.books5 hc b4
  have hm : s5.melt = s3.melt := by rw [q5, q4]
  have hE : s5.E_s = s4.E_s := q5'
  by_cases h5 : s5.snowcover = true
  · obtain ⟨d1, d2, d3, d4, d5, d6, d7, d8, _, _, _, _, _, _, _, _, _, _, d9⟩ := k.drained hc.max_z h5
    have hr := (k.flag5 hc.max_z h5).2.2
    have hcap := capacity_nonneg hc.vol k.i5 (k.i5.flag h5) hr b5.total
    have hs : 0 ≤ s6.swi ∧ 0 ≤ s6.h2o := by
      rcases d9 with ⟨e1, e2, e3, _⟩ | ⟨e1, e2, e3, e4, _⟩
      · rw [e2, e3]; exact ⟨by linarith, hcap⟩
      · rw [e3, e4]; exact ⟨le_refl _, b5.total⟩
    have f := k.frame7
    have g1 : p'.snow.melt = s6.melt ∧ p'.snow.swi = s6.swi ∧ p'.snow.h2o = s6.h2o ∧
        p'.snow.h2o_total = s6.h2o_total ∧ p'.snow.m_s = s6.m_s ∧ p'.snow.E_s = s6.E_s ∧
        p'.snow.snowcover = s6.snowcover ∧ p'.snow.h2o_max = s6.h2o_max := by
      rw [f]; exact ⟨rfl, rfl, rfl, rfl, rfl, rfl, rfl, rfl⟩
    obtain ⟨g1, g2, g3, g4, g5, g6, g7, g8⟩ := g1
    refine ⟨by rw [g1, d7, hm]; exact q3, by rw [g2]; exact hs.1, by rw [g3]; exact hs.2,
      by rw [g4, d6]; exact b5.total, .inl (by rw [g8, d3]; exact hcap), fun _ => ?_, fun h => ?_⟩
    · rw [g5, d4, b5.alive h5, g6, g2, d8, hE]; ring
    · rw [g7, d1] at h; cases h
  · have h5' : s5.snowcover = false := by simpa using h5
    have e := k.dead5 h5'
    have hd := b5.dead h5'
    have g1 : p'.snow.melt = s5.melt ∧ p'.snow.swi = s5.h2o_total ∧ p'.snow.h2o = s5.h2o ∧
        p'.snow.h2o_total = s5.h2o_total ∧ p'.snow.m_s = s5.m_s ∧ p'.snow.E_s = s5.E_s ∧
        p'.snow.snowcover = s5.snowcover := by
      rw [e]; exact ⟨rfl, rfl, rfl, rfl, rfl, rfl, rfl⟩
    obtain ⟨g1, g2, g3, g4, g5, g6, g7⟩ := g1
    refine ⟨by rw [g1, hm]; exact q3, by rw [g2]; exact b5.total, by rw [g3]; exact b5.h2o,
      by rw [g4]; exact b5.total, .inr (by rw [g7]; exact h5'), fun h => ?_, fun _ => ?_⟩
    · rw [g7, h5'] at h; cases h
    · rw [g5, g2, g6, hE]; linarith

end

end Pysnobal
