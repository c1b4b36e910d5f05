import Verif.Lemmas.MassProgress

/-! # When the mass balance of a run step raises

Without the condition that the ice suffices: the mass balance of a pack with positive mass raises only if the mass
of the pack is exactly zero at one of the two places where the code divides by it. -/

namespace Pysnobal

noncomputable section

/-- A pack with which the mass balance of a step starts: structurally consistent, with the step's water account
still empty, and if it is there at all, with positive mass and temperatures between absolute zero and freezing.
(`MassStart` without the condition that the ice suffices.) -/
structure PackStart (c : Env) (s : Snow) : Prop where
  inv : Inv c s
  flag : s.snowcover = decide (0 < s.layer_count)
  total : s.h2o_total = 0
  h2o : 0 ≤ s.h2o
  mass : s.snowcover = true → 0 < s.m_s
  frozen : s.snowcover = true → s.Frozen

/-- The pack's mass is used up exactly: after evaporation, or after runoff, a pack of positive depth is left with
mass zero.  `s4` is the pack after compaction, precipitation, melt and evaporation (snobal.py:290–299), `s6` the pack
after runoff (snobal.py:305).  In the second case the temperature of the pack is still to be computed from its mass:
it has one layer, or two and some cold content (snow_state.py:159–187). -/
def UsedUp (c : Env) (i : InputData) (dt : ℝ) (s : Snow) : Prop :=
  ∃ s1 s2 s3 s4, time_compact c dt s = .ok s1 ∧ precip_event c i s1 = .ok s2 ∧ snowmelt c dt s2 = .ok s3 ∧
    evap_cond c i dt s3 = .ok s4 ∧ s4.snowcover = true ∧ 0 < s4.z_s ∧
    s4.m_s = s.m_s + (if i.precip_now then i.m_pp else 0) + s4.E_s ∧
    (s4.m_s = 0 ∨
      ∃ s5 s6, h2o_compact c i s4 = .ok s5 ∧ runoff c s5 = .ok s6 ∧ s6.snowcover = true ∧ 0 < s6.z_s ∧
        s6.m_s = s4.m_s - s6.swi ∧ s6.m_s = 0 ∧ s4.m_s < s4.h2o_total ∧ ¬ (s6.layer_count = 2 ∧ s6.cc_s = 0))

theorem new_tsno_ne {m t cc : ℝ} (hm : m ≠ 0) (ht : 0 ≤ t) : ∃ x, new_tsno m t cc = .ok x := by
  unfold new_tsno
  dsimp only
  rw [pdiv_of_ne (mul_ne_zero hm (cp_ice_pos ht).ne'), bind_ok]
  exact ⟨_, rfl⟩

theorem new_tsno_zero {t cc : ℝ} : new_tsno 0 t cc = .error .zeroDivision := by
  unfold new_tsno
  dsimp only
  rw [zero_mul]
  unfold pdiv
  rw [if_pos rfl]
  rfl

theorem adjust_ne {s : Snow} (h1 : s.layer_count = 1 → s.m_s_0 ≠ 0 ∧ 0 ≤ s.t_s_0)
    (h2 : s.layer_count = 2 → s.cc_s ≠ 0 →
      (s.m_s_0 ≠ 0 ∧ 0 ≤ s.t_s_0) ∧ (s.m_s_l ≠ 0 ∧ 0 ≤ s.t_s_l) ∧ s.m_s ≠ 0 ∧ 0 ≤ s.t_s) :
    ∃ s', s.adjust_layer_temps = .ok s' := by
  unfold Snow.adjust_layer_temps
  by_cases a : s.layer_count = 1
  · rw [if_pos a]
    obtain ⟨x, hx⟩ := new_tsno_ne (cc := s.cc_s_0) (h1 a).1 (h1 a).2
    rw [hx, bind_ok]; exact ⟨_, rfl⟩
  · rw [if_neg a]
    by_cases b : s.layer_count = 2
    · rw [if_pos b]
      split
      · exact ⟨_, rfl⟩
      · rename_i hz
        obtain ⟨⟨k1, k2⟩, ⟨k3, k4⟩, k5, k6⟩ := h2 b hz
        obtain ⟨x, hx⟩ := new_tsno_ne (cc := s.cc_s_0) k1 k2
        obtain ⟨y, hy⟩ := new_tsno_ne (cc := s.cc_s_l) k3 k4
        obtain ⟨z, hz⟩ := new_tsno_ne (cc := s.cc_s) k5 k6
        rw [hx, bind_ok, hy, bind_ok, hz, bind_ok]; exact ⟨_, rfl⟩
    · rw [if_neg b]; exact ⟨_, rfl⟩

theorem h2oAdded_zero {i : InputData} {s : Snow} (h : s.m_s = 0) : h2oAdded i s = .error .zeroDivision := by
  unfold h2oAdded
  rw [h]
  split <;> (unfold pdiv; rw [if_pos rfl])

/-- What is left of the pack after evaporation. -/
structure Evaporated (c : Env) (i : InputData) (s s4 : Snow) : Prop where
  inv : Inv c s4
  cover : s4.snowcover = true → s.snowcover = true ∧ SameTemps s s4 ∧ 0 ≤ s4.h2o_total ∧ s4.rho ≤ 600 ∧
    0 ≤ s4.melt ∧ s4.m_s = s.m_s + (if i.precip_now then i.m_pp else 0) + s4.E_s

theorem evaporated {c : Env} (hc : c.OK) {i : InputData} {dt : ℝ}
    (hdt : 0 < dt) (hi : SoilOK c i) (hf : i.precip_now = true → StepForcing i) {s : Snow}
    (h : PackStart c s) : ∃ s1 s2 s3 s4, time_compact c dt s = .ok s1 ∧ precip_event c i s1 = .ok s2 ∧
      snowmelt c dt s2 = .ok s3 ∧ evap_cond c i dt s3 = .ok s4 ∧ Evaporated c i s s4 := by
  have hmax := hc.max_z
  -- gravity compaction
  obtain ⟨s1, k1⟩ := time_compact_prog (c := c) hdt (s := s) (fun hs =>
    ⟨(inv_rho_pos h.inv (h.inv.flag hs) (h.mass hs)).1, h.mass hs⟩)
  have i1 := time_compact_inv hmax h.inv k1
  have f1 : s1.snowcover = true → s.snowcover = true ∧ Stay c s s.m_s s1 := by
    intro hs
    rcases time_compact_out hmax h.inv k1 with ⟨e1, e2⟩ | ⟨e1, e2, _⟩ | ⟨_, e2⟩
    · rw [e2] at hs; exact ⟨hs, by rw [hs] at e1; cases e1⟩
    · exact ⟨e1, e2⟩
    · rw [e2.snowcover] at hs; cases hs
  -- precipitation
  obtain ⟨s2, k2⟩ := precip_prog hc hf s1
  have i2 := precip_event_inv hmax i1 k2
  have pp : i.precip_now = true → 0 ≤ i.m_pp := fun hp => by
    have F := hf hp
    rw [F.m_pp]; linarith [F.snow, F.rain]
  have f2 : s2.snowcover = true → s.snowcover = true ∧ SameTemps s s2 ∧ 0 < s2.m_s ∧ 0 ≤ s2.h2o_total ∧
      s2.m_s = s.m_s + (if i.precip_now then i.m_pp else 0) := by
    intro hs
    obtain ⟨hs1, R⟩ := precip_rained hmax i1 k2 hs
    obtain ⟨hs0, st⟩ := f1 hs1
    obtain ⟨t, st2, e2⟩ := R.stay
    have T1 := (SameTemps.rfl' s).stay st
    have T2 := T1.stay st2
    have g : s2.t_s = t.t_s ∧ s2.t_s_0 = t.t_s_0 ∧ s2.t_s_l = t.t_s_l := by
      rw [e2]; exact ⟨rfl, rfl, rfl⟩
    obtain ⟨g5, g6, g7⟩ := g
    have hm := R.mass
    have hw := R.water
    rw [st.m_s] at hm
    rw [st.h2o_total, h.total, st.h2o] at hw
    have hmp := h.mass hs0
    refine ⟨hs0, ⟨g6.trans T2.surf, g5.trans T2.mean, by rw [g7]; exact T2.lower⟩, ?_, ?_, hm⟩
    · rw [hm]
      split
      · rename_i hp; linarith [pp hp]
      · linarith
    · rw [hw]
      split
      · rename_i hp
        linarith [h.h2o, (hf hp).rain, wet_nonneg hc.vol (hf hp)]
      · linarith [h.h2o]
  -- melt
  obtain ⟨s3, k3⟩ := snowmelt_prog (c := c) (dt := dt) (s := s2) (fun hs => by
    obtain ⟨_, _, hm, _⟩ := f2 hs
    obtain ⟨a, b⟩ := inv_rho_pos i2 (i2.flag hs) hm
    exact ⟨b.ne', a.ne'⟩)
  have i3 := snowmelt_inv hmax i2 k3
  have f3 : s3.snowcover = true → s.snowcover = true ∧ SameTemps s s3 ∧ 0 < s3.m_s ∧
      0 ≤ s3.h2o_total ∧ 0 ≤ s3.melt ∧ s3.m_s = s.m_s + (if i.precip_now then i.m_pp else 0) := by
    intro hs
    rcases snowmelt_out hmax i2 k3 with ⟨e1, e2⟩ | ⟨e1, t, r, hm, hz, e2 | e2⟩
    · rw [e2] at hs
      have hs' : s2.snowcover = true := hs
      rw [hs'] at e1; cases e1
    · obtain ⟨hs0, T, m2, w2, b2⟩ := f2 e1
      obtain ⟨st, _⟩ := e2
      have hn := hm.total_nonneg hmax i2 (i2.flag e1) w2
      have T' : SameTemps s t := by
        have g : t.t_s = s2.t_s ∧ t.t_s_0 = s2.t_s_0 ∧ t.t_s_l = s2.t_s_l := by
          rw [hm.frame]; exact ⟨rfl, rfl, rfl⟩
        exact ⟨g.2.1.trans T.surf, g.1.trans T.mean, by rw [g.2.2]; exact T.lower⟩
      exact ⟨hs0, T'.stay st, by rw [st.m_s]; exact m2, by rw [st.h2o_total]; exact hn,
        by rw [st.melt]; exact hm.melt_nonneg, by rw [st.m_s]; exact b2⟩
    · rw [e2.snowcover] at hs; cases hs
  -- evaporation
  obtain ⟨s4, k4⟩ := evap_prog (c := c) hi (dt := dt) (s := s3) (fun hs => by
    obtain ⟨hs0, T, hm, _⟩ := f3 hs
    have F := T.frozen (h.frozen hs0)
    exact ⟨F.surf, F.lower, (inv_rho_pos i3 (i3.flag hs) hm).1.ne'⟩)
  refine ⟨s1, s2, s3, s4, k1, k2, k3, k4, evap_cond_inv hmax i3 k4, ?_⟩
  intro hs
  rcases evap_cond_out hmax i3 k4 with ⟨e1, e2⟩ | ⟨e1, el, w, hel, hw, _, _, e2 | e2⟩
  · rw [e2] at hs
    have hs' : s3.snowcover = true := hs
    rw [hs'] at e1; cases e1
  · obtain ⟨hs0, T, m3, w3, n3, b3⟩ := f3 e1
    obtain ⟨st, hr, _⟩ := e2
    have T' : SameTemps s { s3 with h2o_total := w, E_s := s3.E * dt + el } := ⟨T.surf, T.mean, T.lower⟩
    have hwn : 0 ≤ w := by rw [hw]; exact evapH2o_nonneg (evapH2o_nonneg w3)
    have st_w : s4.h2o_total = w := st.h2o_total
    have st_m : s4.m_s = s3.m_s + (s3.E * dt + el) := st.m_s
    have st_e : s4.E_s = s3.E * dt + el := st.E_s
    have st_n : s4.melt = s3.melt := st.melt
    exact ⟨hs0, T'.stay st, by rw [st_w]; exact hwn, hr, by rw [st_n]; exact n3, by rw [st_m, st_e, b3]⟩
  · rw [e2.snowcover] at hs; cases hs

/-- Compaction by water, runoff and the new temperatures complete unless the mass is exactly zero. -/
theorem mass_balance_raises {c : Env} (hc : c.OK) (hv : 0 < c.max_h2o_vol) {i : InputData} {dt : ℝ}
    (hdt : 0 < dt) (hi : SoilOK c i) (hf : i.precip_now = true → StepForcing i) {s : Snow}
    (h : PackStart c s) (e : Err) :
    mass_balance c i dt s = .error e ↔ e = .zeroDivision ∧ UsedUp c i dt s := by
  have hmax := hc.max_z
  obtain ⟨s1, s2, s3, s4, k1, k2, k3, k4, i4, f4⟩ := evaporated hc hdt hi hf h
  have hmb : mass_balance c i dt s = (do
      let s ← h2o_compact c i s4
      let s ← runoff c s
      if s.snowcover then s.adjust_layer_temps else pure s) := by
    unfold mass_balance
    rw [k1, bind_ok, k2, bind_ok, k3, bind_ok, k4, bind_ok]
  -- the states of `UsedUp` are these
  have hu : UsedUp c i dt s ↔ s4.snowcover = true ∧ 0 < s4.z_s ∧
      s4.m_s = s.m_s + (if i.precip_now then i.m_pp else 0) + s4.E_s ∧
    (s4.m_s = 0 ∨
      ∃ s5 s6, h2o_compact c i s4 = .ok s5 ∧ runoff c s5 = .ok s6 ∧ s6.snowcover = true ∧ 0 < s6.z_s ∧
        s6.m_s = s4.m_s - s6.swi ∧ s6.m_s = 0 ∧ s4.m_s < s4.h2o_total ∧ ¬ (s6.layer_count = 2 ∧ s6.cc_s = 0)) := by
    constructor
    · rintro ⟨t1, t2, t3, t4, q1, q2, q3, q4, q⟩
      rw [k1] at q1; cases q1
      rw [k2] at q2; cases q2
      rw [k3] at q3; cases q3
      rw [k4] at q4; cases q4
      exact q
    · exact fun q => ⟨s1, s2, s3, s4, k1, k2, k3, k4, q⟩
  rw [hmb, hu]
  cases hs4 : s4.snowcover
  · -- no snow left
    have hcov : h2o_compact c i s4 = .ok s4 := by
      unfold h2o_compact
      rw [if_pos (.inl hs4)]
    have hrun : runoff c s4 = .ok { s4 with swi := s4.h2o_total } := by
      unfold runoff
      rw [if_pos (.inl hs4)]
    rw [hcov, bind_ok, hrun, bind_ok]
    dsimp only
    rw [hs4]
    simp only [Bool.false_eq_true, if_false, false_and, and_false, pure_ok, reduceCtorEq]
  · obtain ⟨hs0, T, hw, hr, hmelt, hm4⟩ := f4 hs4
    have z4 := i4.flag hs4
    have hz4 := i4.z_pos z4
    have F := T.frozen (h.frozen hs0)
    have hrho : s4.m_s = s4.rho * s4.z_s := (i4.pack z4).1
    by_cases m0 : s4.m_s = 0
    · -- exactly zero after evaporation
      have r0 : s4.rho = 0 := by
        rw [m0] at hrho
        rcases mul_eq_zero.mp hrho.symm with q | q
        · exact q
        · exact absurd q hz4.ne'
      have hcmp : h2o_compact c i s4 = .error .zeroDivision := by
        unfold h2o_compact
        rw [if_neg (by rw [hs4, r0]; norm_num)]
        dsimp only
        rw [h2oAdded_zero m0]
        rfl
      rw [hcmp, bind_error]
      simp only [Except.error.injEq]
      exact ⟨fun q => ⟨q.symm, trivial, hz4, hm4, .inl m0⟩, fun q => q.1.symm⟩
    · -- compaction by water completes
      obtain ⟨s5, k5⟩ : ∃ s5, h2o_compact c i s4 = .ok s5 := by
        rcases lt_or_gt_of_ne m0 with hneg | hpos
        · have hadd : ∃ w, h2oAdded i s4 = .ok w ∧ w ≤ 0 := by
            unfold h2oAdded
            split
            · rename_i hp
              exact ⟨_, pdiv_of_ne m0, div_nonpos_of_nonneg_of_nonpos (by linarith [(hf hp).rain]) hneg.le⟩
            · exact ⟨_, pdiv_of_ne m0, div_nonpos_of_nonneg_of_nonpos hmelt hneg.le⟩
          obtain ⟨w, hw1, hw2⟩ := hadd
          unfold h2o_compact
          split
          · exact ⟨_, rfl⟩
          · dsimp only
            rw [hw1, bind_ok, if_neg (by norm_num; linarith)]
            exact ⟨_, rfl⟩
        · exact h2o_compact_prog (fun hs => ⟨hpos, (inv_rho_pos i4 z4 hpos).1⟩)
      have i5 := h2o_compact_inv hmax i4 k5
      rw [k5, bind_ok]
      have f5 : s5.snowcover = true → SameTemps s s5 ∧ 0 ≤ s5.h2o_total ∧ s5.rho ≤ 600 ∧
          s5.m_s = s4.m_s ∧ s5.h2o_total = s4.h2o_total := by
        intro hs
        rcases h2o_compact_out hmax i4 k5 with ⟨e1, e2⟩ | ⟨e1, ⟨st, e2⟩ | e2⟩
        · rw [e2] at hs; rw [hs] at e1; cases e1
        · refine ⟨T.stay st, by rw [st.h2o_total]; exact hw, ?_, st.m_s, st.h2o_total⟩
          rcases e2 with e | e
          · rw [e]; exact hr
          · linarith [e.2]
        · rw [e2.snowcover] at hs; cases hs
      -- runoff completes
      have cap : s5.snowcover = true → 0 < s5.z_s ∧ 0 < capacity c s5 := by
        intro hs
        obtain ⟨_, hw, hr, _⟩ := f5 hs
        have h0 := i5.flag hs
        have hz := i5.z_pos h0
        refine ⟨hz, capacity_pos hv hz ?_⟩
        have := (i5.pack h0).1
        nlinarith
      obtain ⟨s6, k6⟩ := runoff_prog (c := c) (s := s5) (fun hs _ => ⟨(cap hs).1, (cap hs).2.ne'⟩)
      have i6 := runoff_inv hmax i5 k6
      rw [k6, bind_ok]
      have hrest : (∃ t5 t6, (Except.ok s5 : Except Err Snow) = .ok t5 ∧ runoff c t5 = .ok t6 ∧ t6.snowcover = true ∧ 0 < t6.z_s ∧
          t6.m_s = s4.m_s - t6.swi ∧ t6.m_s = 0 ∧ s4.m_s < s4.h2o_total ∧ ¬ (t6.layer_count = 2 ∧ t6.cc_s = 0)) ↔
          s6.snowcover = true ∧ 0 < s6.z_s ∧ s6.m_s = s4.m_s - s6.swi ∧ s6.m_s = 0 ∧ s4.m_s < s4.h2o_total ∧
            ¬ (s6.layer_count = 2 ∧ s6.cc_s = 0) := by
        constructor
        · rintro ⟨t5, t6, q1, q2, q⟩
          cases q1
          rw [k6] at q2; cases q2
          exact q
        · exact fun q => ⟨s5, s6, rfl, k6, q⟩
      rw [hrest]
      simp only [m0, false_or, hz4, true_and]
      cases hs6 : s6.snowcover
      · simp only [Bool.false_eq_true, if_false, pure_ok, reduceCtorEq, false_and, and_false]
      · simp only [if_true, true_and]
        have hs5 : s5.snowcover = true := by
          cases hs5 : s5.snowcover
          · rcases runoff_ok k6 with ⟨_, q⟩ | ⟨q, _⟩ | ⟨q, _⟩
            · rw [q] at hs6
              have : s5.snowcover = true := hs6
              rw [hs5] at this; cases this
            · rw [hs5] at q; cases q
            · rw [hs5] at q; cases q
          · rfl
        obtain ⟨T5, hw5, hr5, m5, w5⟩ := f5 hs5
        rcases runoff_out hmax i5 hr5 k6 with ⟨q, _⟩ | ⟨_, _, _, _, d1, d1', _, _, _, _, _, _, _, d2, d3, d4, _,
          _, _, d5⟩
        · rw [hs5] at q; cases q
        · have z6 := i6.flag hs6
          have hz6 := i6.z_pos z6
          obtain ⟨p1, p2, p3⟩ := i6.pack z6
          have F6 := T5.frozen (h.frozen hs0)
          have hle := lc_le_two s6
          have hlp := (i6.lc_pos_iff hmax).mpr z6
          by_cases m6 : s6.m_s = 0
          · have r6 : s6.rho = 0 := by
              rw [m6] at p1
              rcases mul_eq_zero.mp p1.symm with q | q
              · exact q
              · exact absurd q hz6.ne'
            have n0 : s6.m_s_0 = 0 := by rw [p2, r6, zero_mul]
            have hlt : s4.m_s < s4.h2o_total := by
              rw [m6, m5] at d1
              rcases d5 with ⟨_, q, _⟩ | ⟨_, _, q, _⟩
              · linarith [(cap hs5).2]
              · rw [q] at d1
                exact absurd (by linarith) m0
            unfold Snow.adjust_layer_temps
            by_cases l1 : s6.layer_count = 1
            · rw [if_pos l1, n0, new_tsno_zero, bind_error]
              simp only [Except.error.injEq]
              exact ⟨fun q => ⟨q.symm, hm4, hz6, by rw [d1, m5], m6, hlt, by omega⟩, fun q => q.1.symm⟩
            · have l2 : s6.layer_count = 2 := by omega
              rw [if_neg l1, if_pos l2]
              by_cases hiso : s6.isothermal
              · rw [if_pos hiso]
                have : s6.cc_s = 0 := hiso
                simp only [l2, this, pure_ok, reduceCtorEq, and_self, not_true, and_false]
              · rw [if_neg hiso, n0, new_tsno_zero, bind_error]
                simp only [Except.error.injEq]
                exact ⟨fun q => ⟨q.symm, hm4, hz6, by rw [d1, m5], m6, hlt, fun k => hiso k.2⟩, fun q => q.1.symm⟩
          · have r6 : s6.rho ≠ 0 := by
              intro q; rw [q, zero_mul] at p1; exact m6 p1
            obtain ⟨x, hx⟩ := adjust_ne (s := s6)
              (fun _ => ⟨by rw [p2]; exact mul_ne_zero r6 z6.ne', by rw [d3]; exact F6.surf.1.le⟩)
              (fun h2 _ => ⟨⟨by rw [p2]; exact mul_ne_zero r6 z6.ne', by rw [d3]; exact F6.surf.1.le⟩,
                ⟨by rw [p3]; exact mul_ne_zero r6 (lc_eq_two.mp h2).2.ne', by rw [d4]; exact F6.lower.1.le⟩,
                m6, by rw [d2]; exact F6.mean.1.le⟩)
            rw [hx]
            simp only [reduceCtorEq, m6, false_and, and_false]

end

end Pysnobal
