import Verif.Lemmas.Progress

/-! # When the whole mass balance completes -/

namespace Pysnobal

noncomputable section

theorem t_none_ok : 0 < T_NONE ∧ T_NONE ≤ FREEZE := by
  norm_num [T_NONE, MIN_SNOW_TEMP, FREEZE]

/-- The temperatures of the pack lie above absolute zero and not above freezing. -/
structure Snow.Frozen (s : Snow) : Prop where
  surf : 0 < s.t_s_0 ∧ s.t_s_0 ≤ FREEZE
  mean : 0 < s.t_s ∧ s.t_s ≤ FREEZE
  lower : 0 < s.t_s_l ∧ s.t_s_l ≤ FREEZE

/-- The temperatures the layer next to the soil can take during a step that starts with pack `s`. -/
def soilTemps (s : Snow) : List ℝ := [s.t_s_0, s.t_s, s.t_s_l, T_NONE]

/-- Temperatures of a later pack within the step, compared with those at its start. -/
structure SameTemps (a s : Snow) : Prop where
  surf : s.t_s_0 = a.t_s_0
  mean : s.t_s = a.t_s
  lower : s.t_s_l ∈ soilTemps a

theorem SameTemps.rfl' (s : Snow) : SameTemps s s :=
  ⟨rfl, rfl, by simp [soilTemps]⟩

theorem SameTemps.stay {c : Env} {a s s' : Snow} {m : ℝ} (h : SameTemps a s) (k : Stay c s m s') :
    SameTemps a s' := by
  refine ⟨by rw [k.t_s_0, h.surf], by rw [k.t_s, h.mean], ?_⟩
  rcases k.lower with e | e | e
  · rw [e.1]; exact h.lower
  · rw [e.2.2.1]; simp [soilTemps]
  · rw [e.2.2.1, h.mean]; simp [soilTemps]

theorem SameTemps.frozen {a s : Snow} (h : SameTemps a s) (f : a.Frozen) : s.Frozen := by
  refine ⟨by rw [h.surf]; exact f.surf, by rw [h.mean]; exact f.mean, ?_⟩
  have := h.lower
  simp only [soilTemps, List.mem_cons, List.not_mem_nil, or_false] at this
  rcases this with e | e | e | e <;> rw [e]
  · exact f.surf
  · exact f.mean
  · exact f.lower
  · exact t_none_ok

theorem precip_rained {c : Env} {i : InputData} {s s' : Snow} (hmax : 0 < c.max_z_s_0) (hi : Inv c s)
    (h : precip_event c i s = .ok s') (hs : s'.snowcover = true) :
    s.snowcover = true ∧ Rained c i s s' := by
  have hf := precip_flag hmax hi h hs
  refine ⟨hf, ?_⟩
  have h0 := hi.flag hf
  rcases precip_event_ok h with ⟨hp, e⟩ | ⟨hp, _, t, ht, e⟩ | ⟨_, hn, _⟩ | ⟨_, hn, _⟩
  · rw [e]
    constructor <;> simp only [hp, Bool.false_eq_true, if_false, add_zero]
    exact ⟨s, Stay.rfl' h0, rfl⟩
  · rcases adj_snow_cases hmax i.z_snow i.m_pp h0 with ⟨a, _⟩ | ⟨a, _⟩
    · rw [← ht] at a
      rw [e]
      constructor <;> simp only [hp, if_true]
      · exact a.m_s
      · rw [a.h2o_total, a.h2o]; ring
      · rw [a.h2o]
      · exact ⟨t, a, rfl⟩
    · rw [← ht] at a
      rw [e] at hs
      have h' : t.snowcover = true := hs
      rw [a.snowcover] at h'; cases h'
  · rw [hf] at hn; cases hn
  · rw [hf] at hn; cases hn

/-- The most that can melt in a step of length `dt`, whatever happens to the layers: the energy surplus of
the surface layer over its cold content, and the heat flowing into the lower layer, both as melt. -/
def meltCap (dt : ℝ) (s : Snow) : ℝ :=
  (max 0 (s.en.delta_Q_0 * dt + s.cc_s_0) + max 0 ((s.en.G - s.en.G_0) * dt)) / lh_fus FREEZE

theorem melt_le_cap {dt : ℝ} {a s t : Snow} {r : ℝ} (hm : MeltRes dt s t r) (e : s.en = a.en)
    (h0 : s.cc_s_0 = a.cc_s_0) (hl : s.cc_s_l ≤ 0) : t.melt ≤ meltCap dt a := by
  rw [hm.melt_eq]
  unfold meltCap
  rw [add_div]
  have lf : 0 < lh_fus FREEZE := by rw [lf_eq]; norm_num
  have b1 : (if meltQ0 dt s > 0 then melt (meltQ0 dt s) else 0) ≤
      max 0 (a.en.delta_Q_0 * dt + a.cc_s_0) / lh_fus FREEZE := by
    have e1 : meltQ0 dt s = a.en.delta_Q_0 * dt + a.cc_s_0 := by unfold meltQ0; rw [e, h0]
    rw [← e1]
    split
    · unfold melt
      gcongr
      exact le_max_right _ _
    · exact div_nonneg (le_max_left _ _) lf.le
  have b2 : (if s.layer_count = 2 ∧ meltQl dt s > 0 then melt (meltQl dt s) else 0) ≤
      max 0 ((a.en.G - a.en.G_0) * dt) / lh_fus FREEZE := by
    split
    · rename_i hq
      unfold melt
      gcongr
      refine le_trans ?_ (le_max_right _ _)
      unfold meltQl
      rw [if_pos hq.1, e]
      linarith
    · exact div_nonneg (le_max_left _ _) lf.le
  exact add_le_add b1 b2

/-- Cold content of the lower layer stays non-positive when the layers are recomputed. -/
theorem Stay.ccl {c : Env} {s s' : Snow} {m : ℝ} (k : Stay c s m s') (hv : 0 ≤ c.small_threshold)
    (ht : 0 ≤ s.t_s) (h : s.cc_s_l ≤ 0) : s'.cc_s_l ≤ 0 := by
  rcases k.lower with e | e | e
  · rw [e.2]; exact h
  · rw [e.2.2.2]
  · rw [e.2.2.2.1]
    exact cold_content_nonpos ht (by linarith [e.2.2.2.2])

theorem inv_rho_pos {c : Env} {s : Snow} (hi : Inv c s) (h0 : 0 < s.z_s_0) (hm : 0 < s.m_s) :
    0 < s.rho ∧ 0 < s.z_s := by
  have hz := hi.z_pos h0
  refine ⟨?_, hz⟩
  have : 0 < s.rho * s.z_s := by rw [← (hi.pack h0).1]; exact hm
  exact (pos_iff_pos_of_mul_pos this).mpr hz

/-- A pack with which the mass balance of a step of length `dt` starts: structurally consistent, with the
step's water account still empty, and if it is there at all, with positive mass, temperatures between
absolute zero and freezing, no positive cold content, and more ice than the step can melt and sublimate. -/
structure MassStart (c : Env) (i : InputData) (dt : ℝ) (s : Snow) : Prop where
  inv : Inv c s
  flag : s.snowcover = decide (0 < s.layer_count)
  total : s.h2o_total = 0
  h2o : 0 ≤ s.h2o
  mass : s.snowcover = true → 0 < s.m_s
  frozen : s.snowcover = true → s.Frozen
  ccl : s.snowcover = true → s.cc_s_l ≤ 0
  budget : s.snowcover = true → ∀ T ∈ soilTemps s, ∀ v, soilExchange c i dt T = .ok v →
    meltCap dt s + max 0 (-(s.E * dt)) + max 0 (-v) <
      s.ice + (if i.precip_now then i.m_snow - wetWater c i else 0)

theorem mass_balance_prog {c : Env} (hc : c.OK) (hv : 0 < c.max_h2o_vol) {i : InputData} {dt : ℝ}
    (hdt : 0 < dt) (hi : SoilOK c i) (hf : i.precip_now = true → StepForcing i) {s : Snow}
    (h : MassStart c i dt s) : ∃ s', mass_balance c i dt s = .ok s' := by
  have hmax := hc.max_z
  -- gravity compaction
  obtain ⟨s1, k1⟩ := time_compact_prog (c := c) hdt (s := s) (fun hs =>
    ⟨(inv_rho_pos h.inv (h.inv.flag hs) (h.mass hs)).1, h.mass hs⟩)
  have i1 := time_compact_inv hmax h.inv k1
  have f1 : s1.snowcover = true → s.snowcover = true ∧ Stay c s s.m_s s1 := by
    intro hs
    rcases time_compact_out hmax h.inv k1 with ⟨e1, e2⟩ | ⟨e1, e2, _⟩ | ⟨_, e2⟩
    · rw [e2] at hs; exact ⟨hs, by rw [hs] at e1; cases e1⟩
    · exact ⟨e1, e2⟩
    · rw [e2.snowcover] at hs; cases hs
  -- precipitation
  obtain ⟨s2, k2⟩ := precip_prog hc hf s1
  have i2 := precip_event_inv hmax i1 k2
  have pp : i.precip_now = true → 0 ≤ i.m_pp := fun hp => by
    have F := hf hp
    rw [F.m_pp]; linarith [F.snow, F.rain]
  have f2 : s2.snowcover = true → s.snowcover = true ∧ SameTemps s s2 ∧ 0 < s2.m_s ∧ s2.en = s.en ∧
      s2.E = s.E ∧ s2.cc_s_0 = s.cc_s_0 ∧ s2.cc_s_l ≤ 0 ∧ 0 ≤ s2.h2o_total ∧
      s2.m_s - s2.h2o_total = s.ice + (if i.precip_now then i.m_snow - wetWater c i else 0) := by
    intro hs
    obtain ⟨hs1, R⟩ := precip_rained hmax i1 k2 hs
    obtain ⟨hs0, st⟩ := f1 hs1
    obtain ⟨t, st2, e2⟩ := R.stay
    have T1 := (SameTemps.rfl' s).stay st
    have T2 := T1.stay st2
    have q1 : s1.cc_s_l ≤ 0 := st.ccl hc.small (h.frozen hs0).mean.1.le (h.ccl hs0)
    have q2 : t.cc_s_l ≤ 0 := st2.ccl hc.small (by rw [T1.mean]; exact (h.frozen hs0).mean.1.le) q1
    have g : s2.en = t.en ∧ s2.E = t.E ∧ s2.cc_s_0 = t.cc_s_0 ∧ s2.cc_s_l = t.cc_s_l ∧ s2.t_s = t.t_s ∧
        s2.t_s_0 = t.t_s_0 ∧ s2.t_s_l = t.t_s_l := by
      rw [e2]; exact ⟨rfl, rfl, rfl, rfl, rfl, rfl, rfl⟩
    obtain ⟨g1, g2, g3, g4, g5, g6, g7⟩ := g
    have hm := R.mass
    have hw := R.water
    rw [st.m_s] at hm
    rw [st.h2o_total, h.total, st.h2o] at hw
    have hmp := h.mass hs0
    refine ⟨hs0, ⟨g6.trans T2.surf, g5.trans T2.mean, by rw [g7]; exact T2.lower⟩, ?_,
      by rw [g1, st2.en, st.en], by rw [g2, st2.E, st.E], by rw [g3, st2.cc0, st.cc0], by rw [g4]; exact q2,
      ?_, ?_⟩
    · rw [hm]
      split
      · rename_i hp; linarith [pp hp]
      · linarith
    · rw [hw]
      split
      · rename_i hp
        linarith [h.h2o, (hf hp).rain, wet_nonneg hc.vol (hf hp)]
      · linarith [h.h2o]
    · rw [hm, hw]
      unfold Snow.ice
      cases hp : i.precip_now
      · simp only [Bool.false_eq_true, if_false]; ring
      · simp only [if_true]
        rw [(hf hp).m_pp]; ring
  -- melt
  obtain ⟨s3, k3⟩ := snowmelt_prog (c := c) (dt := dt) (s := s2) (fun hs => by
    obtain ⟨_, _, hm, _⟩ := f2 hs
    obtain ⟨a, b⟩ := inv_rho_pos i2 (i2.flag hs) hm
    exact ⟨b.ne', a.ne'⟩)
  have i3 := snowmelt_inv hmax i2 k3
  have f3 : s3.snowcover = true → s.snowcover = true ∧ SameTemps s s3 ∧ 0 < s3.m_s ∧ s3.E = s.E ∧
      0 ≤ s3.h2o_total ∧ s.ice + (if i.precip_now then i.m_snow - wetWater c i else 0) - meltCap dt s ≤
        s3.m_s - s3.h2o_total := by
    intro hs
    rcases snowmelt_out hmax i2 k3 with ⟨e1, e2⟩ | ⟨e1, t, r, hm, hz, e2 | e2⟩
    · rw [e2] at hs
      have hs' : s2.snowcover = true := hs
      rw [hs'] at e1; cases e1
    · obtain ⟨hs0, T, m2, en2, E2, c0, cl, w2, b2⟩ := f2 e1
      obtain ⟨st, _⟩ := e2
      have hcap := melt_le_cap hm en2 c0 cl
      have hr := hm.refrozen hmax i2 (i2.flag e1) w2
      have hn := hm.total_nonneg hmax i2 (i2.flag e1) w2
      have hw : t.h2o_total ≤ s2.h2o_total + t.melt := by
        rw [hm.water]
        split
        · linarith [hm.melt_nonneg]
        · linarith [hr.1]
      have T' : SameTemps s t := by
        have g : t.t_s = s2.t_s ∧ t.t_s_0 = s2.t_s_0 ∧ t.t_s_l = s2.t_s_l := by
          rw [hm.frame]; exact ⟨rfl, rfl, rfl⟩
        exact ⟨g.2.1.trans T.surf, g.1.trans T.mean, by rw [g.2.2]; exact T.lower⟩
      have tE : t.E = s2.E := by rw [hm.frame]
      refine ⟨hs0, T'.stay st, by rw [st.m_s]; exact m2, by rw [st.E, tE, E2], by rw [st.h2o_total]; exact hn,
        ?_⟩
      rw [st.m_s, st.h2o_total]
      linarith
    · rw [e2.snowcover] at hs; cases hs
  -- evaporation
  obtain ⟨s4, k4⟩ := evap_prog (c := c) hi (dt := dt) (s := s3) (fun hs => by
    obtain ⟨hs0, T, hm, _⟩ := f3 hs
    have F := T.frozen (h.frozen hs0)
    exact ⟨F.surf, F.lower, (inv_rho_pos i3 (i3.flag hs) hm).1.ne'⟩)
  have i4 := evap_cond_inv hmax i3 k4
  have f4 : s4.snowcover = true → s.snowcover = true ∧ SameTemps s s4 ∧ 0 ≤ s4.h2o_total ∧ s4.rho ≤ 600 ∧
      0 < s4.m_s - s4.h2o_total := by
    intro hs
    rcases evap_cond_out hmax i3 k4 with ⟨e1, e2⟩ | ⟨e1, el, w, hel, hw, _, _, e2 | e2⟩
    · rw [e2] at hs
      have hs' : s3.snowcover = true := hs
      rw [hs'] at e1; cases e1
    · obtain ⟨hs0, T, m3, E3, w3, b3⟩ := f3 e1
      obtain ⟨st, hr, _⟩ := e2
      have T' : SameTemps s { s3 with h2o_total := w, E_s := s3.E * dt + el } := ⟨T.surf, T.mean, T.lower⟩
      have v1 := evapH2o_diff s3.h2o_total (s3.E * dt) w3
      have v2 := evapH2o_diff (evapH2o s3.h2o_total (s3.E * dt)) el (evapH2o_nonneg w3)
      rw [← hw] at v2
      have hwn : 0 ≤ w := by rw [hw]; exact evapH2o_nonneg (evapH2o_nonneg w3)
      rw [soilEvap_eq] at hel
      have hmem : (if Snow.layer_count { s3 with h2o_total := evapH2o s3.h2o_total (s3.E * dt) } = 2 then
          s3.t_s_l else s3.t_s_0) ∈ soilTemps s := by
        split
        · exact T.lower
        · rw [T.surf]; simp [soilTemps]
      have hb := h.budget hs0 _ hmem el hel
      rw [E3] at v1 v2
      have st_w : s4.h2o_total = w := st.h2o_total
      have st_m : s4.m_s = s3.m_s + (s3.E * dt + el) := st.m_s
      refine ⟨hs0, T'.stay st, by rw [st_w]; exact hwn, hr, ?_⟩
      rw [st_w, st_m, E3]
      linarith
    · rw [e2.snowcover] at hs; cases hs
  -- compaction by liquid water
  obtain ⟨s5, k5⟩ := h2o_compact_prog (c := c) (i := i) (s := s4) (fun hs => by
    obtain ⟨_, _, hw, _, hm⟩ := f4 hs
    have hm' : 0 < s4.m_s := by linarith
    exact ⟨hm', (inv_rho_pos i4 (i4.flag hs) hm').1⟩)
  have i5 := h2o_compact_inv hmax i4 k5
  have f5 : s5.snowcover = true → s.snowcover = true ∧ SameTemps s s5 ∧ 0 ≤ s5.h2o_total ∧ s5.rho ≤ 600 ∧
      0 < s5.m_s - s5.h2o_total := by
    intro hs
    rcases h2o_compact_out hmax i4 k5 with ⟨e1, e2⟩ | ⟨e1, ⟨st, e2⟩ | e2⟩
    · rw [e2] at hs; rw [hs] at e1; cases e1
    · obtain ⟨hs0, T, hw, hr, hm⟩ := f4 e1
      refine ⟨hs0, T.stay st, by rw [st.h2o_total]; exact hw, ?_, by rw [st.m_s, st.h2o_total]; exact hm⟩
      rcases e2 with e | e
      · rw [e]; exact hr
      · linarith [e.2]
    · rw [e2.snowcover] at hs; cases hs
  -- runoff
  have cap : s5.snowcover = true → 0 < s5.z_s ∧ 0 < capacity c s5 := by
    intro hs
    obtain ⟨_, _, hw, hr, hm⟩ := f5 hs
    have h0 := i5.flag hs
    have hz := i5.z_pos h0
    refine ⟨hz, capacity_pos hv hz ?_⟩
    have := (i5.pack h0).1
    nlinarith
  obtain ⟨s6, k6⟩ := runoff_prog (c := c) (s := s5) (fun hs _ => ⟨(cap hs).1, (cap hs).2.ne'⟩)
  have i6 := runoff_inv hmax i5 k6
  have fin : ∃ s', (if s6.snowcover then s6.adjust_layer_temps else pure s6) = Except.ok s' := by
    cases hs6 : s6.snowcover
    · exact ⟨s6, rfl⟩
    · simp only [if_true]
      cases hs5 : s5.snowcover
      · rcases runoff_ok k6 with ⟨_, e⟩ | ⟨e, _⟩ | ⟨e, _⟩
        · rw [e] at hs6
          have : s5.snowcover = true := hs6
          rw [hs5] at this; cases this
        · rw [hs5] at e; cases e
        · rw [hs5] at e; cases e
      · obtain ⟨hs0, T, hw, hr, hm⟩ := f5 hs5
        rcases runoff_out hmax i5 hr k6 with ⟨e, _⟩ | ⟨_, _, _, _, d1, _, _, _, _, _, _, _, _, d2, d3, d4, _,
          _, _, d5⟩
        · rw [hs5] at e; cases e
        · have m6 : 0 < s6.m_s := by
            rw [d1]
            rcases d5 with ⟨_, e, _⟩ | ⟨_, _, e, _⟩
            · rw [e]; linarith [(cap hs5).2]
            · rw [e]; linarith
          have z6 := i6.flag hs6
          obtain ⟨r6, zz6⟩ := inv_rho_pos i6 z6 m6
          obtain ⟨p1, p2, p3⟩ := i6.pack z6
          have F := T.frozen (h.frozen hs0)
          refine adjust_prog (fun _ => ⟨by rw [p2]; positivity, by rw [d3]; exact F.surf.1.le⟩) (fun h2 => ?_)
          have hl := (lc_eq_two.mp h2).2
          exact ⟨by rw [p2]; positivity, by rw [d3]; exact F.surf.1.le, by rw [p3]; positivity,
            by rw [d4]; exact F.lower.1.le, m6, by rw [d2]; exact F.mean.1.le⟩
  obtain ⟨s', k7⟩ := fin
  refine ⟨s', ?_⟩
  unfold mass_balance
  rw [k1, bind_ok, k2, bind_ok, k3, bind_ok, k4, bind_ok, k5, bind_ok, k6, bind_ok]
  exact k7

end

end Pysnobal
