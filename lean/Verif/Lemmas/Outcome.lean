import Verif.Lemmas.Ledger

/-! # Outcomes of the routines of a run step, in terms of `Stay` and `Gone` -/

namespace Pysnobal

noncomputable section

theorem Stay.rfl' {c : Env} {s : Snow} (h0 : 0 < s.z_s_0) : Stay c s s.m_s s :=
  ⟨⟨rfl, rfl, rfl, rfl, rfl⟩, rfl, rfl, rfl, rfl, rfl, rfl, rfl, rfl, rfl, rfl, h0, .inl ⟨rfl, rfl⟩,
    fun _ h => .inl ⟨h, rfl⟩⟩

/-- Gravity compaction. -/
theorem time_compact_out {c : Env} (hmax : 0 < c.max_z_s_0) {dt : ℝ} {s s' : Snow} (hi : Inv c s)
    (h : time_compact c dt s = .ok s') :
    (s.snowcover = false ∧ s' = s) ∨
    (s.snowcover = true ∧ Stay c s s.m_s s' ∧ (s' = s ∨ c.small_threshold < s.m_s)) ∨
    (s.snowcover = true ∧ Gone s s.m_s s') := by
  rcases time_compact_ok h with ⟨h1, rfl⟩ | ⟨hs, _, rate, d1, d2, _, _, _, _, hr, rfl⟩
  · cases hf : s'.snowcover
    · exact .inl ⟨rfl, rfl⟩
    · exact .inr (.inl ⟨rfl, Stay.rfl' (hi.flag hf), .inl rfl⟩)
  · right
    rcases adj_layers_cases hmax { s with rho := s.rho + (d1 + d2) * s.rho,
                                          z_s := s.m_s / (s.rho + (d1 + d2) * s.rho) } with
      ⟨a, h1, h2, h3, h4⟩ | ⟨a, h1⟩
    · left
      exact ⟨hs, ⟨⟨a.melt, a.swi, a.E_s, a.E, a.en⟩, a.m_s, a.h2o, a.h2o_total, a.snowcover, a.h2o_sat,
        a.h2o_vol, a.h2o_max, a.cc0, a.t_s, a.t_s_0, a.z0, a.lower, a.base⟩, .inr h1⟩
    · right
      exact ⟨hs, ⟨⟨a.melt, a.swi, a.E_s, a.E, a.en⟩, a.m_s, a.rho, a.h2o, a.h2o_total, a.snowcover,
        a.lc, a.cc0, a.t_s, a.t_s_0, a.z_le, a.lower⟩⟩

/-- What `init_snow` leaves on bare ground: a pack or nothing. -/
theorem init_snow_out {c : Env} (hmax : 0 < c.max_z_s_0) {s s' : Snow} (h : init_snow c s = .ok s') :
    (c.small_threshold < s.rho * s.z_s ∧ 0 < s.z_s ∧ ∃ d,
      1 - s.h2o_sat * c.max_h2o_vol * RHO_W0 / RHO_ICE ≠ 0 ∧
      d = (s.rho - s.h2o_sat * c.max_h2o_vol * RHO_W0) /
          (1 - s.h2o_sat * c.max_h2o_vol * RHO_W0 / RHO_ICE) ∧
      s'.m_s = s.rho * s.z_s ∧ s'.rho = s.rho ∧ s'.z_s = s.z_s ∧ 0 < s'.z_s_0 ∧
      s'.h2o_max = h2o_left s.z_s d c.max_h2o_vol ∧ s'.h2o = s.h2o_sat * s'.h2o_max ∧
      s'.h2o_sat = s.h2o_sat ∧ s'.h2o_vol = s.h2o_sat * c.max_h2o_vol ∧
      s'.h2o_total = s.h2o_total ∧ s'.t_s = s.t_s ∧ s'.t_s_0 = s.t_s_0 ∧
      s'.cc_s_0 = cold_content s.t_s_0 s'.m_s_0 ∧
      (s'.layer_count = 1 ∧ s'.t_s_l = T_NONE ∧ s'.cc_s_l = 0 ∨
       s'.layer_count = 2 ∧ s'.t_s_l = s.t_s_l ∧ s'.cc_s_l = cold_content s.t_s_l s'.m_s_l) ∧
      s'.melt = s.melt ∧ s'.swi = s.swi ∧ s'.E_s = s.E_s ∧ s'.E = s.E ∧ s'.en = s.en ∧
      s'.snowcover = s.snowcover) ∨
    ((s.rho * s.z_s ≤ c.small_threshold ∨ s.z_s ≤ 0) ∧
      s'.m_s = 0 ∧ s'.rho = 0 ∧ s'.h2o = 0 ∧ s'.z_s_0 ≤ 0 ∧ s'.z_s_l = 0 ∧
      s'.h2o_total = s.h2o_total + max (s.rho * s.z_s) 0 ∧ s'.t_s = T_NONE ∧ s'.t_s_0 = T_NONE ∧
      s'.cc_s_0 = 0 ∧ s'.t_s_l = T_NONE ∧ s'.cc_s_l = 0 ∧
      s'.melt = s.melt ∧ s'.swi = s.swi ∧ s'.E_s = s.E_s ∧ s'.E = s.E ∧ s'.en = s.en ∧
      s'.snowcover = s.snowcover) := by
  unfold init_snow initLayers at h
  obtain ⟨z, a, b, hfr⟩ := calc_shape c { s with m_s := s.rho * s.z_s }
  have hc := calc_cases c hmax { s with m_s := s.rho * s.z_s }
  generalize Snow.calc_layers c { s with m_s := s.rho * s.z_s } = s1 at h hc hfr
  by_cases h0 : s1.layer_count = 0
  · rw [if_pos h0] at h
    simp only [Except.ok.injEq] at h
    right
    have hz : (s.rho * s.z_s ≤ c.small_threshold ∨ s.z_s ≤ 0) ∧ s1.z_s_0 ≤ 0 ∧ s1.z_s_l = 0 := by
      rcases hc with h1 | h1 | h1 | h1
      · obtain ⟨e0, e1, e2, e3, _⟩ := h1
        rw [e2, e3]; exact ⟨.inl e0, le_refl _, rfl⟩
      · obtain ⟨_, hz, e1, e2, e3, _⟩ := h1
        rw [e2, e3]; exact ⟨.inr hz, hz, rfl⟩
      · omega
      · omega
    have hmx : (if s1.m_s > 0 then s1.h2o_total + s1.m_s else s1.h2o_total) =
        s.h2o_total + max (s.rho * s.z_s) 0 := by
      rw [hfr]
      simp only
      split
      · rw [max_eq_left]; linarith
      · rw [max_eq_right] <;> linarith
    rw [← h]
    refine ⟨hz.1, rfl, rfl, rfl, hz.2.1, hz.2.2, hmx, rfl, rfl, rfl, rfl, rfl, ?_⟩
    rw [hfr]
    exact ⟨rfl, rfl, rfl, rfl, rfl, rfl⟩
  · rw [if_neg h0] at h
    left
    have hz : c.small_threshold < s.rho * s.z_s ∧ 0 < s.z_s ∧ s1.z_s = s.z_s ∧ 0 < s1.z_s_0 := by
      rcases hc with h1 | h1 | h1 | h1
      · omega
      · omega
      · obtain ⟨e0, e00, _, e1, e2, _, _⟩ := h1
        rw [e1, e2]; exact ⟨e0, e00, rfl, e00⟩
      · obtain ⟨e0, e00, _, e1, e2, _, _⟩ := h1
        have e00' : c.max_z_s_0 < s.z_s := e00
        rw [e1, e2]; exact ⟨e0, by linarith, rfl, hmax⟩
    obtain ⟨d, hd, hd', h⟩ := initWater_ok h
    have g1 : s1.h2o_sat = s.h2o_sat ∧ s1.rho = s.rho ∧ s1.h2o_total = s.h2o_total ∧ s1.t_s = s.t_s ∧
        s1.t_s_0 = s.t_s_0 ∧ s1.t_s_l = s.t_s_l ∧ s1.melt = s.melt ∧ s1.swi = s.swi ∧
        s1.E_s = s.E_s ∧ s1.E = s.E ∧ s1.en = s.en ∧ s1.snowcover = s.snowcover ∧
        s1.m_s = s.rho * s.z_s := by
      rw [hfr]; exact ⟨rfl, rfl, rfl, rfl, rfl, rfl, rfl, rfl, rfl, rfl, rfl, rfl, rfl⟩
    obtain ⟨k1, k2, k3, k4, k5, k6, k7, k8, k9, k10, k11, k12, k13⟩ := g1
    have hd2 : 1 - s1.h2o_sat * c.max_h2o_vol * RHO_W0 / RHO_ICE ≠ 0 := hd
    have hd3 : d = (s1.rho - s1.h2o_sat * c.max_h2o_vol * RHO_W0) /
          (1 - s1.h2o_sat * c.max_h2o_vol * RHO_W0 / RHO_ICE) := hd'
    rw [k1] at hd2 hd3
    rw [k2] at hd3
    subst h
    refine ⟨hz.1, hz.2.1, d, hd2, hd3, ?_⟩
    simp only [initCold]
    refine ⟨k13, k2, hz.2.2.1, hz.2.2.2, by rw [hz.2.2.1], by rw [k1], k1, by rw [k1], k3, k4, k5,
      by rw [k5], ?_, k7, k8, k9, k10, k11, k12⟩
    by_cases h2 : s1.layer_count = 2
    · right
      simp only [h2, if_true]
      exact ⟨h2, k6, by rw [k6]⟩
    · left
      simp only [h2, if_false]
      have := lc_le_two s1
      exact ⟨by show s1.layer_count = 1; omega, by simp⟩

theorem snowmelt_out {c : Env} (hmax : 0 < c.max_z_s_0) {dt : ℝ} {s s' : Snow} (hi : Inv c s)
    (h : snowmelt c dt s = .ok s') :
    (s.snowcover = false ∧ s' = { s with melt := 0 }) ∨
    (s.snowcover = true ∧ ∃ s1 r, MeltRes dt s s1 r ∧ 0 < s1.z_s_0 ∧
      ((Stay c s1 s.m_s s' ∧ (s' = s1 ∨ s'.rho ≤ 600)) ∨ Gone s1 s.m_s s')) := by
  rcases snowmelt_ok h with h | ⟨hs, s1, r, m, h⟩
  · exact .inl h
  · right
    have h0 := hi.flag hs
    have hz : s1.z_s_0 = s.z_s_0 := by rw [m.frame]
    have hm : s1.m_s = s.m_s := by rw [m.frame]
    have h1 : 0 < s1.z_s_0 := by rw [hz]; exact h0
    refine ⟨hs, s1, r, m, h1, ?_⟩
    rcases h with ⟨_, _, rfl⟩ | ⟨_, rfl⟩
    · rcases adj_snow_cases hmax ((-1) * s1.melt / s1.rho) 0 h1 with ⟨a, b, _⟩ | ⟨a, _⟩
      · left; rw [add_zero, hm] at a; exact ⟨a, .inr b⟩
      · right; rw [add_zero, hm] at a; exact a
    · left
      have := Stay.rfl' (c := c) h1
      rw [hm] at this
      exact ⟨this, .inl rfl⟩

/-- Evaporation and condensation over snow: the water left is `w`. -/
theorem evap_cond_out {c : Env} (hmax : 0 < c.max_z_s_0) {i : InputData} {dt : ℝ} {s s' : Snow}
    (hi : Inv c s) (h : evap_cond c i dt s = .ok s') :
    (s.snowcover = false ∧ s' = { s with E_s := 0 }) ∨
    (s.snowcover = true ∧ ∃ el w,
      soilEvap c i dt { s with h2o_total := evapH2o s.h2o_total (s.E * dt) } = .ok el ∧
      w = evapH2o (evapH2o s.h2o_total (s.E * dt)) el ∧ s.rho ≠ 0 ∧
      s'.E_s = s.E * dt + el ∧
      ((Stay c { s with h2o_total := w, E_s := s.E * dt + el } (s.m_s + (s.E * dt + el)) s' ∧
          s'.rho ≤ 600 ∧
          (c.small_threshold < s.m_s + (s.E * dt + el) ∨ s.E * dt + el = w - s.h2o_total)) ∨
        Gone { s with h2o_total := w, E_s := s.E * dt + el } (s.m_s + (s.E * dt + el)) s')) := by
  rcases evap_cond_ok h with h | ⟨hs, h0, _⟩ | ⟨hs, _, el, w, k1, k2, k3, rfl⟩
  · exact .inl h
  · exfalso
    have := (hi.lc_pos_iff hmax).mpr (hi.flag hs)
    omega
  · right
    refine ⟨hs, el, w, k1, k2, k3, ?_⟩
    have h0 : 0 < ({ s with h2o_total := w, E_s := s.E * dt + el } : Snow).z_s_0 := hi.flag hs
    rcases adj_snow_cases hmax ((s.E * dt + el + s.h2o_total - w) / s.rho / 2) (s.E * dt + el) h0 with
      ⟨a, b, d⟩ | ⟨a, _⟩
    · refine ⟨a.E_s, .inl ⟨a, b, ?_⟩⟩
      rcases d with ⟨d, _⟩ | d
      · right
        have : (s.E * dt + el + s.h2o_total - w) = 0 := by
          rcases div_eq_zero_iff.mp d with d | d
          · rcases div_eq_zero_iff.mp d with d | d
            · exact d
            · exact absurd d k3
          · norm_num at d
        linarith
      · exact .inl d
    · exact ⟨a.E_s, .inr a⟩

theorem h2o_compact_out {c : Env} (hmax : 0 < c.max_z_s_0) {i : InputData} {s s' : Snow} (hi : Inv c s)
    (h : h2o_compact c i s = .ok s') :
    (s.snowcover = false ∧ s' = s) ∨
    (s.snowcover = true ∧ ((Stay c s s.m_s s' ∧ (s' = s ∨ s.rho ≤ 550 ∧ s'.rho ≤ 550)) ∨
      Gone s s.m_s s')) := by
  rcases h2o_compact_ok h with ⟨h1, rfl⟩ | ⟨hs, hr, w, _, h⟩
  · cases hf : s'.snowcover
    · exact .inl ⟨rfl, rfl⟩
    · exact .inr ⟨rfl, .inl ⟨Stay.rfl' (hi.flag hf), .inl rfl⟩⟩
  · right
    refine ⟨hs, ?_⟩
    rcases h with ⟨_, rfl⟩ | ⟨hw, r, hr', hr0, rfl⟩
    · exact .inl ⟨Stay.rfl' (hi.flag hs), .inl rfl⟩
    · have hle : r ≤ 550 := by
        have hw0 : (0 : ℝ) < w := by linarith [show (0 : ℝ) < 0.000001 by norm_num]
        have h1 : 1 ≤ 1 + 0.4 / w := by
          have : 0 ≤ 0.4 / w := by positivity
          linarith
        have h2 : (550 - s.rho) / (1 + 0.4 / w) ≤ 550 - s.rho :=
          div_le_self (by linarith) h1
        rw [hr']; linarith
      rcases adj_layers_cases hmax { s with rho := r, z_s := s.m_s / r } with
        ⟨a, h1, h2, h3, h4⟩ | ⟨a, h1⟩
      · left
        refine ⟨⟨⟨a.melt, a.swi, a.E_s, a.E, a.en⟩, a.m_s, a.h2o, a.h2o_total, a.snowcover, a.h2o_sat,
          a.h2o_vol, a.h2o_max, a.cc0, a.t_s, a.t_s_0, a.z0, a.lower, a.base⟩, .inr ⟨hr, ?_⟩⟩
        rw [h3]; exact hle
      · right
        exact ⟨⟨a.melt, a.swi, a.E_s, a.E, a.en⟩, a.m_s, a.rho, a.h2o, a.h2o_total, a.snowcover,
          a.lc, a.cc0, a.t_s, a.t_s_0, a.z_le, a.lower⟩

/-- Runoff from a pack that is not denser than 600 never removes the pack. -/
theorem runoff_out {c : Env} (hmax : 0 < c.max_z_s_0) {s s' : Snow} (hi : Inv c s)
    (hr : s.rho ≤ 600) (h : runoff c s = .ok s') :
    (s.snowcover = false ∧ s' = { s with swi := s.h2o_total }) ∨
    (s.snowcover = true ∧ s'.snowcover = true ∧ s'.rho ≤ 600 ∧ s'.h2o_max = capacity c s ∧
      s'.m_s = s.m_s - s'.swi ∧ s'.h2o + s'.swi = s.h2o_total ∧
      s'.h2o_total = s.h2o_total ∧ s'.melt = s.melt ∧ s'.E_s = s.E_s ∧ s'.E = s.E ∧ s'.en = s.en ∧
      s'.cc_s_0 = s.cc_s_0 ∧ s'.cc_s_l = s.cc_s_l ∧ s'.t_s = s.t_s ∧ s'.t_s_0 = s.t_s_0 ∧
      s'.t_s_l = s.t_s_l ∧ s'.z_s_0 = s.z_s_0 ∧ s'.z_s_l = s.z_s_l ∧ s'.z_s = s.z_s ∧
      ((capacity c s < s.h2o_total ∧ s'.swi = s.h2o_total - capacity c s ∧ s'.h2o = capacity c s ∧
          s'.h2o_sat = 1 ∧ s'.h2o_vol = c.max_h2o_vol) ∨
       (s.h2o_total ≤ capacity c s ∧ capacity c s ≠ 0 ∧ s'.swi = 0 ∧ s'.h2o = s.h2o_total ∧
          s'.h2o_sat = s'.h2o / s'.h2o_max ∧ s'.h2o_vol = s'.h2o_sat * c.max_h2o_vol))) := by
  rcases runoff_ok h with ⟨h1, rfl⟩ | ⟨hs, hl, hz, hg, rfl⟩ | ⟨hs, hl, hz, hg, hc, rfl⟩
  · left
    cases hf : s.snowcover
    · exact ⟨rfl, rfl⟩
    · exfalso
      have := (hi.lc_pos_iff hmax).mpr (hi.flag hf)
      rcases h1 with h1 | h1
      · rw [hf] at h1; cases h1
      · omega
  · right
    have h0 := hi.flag hs
    have hzp := hi.z_pos h0
    have hle : adjRho 0 (-(s.h2o_total - capacity c s))
        { s with h2o_max := capacity c s, swi := s.h2o_total - capacity c s, h2o := capacity c s,
                 h2o_sat := 1, h2o_vol := c.max_h2o_vol } ≤ 600 := by
      unfold adjRho
      simp only [add_zero]
      rw [if_pos hz]
      have h1 : s.m_s / s.z_s = s.rho := by
        rw [(hi.pack h0).1]; field_simp
      have h2 : (s.m_s + -(s.h2o_total - capacity c s)) / s.z_s ≤ s.m_s / s.z_s := by
        gcongr; linarith
      linarith
    rw [adj_snow_still (not_lt.mpr hle)]
    refine ⟨hs, hs, hle, rfl, ?_, ?_, rfl, rfl, rfl, rfl, rfl, rfl, rfl, rfl, rfl, rfl, rfl, rfl, rfl,
      .inl ⟨hg, rfl, rfl, rfl, rfl⟩⟩
    · simp only; ring
    · simp only; ring
  · right
    exact ⟨hs, hs, hr, rfl, by simp, by simp, rfl, rfl, rfl, rfl, rfl, rfl, rfl, rfl, rfl, rfl, rfl, rfl,
      rfl, .inr ⟨hg, hc, rfl, rfl, rfl, rfl⟩⟩

end

end Pysnobal
