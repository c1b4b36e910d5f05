import Verif.Lemmas.StepInv

/-! # `adj_layers` and `adj_snow` as two outcomes: the pack stays or the pack is gone -/

namespace Pysnobal

noncomputable section

/-- The pack is still there with mass `m`; the liquid water, the surface layer's cold content, the
temperatures and the cover flag are untouched. -/
structure Stay (c : Env) (s : Snow) (m : ℝ) (s' : Snow) : Prop extends SameFlux s s' where
  m_s : s'.m_s = m
  h2o : s'.h2o = s.h2o
  h2o_total : s'.h2o_total = s.h2o_total
  snowcover : s'.snowcover = s.snowcover
  h2o_sat : s'.h2o_sat = s.h2o_sat
  h2o_vol : s'.h2o_vol = s.h2o_vol
  h2o_max : s'.h2o_max = s.h2o_max
  cc0 : s'.cc_s_0 = s.cc_s_0
  t_s : s'.t_s = s.t_s
  t_s_0 : s'.t_s_0 = s.t_s_0
  z0 : 0 < s'.z_s_0
  lower : (s'.t_s_l = s.t_s_l ∧ s'.cc_s_l = s.cc_s_l) ∨
    (s.layer_count = 2 ∧ s'.layer_count = 1 ∧ s'.t_s_l = T_NONE ∧ s'.cc_s_l = 0) ∨
    (s.layer_count = 1 ∧ s'.layer_count = 2 ∧ s'.t_s_l = s.t_s ∧
      s'.cc_s_l = cold_content s.t_s s'.m_s_l ∧ c.small_threshold ≤ s'.m_s_l)
  /-- where the temperature of a lower layer comes from -/
  base : 0 < s.layer_count → s'.layer_count = 2 →
    (s.layer_count = 2 ∧ s'.t_s_l = s.t_s_l) ∨ (s.layer_count = 1 ∧ s'.t_s_l = s.t_s)

/-- The pack is gone; its mass has become liquid water. -/
structure Gone (s : Snow) (m : ℝ) (s' : Snow) : Prop extends SameFlux s s' where
  m_s : s'.m_s = 0
  rho : s'.rho = 0
  h2o : s'.h2o = 0
  h2o_total : s'.h2o_total = s.h2o_total + max m 0
  snowcover : s'.snowcover = false
  lc : s'.layer_count = 0
  cc0 : s'.cc_s_0 = 0
  t_s : s'.t_s = T_NONE
  t_s_0 : s'.t_s_0 = T_NONE
  z_le : s'.z_s_0 ≤ 0
  lower : (s'.t_s_l = s.t_s_l ∧ s'.cc_s_l = s.cc_s_l) ∨ (s'.t_s_l = T_NONE ∧ s'.cc_s_l = 0)

theorem adj_layers_cases {c : Env} (hmax : 0 < c.max_z_s_0) (s : Snow) :
    (Stay c s s.m_s (adj_layers c s) ∧ c.small_threshold < s.m_s ∧ 0 < s.z_s ∧
      (adj_layers c s).rho = s.rho ∧ (adj_layers c s).z_s = s.z_s) ∨
    (Gone s s.m_s (adj_layers c s) ∧ (s.m_s ≤ c.small_threshold ∨ s.z_s ≤ 0)) := by
  have hcc := calc_cases c hmax s
  by_cases h0 : (s.calc_layers c).layer_count = 0
  · right
    have a := adj_layers_zero h0
    refine ⟨⟨a.toSameFlux, a.m_s, a.rho, a.h2o, a.h2o_total, a.snowcover, a.lc, a.cc0, a.t_s, a.t_s_0,
      (lc_eq_zero.mp a.lc).1, ?_⟩, ?_⟩
    · by_cases h2 : s.layer_count = 2
      · exact .inr ⟨(a.two h2).2.2, (a.two h2).2.1⟩
      · exact .inl ⟨(a.keep h2).2.2, (a.keep h2).2.1⟩
    · rcases hcc with h | h | h | h
      · exact .inl h.1
      · exact .inr h.2.1
      · omega
      · omega
  · left
    have a := adj_layers_pos hmax (s := s) (by omega)
    have hz : 0 < (adj_layers c s).z_s_0 ∧ c.small_threshold < s.m_s ∧ 0 < s.z_s := by
      rw [a.z0]
      rcases hcc with h | h | h | h
      · omega
      · omega
      · obtain ⟨h1, h2, _, _, h3, _⟩ := h
        rw [h3]; exact ⟨h2, h1, h2⟩
      · obtain ⟨h1, h2, _, _, h3, _⟩ := h
        rw [h3]; exact ⟨hmax, h1, by linarith⟩
    refine ⟨⟨a.toSameFlux, a.m_s, a.h2o, a.h2o_total, a.snowcover, a.h2o_sat, a.h2o_vol, a.h2o_max,
      a.cc0, a.t_s, a.t_s_0, hz.1, ?_, ?_⟩, hz.2.1, hz.2.2, a.rho, a.z_s⟩
    swap
    · intro hp h2
      by_cases h1 : s.layer_count = 1
      · exact .inr ⟨h1, (a.split h1 h2).1⟩
      · have := lc_le_two s
        exact .inl ⟨by omega, (a.keep (fun h => h1 h.1) (fun h => by omega)).1⟩
    by_cases h12 : s.layer_count = 1 ∧ (adj_layers c s).layer_count = 2
    · refine .inr (.inr ⟨h12.1, h12.2, (a.split h12.1 h12.2).1, (a.split h12.1 h12.2).2, ?_⟩)
      have h2 : (s.calc_layers c).layer_count = 2 := by rw [← a.lc]; exact h12.2
      rcases hcc with h | h | h | h
      · omega
      · omega
      · omega
      · obtain ⟨_, _, h3, _, _, h4, _⟩ := h
        rw [a.ml, a.zl, h4, mul_comm]; exact h3
    · by_cases h21 : s.layer_count = 2 ∧ (adj_layers c s).layer_count = 1
      · exact .inr (.inl ⟨h21.1, h21.2, a.merge h21.1 h21.2⟩)
      · exact .inl (a.keep h12 h21)

/-- Both outcomes of `adj_snow`.  `still` is the only case in which the layers are not recomputed. -/
theorem adj_snow_cases {c : Env} (hmax : 0 < c.max_z_s_0) (dz dm : ℝ) {s : Snow} (h0 : 0 < s.z_s_0) :
    (Stay c s (s.m_s + dm) (adj_snow c dz dm s) ∧
      (adj_snow c dz dm s).rho ≤ 600 ∧
      (dz = 0 ∧ adjRho 0 dm s ≤ 600 ∨ c.small_threshold < s.m_s + dm)) ∨
    (Gone s (s.m_s + dm) (adj_snow c dz dm s) ∧
      (s.m_s + dm ≤ c.small_threshold ∨ s.z_s + dz ≤ 0) ∧
      ¬ (dz = 0 ∧ adjRho 0 dm s ≤ 600)) := by
  by_cases hr : adjRho dz dm s > 600
  · rw [adj_snow_clip hr]
    have hn : ¬ (dz = 0 ∧ adjRho 0 dm s ≤ 600) := by
      rintro ⟨rfl, h⟩; linarith
    rcases adj_layers_cases hmax { s with z_s := (s.m_s + dm) / 600, m_s := s.m_s + dm, rho := 600 }
      with ⟨a, h1, h2, h3, h4⟩ | ⟨a, h1⟩
    · left
      refine ⟨⟨⟨a.melt, a.swi, a.E_s, a.E, a.en⟩, a.m_s, a.h2o, a.h2o_total, a.snowcover, a.h2o_sat,
        a.h2o_vol, a.h2o_max, a.cc0, a.t_s, a.t_s_0, a.z0, a.lower, a.base⟩, ?_, .inr h1⟩
      rw [h3]
    · right
      refine ⟨⟨⟨a.melt, a.swi, a.E_s, a.E, a.en⟩, a.m_s, a.rho, a.h2o, a.h2o_total, a.snowcover, a.lc,
        a.cc0, a.t_s, a.t_s_0, a.z_le, a.lower⟩, ?_, hn⟩
      rcases h1 with h1 | h1
      · exact .inl h1
      · have h1 : (s.m_s + dm) / 600 ≤ 0 := h1
        have h2 : s.m_s + dm ≤ 0 := by
          by_contra hc
          have : 0 < (s.m_s + dm) / 600 := by
            have := not_le.mp hc
            positivity
          linarith
        by_cases h3 : s.z_s + dz ≤ 0
        · exact .inr h3
        · exfalso
          unfold adjRho at hr
          have h4 := not_le.mp h3
          rw [if_pos h4.ne'] at hr
          have : (s.m_s + dm) / (s.z_s + dz) ≤ 0 := div_nonpos_of_nonpos_of_nonneg h2 h4.le
          linarith
  · by_cases hz : dz = 0
    · subst hz
      left
      rw [adj_snow_still hr]
      exact ⟨⟨⟨rfl, rfl, rfl, rfl, rfl⟩, rfl, rfl, rfl, rfl, rfl, rfl, rfl, rfl, rfl, rfl, h0,
        .inl ⟨rfl, rfl⟩, fun _ h => .inl ⟨h, rfl⟩⟩, not_lt.mp hr, .inl ⟨rfl, not_lt.mp hr⟩⟩
    · rw [adj_snow_move hr hz]
      rcases adj_layers_cases hmax { s with z_s := s.z_s + dz, m_s := s.m_s + dm, rho := adjRho dz dm s }
        with ⟨a, h1, h2, h3, h4⟩ | ⟨a, h1⟩
      · left
        refine ⟨⟨⟨a.melt, a.swi, a.E_s, a.E, a.en⟩, a.m_s, a.h2o, a.h2o_total, a.snowcover, a.h2o_sat,
          a.h2o_vol, a.h2o_max, a.cc0, a.t_s, a.t_s_0, a.z0, a.lower, a.base⟩, ?_, .inr h1⟩
        rw [h3]; exact not_lt.mp hr
      · right
        exact ⟨⟨⟨a.melt, a.swi, a.E_s, a.E, a.en⟩, a.m_s, a.rho, a.h2o, a.h2o_total, a.snowcover, a.lc,
          a.cc0, a.t_s, a.t_s_0, a.z_le, a.lower⟩, h1, fun h => hz h.1⟩

end

end Pysnobal
