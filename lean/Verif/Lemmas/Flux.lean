import Verif.Lemmas.Chain

/-! # The mass balance does not touch the fluxes of the energy balance -/

namespace Pysnobal

noncomputable section

theorem adj_layers_flux (c : Env) (s : Snow) : SameFlux s (adj_layers c s) := by
  obtain ⟨z, a, b, hfr⟩ := calc_shape c s
  unfold adj_layers
  rw [hfr]
  dsimp only [Snow.layer_mass]
  split
  · split <;> exact ⟨rfl, rfl, rfl, rfl, rfl⟩
  · split
    · exact ⟨rfl, rfl, rfl, rfl, rfl⟩
    · split <;> exact ⟨rfl, rfl, rfl, rfl, rfl⟩

theorem SameFlux.trans {a b d : Snow} (h : SameFlux a b) (h' : SameFlux b d) : SameFlux a d :=
  ⟨h'.melt.trans h.melt, h'.swi.trans h.swi, h'.E_s.trans h.E_s, h'.E.trans h.E, h'.en.trans h.en⟩

theorem adj_layers_flux' (c : Env) {s t : Snow} (h : SameFlux s t) : SameFlux s (adj_layers c t) :=
  h.trans (adj_layers_flux c t)

theorem adj_snow_flux (c : Env) (dz dm : ℝ) (s : Snow) : SameFlux s (adj_snow c dz dm s) := by
  by_cases hr : adjRho dz dm s > 600
  · rw [adj_snow_clip hr]
    exact adj_layers_flux' c ⟨rfl, rfl, rfl, rfl, rfl⟩
  · by_cases hz : dz = 0
    · subst hz
      rw [adj_snow_still hr]
      exact ⟨rfl, rfl, rfl, rfl, rfl⟩
    · rw [adj_snow_move hr hz]
      exact adj_layers_flux' c ⟨rfl, rfl, rfl, rfl, rfl⟩

theorem init_snow_flux {c : Env} {s s' : Snow} (h : init_snow c s = .ok s') : SameFlux s s' := by
  unfold init_snow initLayers at h
  obtain ⟨z, a, b, hfr⟩ := calc_shape c { s with m_s := s.rho * s.z_s }
  rw [hfr] at h
  split at h
  · simp only [Except.ok.injEq] at h
    subst h
    exact ⟨rfl, rfl, rfl, rfl, rfl⟩
  · obtain ⟨d, _, _, h⟩ := initWater_ok h
    subst h
    exact ⟨rfl, rfl, rfl, rfl, rfl⟩

/-- The energy terms and the vapour flux at the end of the mass balance are those at its start. -/
theorem mass_balance_flux {c : Env} {i : InputData} {dt : ℝ} {s s' : Snow}
    (h : mass_balance c i dt s = .ok s') : s'.en = s.en ∧ s'.E = s.E := by
  obtain ⟨s1, s2, s3, s4, s5, s6, h1, h2, h3, h4, h5, h6, h7⟩ := mass_balance_ok h
  have e1 : s1.en = s.en ∧ s1.E = s.E := by
    rcases time_compact_ok h1 with ⟨_, rfl⟩ | ⟨_, _, _, _, _, _, _, _, _, _, rfl⟩
    · exact ⟨rfl, rfl⟩
    · exact ⟨(adj_layers_flux c _).en, (adj_layers_flux c _).E⟩
  have e2 : s2.en = s1.en ∧ s2.E = s1.E := by
    rcases precip_event_ok h2 with ⟨_, rfl⟩ | ⟨_, _, t, rfl, rfl⟩ | ⟨_, _, _, t, ht, rfl⟩ | ⟨_, _, _, rfl⟩
    · exact ⟨rfl, rfl⟩
    · have := adj_snow_flux c i.z_snow i.m_pp s1
      exact ⟨this.en, this.E⟩
    · have := init_snow_flux ht
      exact ⟨this.en, this.E⟩
    · exact ⟨rfl, rfl⟩
  have e3 : s3.en = s2.en ∧ s3.E = s2.E := by
    rcases snowmelt_ok h3 with ⟨_, rfl⟩ | ⟨_, t, r, m, h⟩
    · exact ⟨rfl, rfl⟩
    · have et : t.en = s2.en ∧ t.E = s2.E := by rw [m.frame]; exact ⟨rfl, rfl⟩
      rcases h with ⟨_, _, rfl⟩ | ⟨_, rfl⟩
      · have := adj_snow_flux c ((-1) * t.melt / t.rho) 0 t
        exact ⟨this.en.trans et.1, this.E.trans et.2⟩
      · exact et
  have e4 : s4.en = s3.en ∧ s4.E = s3.E := by
    rcases evap_cond_ok h4 with ⟨_, rfl⟩ | ⟨_, _, rfl⟩ | ⟨_, _, el, w, _, _, _, rfl⟩
    · exact ⟨rfl, rfl⟩
    · exact ⟨rfl, rfl⟩
    · have := adj_snow_flux c ((s3.E * dt + el + s3.h2o_total - w) / s3.rho / 2) (s3.E * dt + el)
        { s3 with h2o_total := w, E_s := s3.E * dt + el }
      exact ⟨this.en, this.E⟩
  have e5 : s5.en = s4.en ∧ s5.E = s4.E := by
    rcases h2o_compact_ok h5 with ⟨_, rfl⟩ | ⟨_, _, w, _, ⟨_, rfl⟩ | ⟨_, r, _, _, rfl⟩⟩
    · exact ⟨rfl, rfl⟩
    · exact ⟨rfl, rfl⟩
    · have := adj_layers_flux c { s4 with rho := r, z_s := s4.m_s / r }
      exact ⟨this.en, this.E⟩
  have e6 : s6.en = s5.en ∧ s6.E = s5.E := by
    rcases runoff_ok h6 with ⟨_, rfl⟩ | ⟨_, _, _, _, rfl⟩ | ⟨_, _, _, _, _, rfl⟩
    · exact ⟨rfl, rfl⟩
    · have := adj_snow_flux c 0 (-(s5.h2o_total - capacity c s5))
        { s5 with h2o_max := capacity c s5, swi := s5.h2o_total - capacity c s5, h2o := capacity c s5,
                  h2o_sat := 1, h2o_vol := c.max_h2o_vol }
      exact ⟨this.en, this.E⟩
    · exact ⟨rfl, rfl⟩
  have e7 : s'.en = s6.en ∧ s'.E = s6.E := by
    rcases h7 with ⟨_, h⟩ | ⟨_, rfl⟩
    · rw [adjust_frame h]; exact ⟨rfl, rfl⟩
    · exact ⟨rfl, rfl⟩
  exact ⟨by rw [e7.1, e6.1, e5.1, e4.1, e3.1, e2.1, e1.1], by rw [e7.2, e6.2, e5.2, e4.2, e3.2, e2.2, e1.2]⟩

/-- The energy terms a run step leaves are those its energy balance computed from the state at the start
of the step. -/
theorem stepPhys_energy {c : Env} {dt : ℝ} {dl : InputData} {p p' : Phys}
    (h : stepPhys c dt dl p = .ok p') :
    (0 < p.snow.layer_count ∧ ∃ r p1 G G0 M,
      h_le c { p with input1 := applied dl p.input1
                      snow := { p.snow with h2o_total := 0,
                                            snowcover := decide (p.snow.layer_count > 0) } }
        = .ok (r, p1) ∧
      heat_transfer c p'.input1 p.snow = .ok (G, G0) ∧ advec p'.input1 dt p.snow = .ok M ∧
      p'.snow.E = r.e ∧
      p'.snow.en = { R_n := net_radiation (applied dl p.input1) p.snow, H := r.h, L_v_E := r.le, G := G,
                     G_0 := G0, M := M,
                     delta_Q_0 := net_radiation (applied dl p.input1) p.snow + r.h + r.le + G0 + M
                     delta_Q := net_radiation (applied dl p.input1) p.snow + r.h + r.le + G0 + M + G - G0 }) ∨
    (p.snow.layer_count = 0 ∧ p'.snow.E = 0 ∧ p'.snow.en = Energy.zero) := by
  obtain ⟨p1, h1, h2, hp⟩ := stepPhys_ok h
  obtain ⟨f1, f2⟩ := mass_balance_flux h2
  have hin : p'.input1 = p1.input1 := by rw [hp]
  rcases energy_balance_ok h1 with ⟨hl, r, p2, G, G0, M, g1, g2, g3, rfl⟩ | ⟨h0, rfl⟩
  · left
    obtain ⟨sv, es, _, _, _, g5, _⟩ := h_le_ok g1
    have hin' : p'.input1 = p2.input1 := hin
    rw [g5, ← hin'] at g2 g3
    refine ⟨hl, r, p2, G, G0, M, g1, g2, g3, f2, f1⟩
  · exact .inr ⟨h0, f2, f1⟩

end

end Pysnobal
