import Verif.Props.Energy
import Verif.Lemmas.MassProgress

/-! # C24: no run step melts more snow than its energy can melt, whether or not the pack outlasts the step -/

namespace Pysnobal

noncomputable section

variable {c : Env} {dt : ℝ} {dl : InputData} {p p' : Phys} {s0 s1 s2 s3 s4 s5 s6 : Snow}

/-- Nothing after `snowmelt` changes melt or fluxes, nothing after `evap_cond` the vapour exchange. -/
theorem StepChain.melt_en (hmax : 0 < c.max_z_s_0) (k : StepChain c dt dl p p' s0 s1 s2 s3 s4 s5 s6) :
    p'.snow.melt = s3.melt ∧ p'.snow.en = s3.en ∧ p'.snow.E = s3.E ∧ p'.snow.E_s = s4.E_s := by
  have h4 : s4.melt = s3.melt ∧ s4.en = s3.en ∧ s4.E = s3.E := by
    rcases evap_cond_out hmax k.i3 k.ec with ⟨_, e⟩ | ⟨_, el, w, _, _, _, _, h6 | hg⟩
    · rw [e]; exact ⟨rfl, rfl, rfl⟩
    · obtain ⟨st4, _, _⟩ := h6
      exact ⟨st4.melt, st4.en, st4.E⟩
    · exact ⟨hg.melt, hg.en, hg.E⟩
  have h5 : s5.melt = s4.melt ∧ s5.en = s4.en ∧ s5.E = s4.E ∧ s5.E_s = s4.E_s := by
    rcases h2o_compact_out hmax k.i4 k.hc with ⟨_, e⟩ | ⟨_, h7 | hg⟩
    · rw [e]; exact ⟨rfl, rfl, rfl, rfl⟩
    · exact ⟨h7.1.melt, h7.1.en, h7.1.E, h7.1.E_s⟩
    · exact ⟨hg.melt, hg.en, hg.E, hg.E_s⟩
  have h6 : p'.snow.melt = s5.melt ∧ p'.snow.en = s5.en ∧ p'.snow.E = s5.E ∧ p'.snow.E_s = s5.E_s := by
    cases hf : s5.snowcover
    · rw [k.dead5 hf]
      exact ⟨rfl, rfl, rfl, rfl⟩
    · obtain ⟨_, _, _, _, _, _, d7, d8, d9, d10, _⟩ := k.drained hmax hf
      rw [k.frame7]
      exact ⟨d7, d10, d9, d8⟩
  exact ⟨by rw [h6.1, h5.1, h4.1], by rw [h6.2.1, h5.2.1, h4.2.1], by rw [h6.2.2.1, h5.2.2.1, h4.2.2],
    by rw [h6.2.2.2, h5.2.2.2]⟩

theorem StepChain.melt_bound (hmax : 0 < c.max_z_s_0) (k : StepChain c dt dl p p' s0 s1 s2 s3 s4 s5 s6)
    (hsm : 0 ≤ c.small_threshold) (hl : p.snow.cc_s_l ≤ 0) (ht : 0 ≤ p.snow.t_s) :
    lh_fus FREEZE * p'.snow.melt ≤ max 0 (p.snow.cc_s_0 + p'.snow.en.delta_Q_0 * dt) +
      max 0 ((p'.snow.en.G - p'.snow.en.G_0) * dt) := by
  obtain ⟨em, ee, _, _⟩ := k.melt_en hmax
  have lf : 0 < lh_fus FREEZE := by rw [lf_eq]; norm_num
  have key : p'.snow.melt = 0 ∨ p'.snow.melt ≤ meltCap dt { p.snow with en := p'.snow.en } := by
    rcases snowmelt_out hmax k.i2 k.sm with ⟨_, e⟩ | ⟨f2, t, r, hm, _, h3⟩
    · left; rw [em, e]
    · right
      obtain ⟨f1, rn⟩ := k.flag2 hmax f2
      obtain ⟨f0, st1⟩ := k.flag1 hmax f1
      obtain ⟨u, st2, eu⟩ := rn.stay
      have h3' : s3.melt = t.melt ∧ s3.en = t.en := by
        rcases h3 with ⟨st, _⟩ | hg
        · exact ⟨st.melt, st.en⟩
        · exact ⟨hg.melt, hg.en⟩
      have e2 : s2.cc_s_0 = p.snow.cc_s_0 := by
        rw [eu]; show u.cc_s_0 = _; rw [st2.cc0, st1.cc0, k.start]
      have step : ∀ {a b : Snow} {m : ℝ}, Stay c a m b → a.cc_s_l ≤ 0 → 0 ≤ a.t_s → b.cc_s_l ≤ 0 := by
        intro a b m st ha h0
        rcases st.lower with ⟨_, e⟩ | ⟨_, _, _, e⟩ | ⟨_, _, _, e, hmm⟩
        · rw [e]; exact ha
        · rw [e]
        · rw [e]
          unfold cold_content heat_stor cp_ice CAL_TO_J
          split
          · apply mul_nonpos_of_nonneg_of_nonpos
            · have : 0 ≤ b.m_s_l := hsm.trans hmm
              positivity
            · linarith
          · exact le_refl _
      have c2 : s2.cc_s_l ≤ 0 := by
        rw [eu]
        show u.cc_s_l ≤ 0
        have c1 := step st1 (by rw [k.start]; exact hl) (by rw [k.start]; exact ht)
        exact step st2 c1 (by rw [st1.t_s, k.start]; exact ht)
      have hen : t.en = s2.en := by rw [hm.frame]
      rw [em, h3'.1]
      exact melt_le_cap hm (by rw [ee, h3'.2, hen]) e2 c2
  rcases key with h | h
  · rw [h, mul_zero]
    exact add_nonneg (le_max_left _ _) (le_max_left _ _)
  · unfold meltCap at h
    rw [le_div_iff₀ lf] at h
    rw [mul_comm, add_comm p.snow.cc_s_0]
    exact h

/-- C24, the amount of melt: no run step, whether or not the pack outlasts it, melts more than the energy its fluxes bring
to the surface layer in excess of the cold content of that layer and the heat that flows into the lower layer, over the
latent heat of fusion (of 333600 J/kg); provided the lower layer starts without positive cold content (C16) and the
mean temperature of the pack is one above 0 K. -/
theorem C24_melt_bound_step (g : Config) (hmax : 0 < g.max_active) (hsm : 0 ≤ g.small_threshold) (rows : List Rec)
    (ls : List (List (RStep Phys))) (m : Model) (h : RunTrace g rows ls m) :
    ∃ ts, parse_time_steps g = .ok ts ∧ ∀ l ∈ ls, ∀ x ∈ l, x.pre.snow.cc_s_l ≤ 0 → 0 ≤ x.pre.snow.t_s →
      333600 * x.post.snow.melt ≤ max 0 (x.pre.snow.cc_s_0 + x.post.snow.en.delta_Q_0 * (ts x.lv).time_step) +
        max 0 ((x.post.snow.en.G - x.post.snow.en.G_0) * (ts x.lv).time_step) := by
  obtain ⟨c, ts, hc, hts, hm, hx⟩ := trace_step hmax h
  refine ⟨ts, hts, fun l hl x hxl hcl ht => ?_⟩
  obtain ⟨d, h1, h2, h3⟩ := hx l hl x hxl
  obtain ⟨s0, s1, s2, s3, s4, s5, s6, k⟩ := step_chain hm h1 h3
  have := k.melt_bound hm (by rw [(mkEnv_ok hc).2.1]; exact hsm) hcl ht
  rw [lf_eq] at this
  exact this

end

end Pysnobal
