import Verif.Props.NonNeg
import Verif.Props.Functions
import Verif.Props.Compaction
import Verif.Props.Cold

/-! # When each routine of the mass balance completes -/

namespace Pysnobal

noncomputable section

theorem time_compact_prog {c : Env} {dt : ℝ} (hdt : 0 < dt) {s : Snow}
    (h : s.snowcover = true → 0 < s.rho ∧ 0 < s.m_s) : ∃ s', time_compact c dt s = .ok s' := by
  unfold time_compact
  by_cases h1 : s.snowcover = false ∨ s.rho ≥ RHO_MAX
  · exact ⟨s, by rw [if_pos h1]⟩
  · rw [if_neg h1]
    push Not at h1
    obtain ⟨hr, hm⟩ := h (by simpa using h1.1)
    obtain ⟨rate, hrate, hpos, _⟩ := compactRate_pos hdt s
    rw [hrate, bind_ok]
    simp only [pdiv_of_ne hpos.ne', bind_ok]
    rw [pdiv_of_ne]
    · exact ⟨_, rfl⟩
    · have hK : 0 < (if s.rho < 100 then (1 : ℝ) else Real.exp (-0.046 * (s.rho - 100))) := by
        split
        · norm_num
        · exact Real.exp_pos _
      have : 0 < s.rho + (0.01 * (if s.rho < 100 then (1 : ℝ) else Real.exp (-0.046 * (s.rho - 100))) *
          Real.exp (-0.04 * (FREEZE - s.t_s)) / rate + 0.026 * Real.exp (-0.08 * (FREEZE - s.t_s)) * s.m_s *
          Real.exp (-21 * (s.rho / RHO_W0)) / rate) * s.rho := by positivity
      exact this.ne'

theorem precip_prog {c : Env} (hc : c.OK) {i : InputData} (hf : i.precip_now = true → StepForcing i)
    (s : Snow) : ∃ s', precip_event c i s = .ok s' := by
  unfold precip_event
  cases hp : i.precip_now
  · exact ⟨_, rfl⟩
  · simp only [if_true]
    by_cases hs : s.snowcover = true
    · rw [if_pos hs]
      exact ⟨_, rfl⟩
    · rw [if_neg hs]
      by_cases hm : i.m_snow > 0
      · rw [if_pos hm]
        have : ∃ s', init_snow c { s with z_s := i.z_snow, rho := i.rho_snow, t_s := i.t_snow, t_s_0 := i.t_snow, t_s_l := i.t_snow, h2o_sat := i.h2o_sat_snow } = .ok s' := by
          unfold init_snow initLayers
          split
          · exact ⟨_, rfl⟩
          · unfold initWater Snow.dry_snow_density
            dsimp only
            rw [pdiv_of_ne]
            · exact ⟨_, rfl⟩
            · obtain ⟨z, a, b, hfr⟩ := calc_shape c { s with z_s := i.z_snow, rho := i.rho_snow, t_s := i.t_snow, t_s_0 := i.t_snow, t_s_l := i.t_snow, h2o_sat := i.h2o_sat_snow, m_s := i.rho_snow * i.z_snow }
              rw [hfr]
              have F := hf hp
              show 1 - i.h2o_sat_snow * c.max_h2o_vol * RHO_W0 / RHO_ICE ≠ 0
              have h1 : i.h2o_sat_snow * c.max_h2o_vol ≤ c.max_h2o_vol := by
                nlinarith [F.sat.1, F.sat.2, hc.vol]
              have h2 : i.h2o_sat_snow * c.max_h2o_vol * RHO_W0 < RHO_ICE := by
                refine lt_of_le_of_lt ?_ hc.vol_lt
                exact mul_le_mul_of_nonneg_right h1 (by norm_num [RHO_W0])
              have h3 : i.h2o_sat_snow * c.max_h2o_vol * RHO_W0 / RHO_ICE < 1 := by
                rw [div_lt_one (by norm_num [RHO_ICE])]; exact h2
              linarith
        obtain ⟨s', h'⟩ := this
        rw [h', bind_ok]
        exact ⟨_, rfl⟩
      · rw [if_neg hm]
        exact ⟨_, rfl⟩

theorem refreezeSurf_prog {Q : ℝ} {s : Snow} (hz : s.z_s ≠ 0) : ∃ x, refreezeSurf Q s = .ok x := by
  unfold refreezeSurf
  split
  · rw [pdiv_of_ne hz, bind_ok]
    dsimp only
    split
    · exact ⟨_, rfl⟩
    · exact ⟨_, rfl⟩
  · exact ⟨_, rfl⟩

theorem refreezeLower_prog {Q r : ℝ} {s : Snow} (hz : s.z_s ≠ 0) : ∃ x, refreezeLower Q s r = .ok x := by
  unfold refreezeLower
  split
  · rw [pdiv_of_ne hz, bind_ok]
    dsimp only
    split
    · exact ⟨_, rfl⟩
    · exact ⟨_, rfl⟩
  · exact ⟨_, rfl⟩

theorem refreezeSurf_frame {Q r : ℝ} {s s' : Snow} (h : refreezeSurf Q s = .ok (s', r)) :
    s'.z_s = s.z_s ∧ s'.rho = s.rho := by
  unfold refreezeSurf at h
  split at h
  · obtain ⟨f, _, h⟩ := bind_eq_ok.mp h
    dsimp only at h
    split at h <;> (simp only [pure_ok, Except.ok.injEq, Prod.mk.injEq] at h; rw [← h.1]; exact ⟨rfl, rfl⟩)
  · simp only [Except.ok.injEq, Prod.mk.injEq] at h
    rw [← h.1]; exact ⟨rfl, rfl⟩

theorem refreezeLower_frame {Q r r0 : ℝ} {s s' : Snow} (h : refreezeLower Q s r0 = .ok (s', r)) :
    s'.z_s = s.z_s ∧ s'.rho = s.rho := by
  unfold refreezeLower at h
  split at h
  · obtain ⟨f, _, h⟩ := bind_eq_ok.mp h
    dsimp only at h
    split at h <;> (simp only [pure_ok, Except.ok.injEq, Prod.mk.injEq] at h; rw [← h.1]; exact ⟨rfl, rfl⟩)
  · simp only [Except.ok.injEq, Prod.mk.injEq] at h
    rw [← h.1]; exact ⟨rfl, rfl⟩

theorem snowmelt_prog {c : Env} {dt : ℝ} {s : Snow} (h : s.snowcover = true → s.z_s ≠ 0 ∧ s.rho ≠ 0) :
    ∃ s', snowmelt c dt s = .ok s' := by
  unfold snowmelt
  by_cases hs : s.snowcover = false
  · rw [if_pos hs]; exact ⟨_, rfl⟩
  · rw [if_neg hs]
    obtain ⟨hz, hr⟩ := h (by simpa using hs)
    have e : (meltLayers dt s).z_s = s.z_s ∧ (meltLayers dt s).rho = s.rho := by
      rw [meltLayers_eq]; exact ⟨rfl, rfl⟩
    dsimp only
    obtain ⟨⟨s2, r2⟩, h2⟩ := refreezeSurf_prog (Q := meltQ0 dt s) (s := meltLayers dt s) (by rw [e.1]; exact hz)
    obtain ⟨z2, q2⟩ := refreezeSurf_frame h2
    obtain ⟨⟨s3, r3⟩, h3⟩ := refreezeLower_prog (Q := meltQl dt s) (r := r2) (s := s2) (by rw [z2, e.1]; exact hz)
    obtain ⟨z3, q3⟩ := refreezeLower_frame h3
    rw [h2, bind_ok]
    dsimp only
    rw [h3, bind_ok]
    dsimp only
    have q4 : (refreezeSnap s3 r3).rho = s.rho := by
      unfold refreezeSnap
      split <;> rw [show _ = s3.rho from rfl, q3, q2, e.2]
    split
    · rw [pdiv_of_ne (by rw [q4]; exact hr), bind_ok]
      exact ⟨_, rfl⟩
    · exact ⟨_, rfl⟩

/-- The vapour exchange between snow at temperature `T` and the soil over a step, kg/m²: snobal.py:455–473 with
the layer's temperature made explicit. -/
def soilExchange (c : Env) (i : InputData) (dt T : ℝ) : Except Err ℝ := do
  let e_s ← sati T
  let q_s ← spec_hum e_s c.P_a
  let e_g ← i.e_g
  let q_g ← spec_hum e_g c.P_a
  let rho_air ← gas_density c.P_a MOL_AIR ((i.t_g + T) / 2)
  let k ← diffusion_coef c.P_a ((i.t_g + T) / 2)
  let E_l ← vapor_flux rho_air k (q_g - q_s) c.z_g
  pure (E_l * dt)

theorem soilEvap_eq (c : Env) (i : InputData) (dt : ℝ) (s : Snow) :
    soilEvap c i dt s = soilExchange c i dt (if s.layer_count = 2 then s.t_s_l else s.t_s_0) := by
  unfold soilEvap soilExchange Snow.e_s_l Snow.e_s_0
  by_cases h : s.layer_count = 2
  · simp only [h, if_true]
  · simp only [h, if_false]

theorem sati_le_freeze {t e : ℝ} (ht : t ≤ FREEZE) (h : sati t = .ok e) : e ≤ 610.71 := by
  rcases ht.lt_or_eq with h1 | h1
  · exact (C35_sati_increasing t FREEZE e 610.71 h1 (by norm_num [FREEZE, BOIL]) h sati_freeze).le
  · subst h1
    rw [sati_freeze] at h; cases h; exact le_refl _

/-- Air pressure, soil and its vapour pressure allow the exchange with the soil to be computed. -/
structure SoilOK (c : Env) (i : InputData) : Prop where
  z_g : c.z_g ≠ 0
  press : 610.71 < c.P_a
  warm : 0 < i.t_g
  vapour : ∀ e, sati i.t_g = .ok e → e < c.P_a

theorem soilExchange_prog {c : Env} {i : InputData} (h : SoilOK c i) {dt T : ℝ} (h0 : 0 < T)
    (h1 : T ≤ FREEZE) : ∃ v, soilExchange c i dt T = .ok v := by
  obtain ⟨e, he⟩ := sati_ok_iff.mpr h0
  obtain ⟨eg, heg⟩ := sati_ok_iff.mpr h.warm
  have hP : 0 < c.P_a := by linarith [h.press]
  obtain ⟨q, hq, _⟩ := spec_hum_of (sati_value_pos he) (lt_of_le_of_lt (sati_le_freeze h1 he) h.press)
  obtain ⟨qg, hqg, _⟩ := spec_hum_of (sati_value_pos heg) (h.vapour eg heg)
  unfold soilExchange InputData.e_g
  rw [he, bind_ok, hq, bind_ok, heg, bind_ok, hqg, bind_ok]
  unfold gas_density diffusion_coef vapor_flux
  have : (0 : ℝ) < RGAS * ((i.t_g + T) / 2) := mul_pos rgas_pos (by linarith [h.warm])
  rw [pdiv_of_ne this.ne', bind_ok, pdiv_of_ne hP.ne', bind_ok, pure_ok, bind_ok, pdiv_of_ne h.z_g, bind_ok]
  exact ⟨_, rfl⟩

theorem evap_prog {c : Env} {i : InputData} (hi : SoilOK c i) {dt : ℝ} {s : Snow}
    (h : s.snowcover = true → (0 < s.t_s_0 ∧ s.t_s_0 ≤ FREEZE) ∧ (0 < s.t_s_l ∧ s.t_s_l ≤ FREEZE) ∧ s.rho ≠ 0) :
    ∃ s', evap_cond c i dt s = .ok s' := by
  unfold evap_cond
  by_cases hs : s.snowcover = false
  · rw [if_pos hs]; exact ⟨_, rfl⟩
  · rw [if_neg hs]
    obtain ⟨⟨h1, h2⟩, ⟨h3, h4⟩, hr⟩ := h (by simpa using hs)
    obtain ⟨el, hel⟩ : ∃ el, soilEvap c i dt { s with h2o_total := evapH2o s.h2o_total (s.E * dt) } = .ok el := by
      rw [soilEvap_eq]
      split
      · exact soilExchange_prog hi h3 h4
      · exact soilExchange_prog hi h1 h2
    by_cases hl : s.layer_count = 0
    · have hl1 : ∀ (a : ℝ), Snow.layer_count { s with h2o_total := a } = 0 := fun _ => hl
      have hl2 : ∀ (a b : ℝ), Snow.layer_count { s with h2o_total := a, E_s := b } = 0 := fun _ _ => hl
      simp only [hl1, if_true, pure_ok, bind_ok, hl2, gt_iff_lt, lt_irrefl, if_false]
      exact ⟨_, rfl⟩
    · have hl1 : ∀ (a : ℝ), Snow.layer_count { s with h2o_total := a } = s.layer_count := fun _ => rfl
      have hl2 : ∀ (a b : ℝ), Snow.layer_count { s with h2o_total := a, E_s := b } = s.layer_count :=
        fun _ _ => rfl
      have hlp : 0 < s.layer_count := Nat.pos_of_ne_zero hl
      simp only [hl1, hl, if_false, gt_iff_lt, hlp, if_true, hel, bind_ok, pure_ok]
      simp only [hl2, hlp, if_true, pdiv_of_ne hr, bind_ok]
      exact ⟨_, rfl⟩

theorem h2o_compact_prog {c : Env} {i : InputData} {s : Snow}
    (h : s.snowcover = true → 0 < s.m_s ∧ 0 < s.rho) : ∃ s', h2o_compact c i s = .ok s' := by
  unfold h2o_compact
  by_cases h1 : s.snowcover = false ∨ s.rho > 550
  · rw [if_pos h1]; exact ⟨_, rfl⟩
  · rw [if_neg h1]
    push Not at h1
    obtain ⟨hm, hr⟩ := h (by simpa using h1.1)
    obtain ⟨w, hw⟩ : ∃ w, h2oAdded i s = .ok w := by
      unfold h2oAdded
      split
      · exact ⟨_, pdiv_of_ne hm.ne'⟩
      · exact ⟨_, pdiv_of_ne hm.ne'⟩
    dsimp only
    rw [hw, bind_ok]
    split
    · rename_i hg
      have hw0 : (0 : ℝ) < w := by linarith [show (0 : ℝ) < 0.000001 by norm_num]
      have hb : 0 < 1 + 0.4 / w := by positivity
      have hq : 0 ≤ (550 - s.rho) / (1 + 0.4 / w) := div_nonneg (by linarith [h1.2]) hb.le
      rw [pdiv_of_ne hw0.ne', bind_ok, pdiv_of_ne hb.ne', bind_ok, pdiv_of_ne (by
        have : 0 < s.rho + (550 - s.rho) / (1 + 0.4 / w) := by linarith
        exact this.ne'), bind_ok]
      exact ⟨_, rfl⟩
    · exact ⟨_, rfl⟩

/-- A pack whose ice is not denser than 600 kg/m³ can hold water. -/
theorem capacity_pos {c : Env} {s : Snow} (hv : 0 < c.max_h2o_vol) (hz : 0 < s.z_s)
    (hd : s.m_s - s.h2o_total ≤ 600 * s.z_s) : 0 < capacity c s := by
  unfold capacity h2o_left RHO_W0 RHO_ICE
  have : (s.m_s - s.h2o_total) / s.z_s ≤ 600 := by rw [div_le_iff₀ hz]; exact hd
  have h2 : 0 < 917 - (s.m_s - s.h2o_total) / s.z_s := by linarith
  positivity

theorem runoff_prog {c : Env} {s : Snow} (h : s.snowcover = true → s.layer_count ≠ 0 →
    0 < s.z_s ∧ capacity c s ≠ 0) : ∃ s', runoff c s = .ok s' := by
  unfold runoff
  by_cases h1 : s.snowcover = false ∨ s.layer_count = 0
  · rw [if_pos h1]; exact ⟨_, rfl⟩
  · rw [if_neg h1]
    push Not at h1
    obtain ⟨hz, hc⟩ := h (by simpa using h1.1) h1.2
    dsimp only
    rw [pdiv_of_ne hz.ne', bind_ok]
    split
    · exact ⟨_, rfl⟩
    · unfold capacity at hc
      rw [pdiv_of_ne hc, bind_ok]
      exact ⟨_, rfl⟩

theorem new_tsno_prog {m t cc : ℝ} (hm : 0 < m) (ht : 0 ≤ t) : ∃ x, new_tsno m t cc = .ok x := by
  unfold new_tsno
  dsimp only
  rw [pdiv_of_ne (mul_pos hm (cp_ice_pos ht)).ne', bind_ok]
  exact ⟨_, rfl⟩

theorem adjust_prog {s : Snow} (h1 : s.layer_count = 1 → 0 < s.m_s_0 ∧ 0 ≤ s.t_s_0)
    (h2 : s.layer_count = 2 → 0 < s.m_s_0 ∧ 0 ≤ s.t_s_0 ∧ 0 < s.m_s_l ∧ 0 ≤ s.t_s_l ∧ 0 < s.m_s ∧ 0 ≤ s.t_s) :
    ∃ s', s.adjust_layer_temps = .ok s' := by
  unfold Snow.adjust_layer_temps
  by_cases a : s.layer_count = 1
  · rw [if_pos a]
    obtain ⟨x, hx⟩ := new_tsno_prog (cc := s.cc_s_0) (h1 a).1 (h1 a).2
    rw [hx, bind_ok]; exact ⟨_, rfl⟩
  · rw [if_neg a]
    by_cases b : s.layer_count = 2
    · rw [if_pos b]
      obtain ⟨k1, k2, k3, k4, k5, k6⟩ := h2 b
      split
      · exact ⟨_, rfl⟩
      · obtain ⟨x, hx⟩ := new_tsno_prog (cc := s.cc_s_0) k1 k2
        obtain ⟨y, hy⟩ := new_tsno_prog (cc := s.cc_s_l) k3 k4
        obtain ⟨z, hz⟩ := new_tsno_prog (cc := s.cc_s) k5 k6
        rw [hx, bind_ok, hy, bind_ok, hz, bind_ok]; exact ⟨_, rfl⟩
    · rw [if_neg b]; exact ⟨_, rfl⟩

end

end Pysnobal
