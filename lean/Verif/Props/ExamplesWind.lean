import Verif.Lemmas.WitnessWind
import Verif.Props.Cover
import Verif.Props.Examples2

/-! # Examples: the run step in wind -/

namespace Pysnobal

noncomputable section

open Classical

/-- C61, C52: the run of the cold two-layer pack in wind has a positive exchange coefficient; warm air heats the
snow. -/
example : ∃ x m, RunTrace windCfg [windRec, windRec] [[x]] m ∧ x.pre.snow.layer_count = 2 ∧
    x.post.input1.u = 0.3 ∧ 0 < x.post.snow.en.H ∧
    ∃ κ Δq, 0 < κ ∧ x.post.snow.E = κ * Δq ∧
      x.post.snow.en.H = κ * (CP_AIR * (BOIL + GRAVITY / CP_AIR * 4 - (FREEZE - 10))) := by
  obtain ⟨x, m, h, _, hw, hs, hi, h1, h2⟩ := wind_run
  have hin : x.post.input1 = windRec.toInput := by
    obtain ⟨q, hq, _⟩ := stepPhys_ok hs
    have hw' : WindPack (stepStart (deltaRec windRec.toInput windRec.toInput 1).toInput x.pre).snow :=
      ⟨hw.z_s, hw.rho, hw.m_s, hw.t_s, hw.t_s_0, hw.t_s_l, hw.lc, hw.z_s_0, hw.z_s_l, hw.cc_s_0, hw.cc_s_l, hw.h2o,
        start_inv (by norm_num [calmEnv]) hw.inv⟩
    have hap : (stepStart (deltaRec windRec.toInput windRec.toInput 1).toInput x.pre).input1 = windRec.toInput := by
      show applied _ _ = _
      unfold applied; rw [hi, if_neg (by rw [wind_now]; simp)]
    obtain ⟨r, _, _, _, _, _, _, _, _, _, _, k8⟩ := wind_energy hw' hap h1 h2
    obtain ⟨q', hq', _, e⟩ := stepPhys_ok hs
    have : energy_balance (calmEnv 0.01) 3600 (stepStart (deltaRec windRec.toInput windRec.toInput 1).toInput x.pre)
        = .ok q' := hq'
    rw [k8] at this
    cases this
    rw [e]
    exact hap
  have hu : x.post.input1.u = 0.3 := by rw [hin]; rfl
  have hta : x.post.input1.t_a = BOIL := by rw [hin]; rfl
  have hea : x.post.input1.e_a = 20 := by rw [hin]; rfl
  obtain ⟨sat, es, θ, Δθ, Δq, e1, e2, e3, e4, e5, _, _, e6⟩ := C61_exchange_step windCfg _ _ m h _ wind_env [x] (by simp) x
    (by simp) (by rw [hw.lc]; norm_num)
  have ez : windCfg.z_t = 5 ∧ windCfg.z_u = 5 ∧ windCfg.init_z_0 = 0.005 := by
    refine ⟨?_, ?_, ?_⟩ <;> norm_num [windCfg, calmCfg, defaultSteps]
  rw [hta, satw_boil] at e1
  cases e1
  rw [hw.t_s_0] at e2 e4
  rw [hta, hw.z_s, ez.1] at e3
  norm_num at e3
  have hθ : 110 ≤ Δθ ∧ θ ≤ 400 ∧ 300 ≤ θ := by
    rw [e4, e3]; norm_num [BOIL, GRAVITY, CP_AIR, FREEZE]
  have hes0 := sati_value_pos e2
  have hes' := (C35_relative_to_freezing _ es e2).1 (by linarith)
  obtain ⟨κ, k1, _, k2, k3⟩ := e6 (by rw [hu]; norm_num) (by rw [hw.z_s, ez.2.1, ez.2.2]; norm_num)
    (by rw [hw.z_s, ez.1, ez.2.2]; norm_num) (by
      have a1 : 0.2 ≤ Δθ / θ := by rw [le_div_iff₀ (by linarith)]; linarith
      have eP : (calmEnv 0.01).P_a = SEA_LEVEL := rfl
      have hq : ∀ e : ℝ, 0 < e → e < 610.71 → 0 < vapourFraction e SEA_LEVEL ∧ vapourFraction e SEA_LEVEL ≤ 0.01 := by
        intro e h0 h1
        unfold vapourFraction
        have hd : 0 < MOL_H2O * e + MOL_AIR * (SEA_LEVEL - e) := by norm_num [MOL_H2O, MOL_AIR, SEA_LEVEL]; linarith
        constructor
        · have : 0 < MOL_H2O * e := by norm_num [MOL_H2O]; exact h0
          positivity
        · rw [div_le_iff₀ hd]; norm_num [MOL_H2O, MOL_AIR, SEA_LEVEL]; linarith
      have a2 := hq es hes0 hes'
      have a3 := hq 20 (by norm_num) (by norm_num)
      rw [eP, hea, min_eq_left (by norm_num [SEA_LEVEL])] at e5
      linarith)
  refine ⟨x, m, h, hw.lc, hu, ?_, κ, Δq, k1, k3, by rw [k2, e4, e3]⟩
  rw [k2]
  have : 0 < CP_AIR * Δθ := mul_pos (by norm_num [CP_AIR]) (by linarith)
  positivity

/-- C62: the storm step satisfies the conditions under which the cover lasts. -/
example (n : ℕ) : ∃ x ls m, RunTrace stormCfg (stormRec :: quietRec :: List.replicate n quietRec) ([x] :: ls) m ∧
    StormStep x ∧ 0 < x.pre.snow.layer_count ∧ stormCfg.small_threshold < x.pre.snow.m_s ∧
    x.post.snow.melt < x.pre.snow.m_s + x.precip ∧
    stormCfg.small_threshold < x.pre.snow.m_s + x.precip + x.post.snow.E_s := by
  obtain ⟨x, ls, m, h1, h2, _, h3⟩ := storm_facts n
  obtain ⟨_, hcov, _, _, _, hm, _, _, hlc, _⟩ := h3 [x] (by simp) x (by simp)
  obtain ⟨hg, ha, hm', hr, _⟩ := stormCfg_ok
  have e : stormCfg.small_threshold = 1 := by norm_num [stormCfg, calmCfg, defaultSteps]
  obtain ⟨ts, _, hx⟩ := C62_cover_lasts_step stormCfg hg ha _ (fun r h => (storm_rows n r h).1) _ m h1
  obtain ⟨q1, q2⟩ := (hx [x] (by simp) x (by simp) (by rw [hlc]; norm_num)).2.1 (by rw [e]; linarith) hcov
  refine ⟨x, ls, m, h1, h2, by rw [hlc]; norm_num, by rw [e]; linarith, q1, ?_⟩
  rcases q2 with q2 | q2
  · exact q2
  · have hE : x.post.snow.E = 0 := (h3 [x] (by simp) x (by simp)).2.2.2.1
    rw [hE] at q2
    exact absurd q2.1 (lt_irrefl _)

end

end Pysnobal
