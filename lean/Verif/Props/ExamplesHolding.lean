import Verif.Props.Holding
import Verif.Props.Retention
import Verif.Props.ExamplesRain

/-! # Examples for C89: ten millimetres of rain on a pack that can hold it, and on one that cannot -/

namespace Pysnobal

noncomputable section

/-- 100 kg/m² of ripe, drained snow that can hold water in `vol` of its volume of pores. -/
def spongeCfg (vol : ℝ) : Config := calmCfg 60 vol (1 / 6) 600 0

theorem sponge_hour {vol : ℝ} (hv : 0.2 ≤ vol) {s : Snow} (hs : RipeSnow s) (hr : s.rho = 600) (hm : s.m_s = 100) (hz : s.z_s_0 = 1 / 6) (hh : s.h2o = 0) :
    ∃ p', stepPhys (calmEnv vol) 3600 (deltaRec rainRec.toInput quietRec.toInput 1).toInput ⟨s, rainRec.toInput, none, none⟩ = .ok p' ∧
      p'.snow.snowcover = true ∧ p'.snow.swi = 0 ∧ p'.snow.h2o = 10 ∧ p'.snow.z_s = 110 / 600 ∧ p'.snow.z_s_0 = 110 / 600 ∧ p'.snow.m_s = 110 := by
  have g1 : rainRec.toInput.precip_now = true := calm_now (by norm_num)
  have g2 : rainRec.toInput.m_pp = 10 := rfl
  have g3 : rainRec.toInput.m_rain = 10 := by show (10:ℝ) - 10 * 0 = 10; norm_num
  have g4 : rainRec.toInput.z_snow = 0 := if_neg (by norm_num [rainRec, calmRec])
  have g6 : rainRec.toInput.h2o_sat_snow = 0 := if_neg (by norm_num [rainRec, calmRec])
  have hr0 : RipeSnow (radiated 0 s) :=
    ⟨hs.z0, hs.zl, hs.z, hs.z_le, hs.rho, hs.t0, hs.t, hs.cc0, hs.ccl, hs.m, hs.m0, hs.ml⟩
  have hpe : precip_event (calmEnv vol) rainRec.toInput (radiated 0 s) = .ok { radiated 0 s with z_s := 110 / 600, m_s := 110, rho := 600, z_s_0 := 110 / 600, m_s_0 := 110, h2o := 0, h2o_total := 10 } := by
    unfold precip_event
    rw [if_pos g1, if_pos (show (radiated 0 s).snowcover = true from rfl), g4, g2, g6, g3]
    have e1 : adj_snow (calmEnv vol) 0 10 (radiated 0 s) = adj_layers (calmEnv vol) { radiated 0 s with z_s := 110 / 600, m_s := 110, rho := 600 } := by
      unfold adj_snow
      have ez : (radiated 0 s).z_s + 0 = 1 / 6 := by show s.z_s + 0 = _; rw [hs.z, hz]; norm_num
      have em : (radiated 0 s).m_s + 10 = 110 := by show s.m_s + 10 = _; rw [hm]; norm_num
      rw [ez, em]
      have hd : (if (1 / 6 : ℝ) ≠ 0 then (110 : ℝ) / (1 / 6) else 0) > MAX_SNOW_DENSITY := by norm_num [MAX_SNOW_DENSITY]
      refine (if_pos hd).trans ?_
      norm_num [MAX_SNOW_DENSITY]
    have e2 : ({ radiated 0 s with z_s := 110 / 600, m_s := 110, rho := 600 } : Snow).layer_count = 1 := hs.lc
    rw [e1, adj_layers_one e2 (by norm_num) (by norm_num) (by norm_num)]
    have e3 : (radiated 0 s).h2o = 0 := hh
    have e4 : (radiated 0 s).h2o_total = 0 := rfl
    simp only [pure_ok, bind_ok, e3, e4, Except.ok.injEq, Snow.mk.injEq, true_and, and_true, zero_mul]
    refine ⟨hs.zl.symm, by norm_num, hs.ml.symm, ?_, ?_⟩ <;> norm_num [h2o_left]
  set s2 : Snow := { radiated 0 s with z_s := 110 / 600, m_s := 110, rho := 600, z_s_0 := 110 / 600, m_s_0 := 110, h2o := 0, h2o_total := 10 } with hs2
  have hr2 : RipeSnow s2 := by
    refine ⟨?_, hs.zl, rfl, ?_, ?_, hs.t0, hs.t, hs.cc0, hs.ccl, ?_, ?_, hs.ml⟩ <;> simp only [hs2] <;> norm_num
  obtain ⟨cap, hcap⟩ : ∃ cap, cap = h2o_left (110 / 600) ((110 - 10) / (110 / 600)) vol := ⟨_, rfl⟩
  have hcapv : 10 ≤ cap := by
    rw [hcap]; unfold h2o_left RHO_W0 RHO_ICE
    norm_num
    linarith
  have haf := afterPrecip_quiet (vol := vol) (dt := 3600) (i := rainRec.toInput) (s := s2) hr2 rfl rfl rfl
    (.inr (by show (1e-8:ℝ) < 10; norm_num)) rfl (by show (550:ℝ) < 600; norm_num) (le_refl _) (cap := cap) hcap hcapv (by linarith)
  have hst := stepPhys_calm (vol := vol) (dt := 3600) (dl := (deltaRec rainRec.toInput quietRec.toInput 1).toInput)
    (i := rainRec.toInput) (p := ⟨s, rainRec.toInput, none, none⟩) hs (calm_update _) (calmRec_calm _ _ _ _)
    (by show 550 ≤ s.rho; rw [hr]; norm_num) (calmRec_net _ _ _ _ hs.t0 quietRec.toInput).1 (.inl ⟨rfl, rfl⟩)
    (calm_advec (by norm_num) (by norm_num) (by norm_num) hs.t0)
    (by rw [hpe, bind_ok]; exact haf)
  exact ⟨_, hst, rfl, rfl, rfl, rfl, rfl, rfl⟩

/-- The pack that can hold the rain. -/
theorem sponge_run : ∃ x m, RunTrace (spongeCfg 0.2) [rainRec, quietRec] [[x]] m ∧ x.post.snow.snowcover = true ∧ x.post.snow.swi = 0 ∧
    x.post.snow.h2o = 10 ∧ m.output_list.length = 1 ∧ ∀ o ∈ m.output_list, o.swi_sum = 0 := by
  have hinit := init_calm (thr := 60) (vol := 0.2) (z := 1 / 6) (rho := 600) (sat := 0) (d := 600)
    (by norm_num) (by norm_num) (by norm_num) (by norm_num) (by norm_num)
  obtain ⟨s0, hs0, f1, f2, f3, f4, f5⟩ : ∃ s0, init_snow (calmEnv 0.2) (recordSnow (spongeCfg 0.2)) = .ok s0 ∧
      RipeSnow s0 ∧ s0.rho = 600 ∧ s0.m_s = 100 ∧ s0.z_s_0 = 1 / 6 ∧ s0.h2o = 0 := by
    refine ⟨_, hinit, ⟨?_, rfl, rfl, ?_, ?_, rfl, rfl, rfl, rfl, rfl, rfl, rfl⟩, rfl, ?_, rfl, ?_⟩ <;> norm_num
  obtain ⟨p', d1, d2, d3, d4, _⟩ := sponge_hour (le_refl 0.2) f1 f2 f3 f4 f5
  obtain ⟨ls, m, h1, h2⟩ := first_trace (g := spongeCfg 0.2) (calmCfg_tiled _ _ _ _ _) (calmCfg_env _ _ _ _ _) hs0
    (r1 := rainRec) (r2 := quietRec) (rs := []) (calmRec_new (by norm_num)) (calmRec_new (by norm_num)) (by
      unfold below_thold
      rw [if_neg (by rw [f1.lc]; norm_num), if_pos f1.lc, f3]
      simp [spongeCfg, calmCfg]; norm_num) (p' := p') (by
        have : (((spongeCfg 0.2).norm_time_step * 60 : ℤ) : ℝ) = 3600 := by norm_num [spongeCfg, calmCfg, defaultSteps]
        rw [this]; exact d1)
    (P := fun ls m => ls = [] ∧ m.output_list.length = 1 ∧ ∀ o ∈ m.output_list, o.swi_sum = 0) (fun ts m1 _ _ _ e => ⟨[], m1, .nil _ _, rfl, by rw [e]; rfl, by
      rw [e]
      intro o ho
      rw [List.mem_singleton.mp ho]
      exact d3⟩)
  obtain ⟨rfl, h2⟩ := h2
  exact ⟨_, m, h1, d2, d3, d4, h2⟩

theorem rain_admissible : ∀ r ∈ [rainRec, quietRec], r.Admissible ∧ r.DrySnow := by
  intro r hr
  simp only [List.mem_cons, List.not_mem_nil, or_false] at hr
  rcases hr with rfl | rfl
  · exact ⟨fun _ => ⟨le_refl _, zero_le_one, fun h => absurd h (lt_irrefl _)⟩, fun _ h => absurd h (by norm_num [rainRec, calmRec])⟩
  · exact ⟨fun h => absurd h (lt_irrefl _), fun h => absurd h (by norm_num [quietRec, calmRec])⟩

theorem sponge_ok : (spongeCfg 0.2).Tiled ∧ (spongeCfg 0.2).AdmissibleStart := by
  refine ⟨calmCfg_tiled _ _ _ _ _, ?_⟩
  constructor
  · constructor <;> norm_num [spongeCfg, calmCfg, defaultSteps, RHO_W0, RHO_ICE]
  all_goals norm_num [spongeCfg, calmCfg, defaultSteps, RHO_W0, RHO_ICE]

/-- C89, runs: the rain is held, and a capacity of 0.4 instead of 0.2 makes no difference. -/
example : ∃ m m', simulate (spongeCfg 0.2) [rainRec, quietRec] = .ok m ∧ simulate (spongeCfg 0.4) [rainRec, quietRec] = .ok m' ∧
    List.Forall₂ SameButCapacity m.output_list m'.output_list ∧ m'.phys.snow.h2o = m.phys.snow.h2o ∧ m.output_list.length = 1 := by
  obtain ⟨x, m, h, h1, h2, h3, h4, _⟩ := sponge_run
  obtain ⟨hg, ha⟩ := sponge_ok
  obtain ⟨m', q1, q2, q3⟩ := C89_capacity_unused_run (spongeCfg 0.2) hg ha 0.4 (by norm_num [spongeCfg, calmCfg]) rfl _ rain_admissible _ m h
    (by
      intro l hl y hy
      simp only [List.mem_cons, List.not_mem_nil, or_false] at hl
      subst hl
      simp only [List.mem_cons, List.not_mem_nil, or_false] at hy
      subst hy
      exact fun _ => h2)
  exact ⟨m, m', h.simulate, q1, q2, by rw [q3], h4⟩

/-- C89, records: its only record reports no runoff. -/
example : ∃ m m', simulate (spongeCfg 0.2) [rainRec, quietRec] = .ok m ∧ simulate (spongeCfg 0.4) [rainRec, quietRec] = .ok m' ∧
    (∀ o ∈ m.output_list, o.swi_sum = 0) ∧ List.Forall₂ SameButCapacity m.output_list m'.output_list := by
  obtain ⟨x, m, h, h1, h2, h3, h4, h5⟩ := sponge_run
  obtain ⟨hg, ha⟩ := sponge_ok
  obtain ⟨m', q1, q2⟩ := C89_capacity_unused_records (spongeCfg 0.2) hg ha 0.4 (by norm_num [spongeCfg, calmCfg]) rfl _ rain_admissible m h.simulate h5
  exact ⟨m, m', h.simulate, q1, h5, q2⟩

/-- C89, run steps: at a capacity of 0.01 more than eight of the ten millimetres run off, at 0.2 nothing does. -/
example : ∃ x m y d, RunTrace stormCfg [rainRec, quietRec] [[x]] m ∧ mkEnv { stormCfg with max_h2o := 0.2 } = .ok (calmEnv 0.2) ∧
    stepPhys (calmEnv 0.01) 3600 d x.pre = .ok x.post ∧ stepPhys (calmEnv 0.2) 3600 d x.pre = .ok y ∧
    8 < x.post.snow.swi ∧ y.snow.swi = 0 ∧ HoldsMore x.post.snow y.snow := by
  obtain ⟨s0, hs0, f1, f2, f3, f4, f5, f6, f7⟩ := storm_init
  have hc : mkEnv stormCfg = .ok (calmEnv 0.01) := calmCfg_env _ _ _ _ _
  have hrn : rainRec.toInput.rained FREEZE FREEZE = rainRec.toInput := by simp [InputData.rained, Rec.toInput, rainRec, calmRec]
  have h36 : ((stormCfg.norm_time_step * 60 : ℤ) : ℝ) = 3600 := by norm_num [stormCfg, calmCfg, defaultSteps]
  obtain ⟨p1, d1⟩ := rain_hour f1 f7 f3 f5 f6 (le_refl FREEZE) (by norm_num) (dl := (deltaRec rainRec.toInput quietRec.toInput 1).toInput)
    (by simp [deltaRec, Rec.toInput, rainRec, calmRec])
  rw [hrn] at d1
  obtain ⟨q1, r1, r2, r3, r4, r5, r6, r7⟩ := sponge_hour (le_refl 0.2) f1 f2 f3 f4 f5
  obtain ⟨ls, m, h1, h2⟩ := first_trace (g := stormCfg) (calmCfg_tiled _ _ _ _ _) hc hs0
    (r1 := rainRec) (r2 := quietRec) (rs := []) (calmRec_new (by norm_num)) (calmRec_new (by norm_num)) (by
      unfold below_thold
      rw [if_neg (by rw [f1.lc]; norm_num), if_pos f1.lc, f3]
      simp [stormCfg, calmCfg]; norm_num) (p' := p1) (by rw [h36]; exact d1)
    (P := fun ls m => ls = []) (fun ts m1 _ _ _ _ => ⟨[], m1, .nil _ _, rfl⟩)
  subst h2
  have hc2 : mkEnv { stormCfg with max_h2o := 0.2 } = .ok (calmEnv 0.2) := calmCfg_env _ _ _ _ _
  have ha : stormCfg.AdmissibleStart := stormCfg_ok.2.1
  have hadm : ∀ r ∈ [rainRec, quietRec], r.Admissible := fun r hr => (rain_admissible r hr).1
  obtain ⟨c, ts, e1, e2⟩ := simulate_parts h1.simulate
  rw [hc] at e1
  cases e1
  obtain ⟨d, k1, k2, k3, k4⟩ := trace_dry (calmCfg_tiled _ _ _ _ _) ha rain_admissible h1 hc e2 _ (List.mem_singleton_self _) _ (List.mem_singleton_self _)
  have hm := hold_less (ha.toAdmissible.env hc) (v := 0.2) (by norm_num [calmEnv]) k2 k3 k4 d1 r1
  have hsc : p1.snow.snowcover = true := by rw [← hm.snowcover]; exact r2
  obtain ⟨⟨_, w1⟩, _⟩ := C26_retention_step stormCfg (calmCfg_tiled _ _ _ _ _) ha _ hadm _ m h1 _ (List.mem_singleton_self _) _ (List.mem_singleton_self _) hsc
  have hlc : 0 < p1.snow.layer_count := by
    have hz := hm.z_s_0
    rw [r6] at hz
    unfold Snow.layer_count
    rw [← hz]
    norm_num
  have w2 := C53_capacity_step stormCfg ha.toAdmissible.max_active _ _ m h1 _ (List.mem_singleton_self _) _ (List.mem_singleton_self _) hlc
  refine ⟨_, m, q1, _, h1, hc2, d1, r1, ?_, r3, hm⟩
  have hz := hm.z_s
  have hh := hm.h2o
  have hms := hm.m_s
  dsimp only at w1 w2 ⊢
  rw [r5] at hz
  rw [r3, r4] at hh
  rw [r3, r7] at hms
  have w3 : stormCfg.max_h2o = 0.01 := rfl
  rw [← hz, w3] at w2
  have hd : p1.snow.m_s - p1.snow.h2o = 100 := by linarith
  rw [hd] at w2
  unfold RHO_W0 RHO_ICE at w2
  norm_num at w2
  linarith

end

end Pysnobal
