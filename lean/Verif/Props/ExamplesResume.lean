import Verif.Props.Resume
import Verif.Props.Surplus
import Verif.Props.ExamplesNanBare
import Verif.Props.ExamplesNanGap
import Verif.Props.ExamplesMelt

/-! # Cases that meet the hypotheses of C84 -/

namespace Pysnobal

noncomputable section

/-- 100 kg/m² of snow fall on bare ground. -/
theorem fall_run : ∃ x m, RunTrace bareCfg [fallRec, quietRec] [[x]] m ∧ x.pre.snow.layer_count = 0 ∧ x.post.snow.m_s = 100 := by
  have hg : bareCfg.Tiled := calmCfg_tiled _ _ _ _ _
  have hmax : 0 < bareCfg.max_active := by norm_num [bareCfg, calmCfg, defaultSteps]
  have hc : mkEnv bareCfg = .ok (calmEnv 0.01) := calmCfg_env _ _ _ _ _
  obtain ⟨s0, hs0, f1, f2, f3, _⟩ := start_bare hmax (.inr (by norm_num [bareCfg, calmCfg, defaultSteps])) hc
  have g1 : fallRec.toInput.precip_now = true := calm_now (by norm_num)
  have g3' : fallRec.toInput.m_snow = 100 := by show (100:ℝ) * 1 = 100; norm_num
  have g4 : fallRec.toInput.z_snow = 1 / 6 :=
    (if_pos (c := 0 < (100:ℝ) ∧ 0 < (100:ℝ) * 1) (by norm_num)).trans (by norm_num [fallRec, calmRec])
  have g6 : fallRec.toInput.h2o_sat_snow = 1 :=
    if_pos (c := 0 < (100:ℝ) ∧ 0 < (100:ℝ) * 1 ∧ (0 < (100:ℝ) - 100 * 1 ∨ FREEZE ≤ FREEZE)) (by norm_num)
  have ho : (calmEnv 0.01).OK := by constructor <;> norm_num [calmEnv, RHO_W0, RHO_ICE]
  have hap : applied (deltaRec fallRec.toInput quietRec.toInput 1).toInput fallRec.toInput = fallRec.toInput := calm_update _
  obtain ⟨t, ht⟩ : ∃ t, init_snow (calmEnv 0.01) (freshSnow fallRec.toInput { s0 with h2o_total := 0, snowcover := false, E := 0, en := Energy.zero }) = .ok t := by
    apply init_snow_total
    show 1 - fallRec.toInput.h2o_sat_snow * 0.01 * RHO_W0 / RHO_ICE ≠ 0
    rw [g6]; norm_num [RHO_W0, RHO_ICE]
  have hst := snowfall_step (c := calmEnv 0.01) (dt := 3600) (p := ⟨s0, fallRec.toInput, none, none⟩)
    ho.max_z f1 hap g1 (by rw [g3']; norm_num) ht
  obtain ⟨ls, m, w1, rfl⟩ := first_trace (g := bareCfg) hg hc hs0
    (r1 := fallRec) (r2 := quietRec) (rs := []) (calmRec_new (by norm_num))
    (calmRec_new (by norm_num)) (bare_below _ f1) (by
        have : ((bareCfg.norm_time_step * 60 : ℤ) : ℝ) = 3600 := by norm_num [bareCfg, calmCfg, defaultSteps]
        rw [this]; exact hst) (P := fun ls _ => ls = []) (fun ts m1 _ _ _ _ => ⟨[], m1, .nil _ _, rfl⟩)
  refine ⟨_, m, w1, f1, ?_⟩
  rcases init_snow_out ho.max_z ht with hh | hh
  · obtain ⟨_, _, d, _, _, e, _⟩ := hh
    show t.m_s = 100
    rw [e]
    show (600:ℝ) * fallRec.toInput.z_snow = 100
    rw [g4]; norm_num
  · exfalso
    have h1 := hh.1
    change (600:ℝ) * fallRec.toInput.z_snow ≤ 1 ∨ fallRec.toInput.z_snow ≤ 0 at h1
    rw [g4] at h1
    norm_num at h1

theorem bareCfg_ok : bareCfg.Tiled ∧ bareCfg.AdmissibleStart ∧ 0 < bareCfg.max_active ∧ 0 ≤ bareCfg.init_z_s := by
  refine ⟨calmCfg_tiled _ _ _ _ _, ⟨⟨?_, ?_, ?_, ?_⟩, ?_, ?_, ?_⟩, ?_, ?_⟩ <;>
    norm_num [bareCfg, calmCfg, defaultSteps, RHO_W0, RHO_ICE]

/-- A run has at least one record as soon as it has a run step. -/
theorem trace_some {g : Config} (hg : g.Tiled) {rows : List Rec} {x : RStep Phys} {l : List (RStep Phys)}
    {ls : List (List (RStep Phys))} {m : Model} (h : RunTrace g rows ((x :: l) :: ls) m) : ∃ r, m.output_list.getLast? = some r := by
  obtain ⟨c, ts, i1, m0, q, rs, rfl, e1, e2, e3, e4, e5⟩ := h
  unfold mkModel at e4
  obtain ⟨s, _, e4⟩ := bind_eq_ok.mp e4
  simp only [pure_ok, Except.ok.injEq] at e4
  obtain ⟨_, k | ⟨o, r, a, ho, _⟩⟩ := dataSteps_last (parse_tile hg e1) e5 (by rw [← e4])
  · obtain ⟨rfl, _⟩ := k
    cases e5
  · exact ⟨r, by rw [ho]; simp⟩

/-- C84: snow falls on bare ground; resuming from the record after the snowfall gives, for any further input rows, the
same exception or the same records as going on. -/
example (ys : List Rec) : ∃ m r, simulate bareCfg [fallRec, quietRec] = .ok m ∧ m.output_list.getLast? = some r ∧
    r.Resumable bareCfg ∧ r.m_s = 100 ∧ 0 < r.layer_count ∧
    (∀ e, simulate bareCfg (fallRec :: quietRec :: ys) = .error e ↔ simulate (bareCfg.resume r) (quietRec :: ys) = .error e) ∧
    ∀ out, (∃ a, simulate bareCfg (fallRec :: quietRec :: ys) = .ok a ∧ a.output_list = m.output_list ++ out) ↔
      ∃ b, simulate (bareCfg.resume r) (quietRec :: ys) = .ok b ∧ b.output_list = out := by
  obtain ⟨hg, ha, hmax, hz⟩ := bareCfg_ok
  obtain ⟨x, m, h, h1, h2⟩ := fall_run
  obtain ⟨r, hr⟩ := trace_some hg h
  have hb : ∀ l ∈ [[x]], ∀ y ∈ l, y.pre.snow.layer_count = 0 := by
    intro l hl y hy
    rw [List.mem_singleton.mp hl] at hy
    rw [List.mem_singleton.mp hy]
    exact h1
  have hres := C84_fresh_resumable bareCfg hg ha hz _ (by
    intro r hr
    rcases List.mem_cons.mp hr with rfl | hr
    · exact fun _ => ⟨by norm_num [fallRec, calmRec], by norm_num [fallRec, calmRec], fun _ => by norm_num [fallRec, calmRec, RHO_ICE, FREEZE]⟩
    · rw [List.mem_singleton.mp hr]
      exact fun h => absurd h (lt_irrefl _)) _ m h hb r hr
  obtain ⟨_, ⟨a, hs⟩, l, hl, y, hy, e⟩ := trace_last hg h hr
  rw [List.mem_singleton.mp hl] at hy
  rw [List.mem_singleton.mp hy] at e
  have hm : r.m_s = 100 := by rw [(snapshot_snow hs).2.2.2.2.2.2.2.1, ← e, h2]
  refine ⟨m, r, h.simulate, hr, hres, hm, ?_, C84_resumed_run bareCfg hg hmax [fallRec] quietRec _ m h hb r hr hres ys⟩
  rcases Nat.eq_zero_or_pos r.layer_count with h0 | h0
  · exfalso
    have := (C15_snow_free_records bareCfg hmax _ m h.simulate r (List.mem_of_getLast? hr) h0).1
    rw [hm] at this
    norm_num at this
  · exact h0

/-- C84: 100 kg/m² of ripe snow, a storm, and calm rows of any number.  The last record can be resumed from, the pack is
restored, and with the first guesses of the old object the new one has the same future. -/
example (n : ℕ) : ∃ m r m', simulate stormCfg (stormRec :: quietRec :: List.replicate n quietRec) = .ok m ∧
    m.output_list.getLast? = some r ∧ r.Resumable stormCfg ∧ 102 < r.m_s ∧ r.cc_s_0 = coldAt r.t_s_0 r.m_s_0 ∧
    mkModel (stormCfg.resume r) (calmEnv 0.01) quietRec.toInput = .ok m' ∧ m'.phys.snow.Restored r ∧
    ∃ ts, parse_time_steps stormCfg = .ok ts ∧
      m.SameFuture (calmEnv 0.01) ts false { m' with phys := { m'.phys with init_ustar := m.phys.init_ustar, init_factor := m.phys.init_factor } } := by
  obtain ⟨hg, ha, hmax, _⟩ := stormCfg_ok
  obtain ⟨x, ls, m, h, _⟩ := storm_run n
  obtain ⟨m1, e1, hm, hm2, hm3⟩ := storm_end n
  have hsim := h.simulate
  rw [hsim] at e1
  cases e1
  obtain ⟨r, hr⟩ := trace_some hg h
  obtain ⟨_, ⟨a, hs⟩, _⟩ := trace_last hg h hr
  obtain ⟨e1, e2, e3, e4, e5, e6, e7, e8, e9, e10, e11, e12, e13, e14, e15, e16, e17, e18, _⟩ := snapshot_snow hs
  have hlc : r.layer_count = 1 := by rw [e15]; exact hm.lc
  have hw := C26_retention_records stormCfg hg ha _ (fun r hr => (storm_rows n r hr).1) m hsim r (List.mem_of_getLast? hr)
    (by rw [hlc]; norm_num)
  have hres : r.Resumable stormCfg := by
    refine ⟨fun h => ?_, fun _ => ?_, fun _ => ?_, fun _ hh => ?_⟩
    · rw [hlc] at h; cases h
    · have e : stormCfg.small_threshold = 1 := by norm_num [stormCfg, calmCfg, defaultSteps]
      rw [e, e8]
      linarith
    · rw [hlc]
      constructor
      · intro h; cases h
      · rintro ⟨h, _⟩
        have e : stormCfg.max_active = 0.25 := by norm_num [stormCfg, calmCfg, defaultSteps]
        rw [e, e11] at h
        linarith
    · have e : stormCfg.max_h2o = 0.01 := by norm_num [stormCfg, calmCfg, defaultSteps]
      rw [e] at hh
      have := hw.2.2.2.1
      norm_num [RHO_ICE, RHO_W0] at hh
      linarith
  have hcold : r.cc_s_0 = coldAt r.t_s_0 r.m_s_0 := by
    rw [e5, e2, hm.cc0, hm.t0]
    exact (if_neg (lt_irrefl _)).symm
  have hc : mkEnv stormCfg = .ok (calmEnv 0.01) := calmCfg_env _ _ _ _ _
  obtain ⟨ts, hts⟩ : ∃ ts, parse_time_steps stormCfg = .ok ts := parse_of_ne (by decide) (by decide)
  obtain ⟨m', k1, _, _, _, k2, _⟩ := C84_resumed_pack stormCfg hg hmax _ m hsim r hr hres _ hc quietRec.toInput
  refine ⟨m, r, m', hsim, hr, hres, by rw [e8]; exact hm2, hcold, k1, k2, ts, hts, ?_⟩
  exact C84_resumed_future stormCfg hg hmax _ m hsim r hr hres (fun _ => hcold) (fun h => by rw [hlc] at h; cases h) _ hc ts hts false _ m' k1

/-- C84: a cold pack warms in mild air without reaching freezing or melting: `C84_cold_content` applies to the step. -/
example : ∃ x y m, RunTrace coldCfg [mildRec, mildRec, mildRec] [[x], [y]] m ∧ x.post.snow.snowcover = true ∧
    x.post.snow.layer_count = 1 ∧ x.post.snow.t_s_0 ≤ FREEZE ∧ 0 < x.post.snow.m_s_0 ∧
    (coldAt x.post.snow.t_s_0 x.post.snow.m_s_0 < x.post.snow.cc_s_0 ↔
        x.pre.snow.t_s_0 < x.post.snow.t_s_0 ∧ x.post.snow.t_s_0 < FREEZE) := by
  obtain ⟨x, y, m, h, h1, h2, h3, h4⟩ := mild_run
  have hz0 : 0 < x.post.snow.z_s_0 := by
    rw [h4]; exact (h2.inv.lc_pos_iff (by norm_num [calmEnv])).mp (by rw [h2.lc]; norm_num)
  have hm : 0 < x.post.snow.m_s_0 := by
    rw [h4] at hz0 ⊢
    have hi := h2.inv
    obtain ⟨p1, p2, p3⟩ := hi.pack hz0
    have hz := hi.z_pos hz0
    have hr : 0 < y.pre.snow.rho := by
      by_contra hn
      have := h2.m_s
      rw [p1] at this
      nlinarith
    rw [p2]
    positivity
  have hl : x.post.snow.layer_count = 1 := by rw [h4]; exact h2.lc
  have ht : x.post.snow.t_s_0 ≤ FREEZE := by rw [h4]; exact h2.thaw.surf.2
  exact ⟨x, y, m, h, h3, hl, ht, hm, (C84_cold_content coldCfg (by norm_num [coldCfg, calmCfg, defaultSteps]) _ _ m h [x] (by simp) x (by simp)
    h3 (.inl hl) ht hm).2⟩

end

end Pysnobal
