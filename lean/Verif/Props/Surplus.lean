import Verif.Lemmas.WitnessRich
import Verif.Props.Bare

/-! # C21, C22, C23: where the water books do not close

The refuted parts of these properties, each by a completed simulation with admissible data, next to the
general law that explains it. -/

namespace Pysnobal

noncomputable section

/-! ## C21 -/

/-- C21, the surplus: when snow falls on bare ground, pack and runoff together hold the precipitation of
the run step plus the water retained in the new pack, which is counted twice.  If the snowfall is not
heavier than the small threshold all precipitation runs off. -/
theorem C21_snowfall_on_bare_ground (g : Config) (hg : g.Tiled) (ha : g.AdmissibleStart) (rows : List Rec)
    (hr : ∀ r ∈ rows, r.Admissible) (ls : List (List (RStep Phys))) (m : Model)
    (h : RunTrace g rows ls m) : ∀ l ∈ ls, ∀ x ∈ l, x.pre.snow.layer_count = 0 →
      x.post.input1.precip_now = true → 0 < x.post.input1.m_snow →
      x.post.snow.m_s + x.post.snow.swi = x.pre.snow.m_s + x.precip + x.post.snow.E_s + x.post.snow.h2o ∧
      x.post.snow.melt = 0 ∧ x.post.snow.E_s = 0 ∧
      (g.small_threshold < x.post.input1.m_snow → x.post.snow.m_s = x.post.input1.m_snow ∧
        x.post.snow.swi = x.post.input1.m_rain + x.post.snow.h2o ∧ 0 < x.post.snow.layer_count ∧
        x.post.snow.h2o = x.post.input1.h2o_sat_snow * x.post.snow.h2o_max) ∧
      (x.post.input1.m_snow ≤ g.small_threshold → x.post.snow.m_s = 0 ∧ x.post.snow.layer_count = 0 ∧
        x.post.snow.h2o = 0 ∧ x.post.snow.swi = x.post.input1.m_snow + x.post.input1.m_rain) := by
  obtain ⟨c, ts, hc, hts, ho, ht, hx⟩ := trace_closed hg ha hr h
  have hst : c.small_threshold = g.small_threshold := (mkEnv_ok hc).2.1
  intro l hl x hxl h0 hn hs
  obtain ⟨d, ⟨h1, h1'⟩, ⟨h2, _⟩, hf, h3, _⟩ := hx l hl x hxl
  obtain ⟨s0, s1, s2, s3, s4, s5, s6, k⟩ := step_chain ho.max_z h1 h3
  have sf := hf hn
  have hm0 : x.pre.snow.m_s = 0 := (h1.bare ((h1.lc_zero_iff ho.max_z).mp h0)).1
  have f0 : s0.snowcover = false := by rw [k.start]; simp [h0]
  have e1 : s1 = s0 := by
    have := k.tc
    unfold time_compact at this
    rw [if_pos (.inl f0)] at this
    exact (Except.ok.inj this).symm
  have tot : s0.h2o_total = 0 := by rw [k.start]
  rcases precip_event_ok k.pe with ⟨q, _⟩ | ⟨_, q, _⟩ | ⟨_, q, _, t, ht', e⟩ | ⟨_, _, q, _⟩
  · rw [hn] at q; cases q
  · rw [e1, f0] at q; cases q
  · have hp : x.precip = x.post.input1.m_snow + x.post.input1.m_rain := by
      unfold RStep.precip; rw [if_pos hn]; exact sf.m_pp
    have hz : x.post.input1.rho_snow * x.post.input1.z_snow = x.post.input1.m_snow := by
      rw [mul_comm]; exact sf.depth
    have htot : (freshSnow x.post.input1 s1).h2o_total = 0 := by rw [e1]; exact tot
    have f2 : s2.snowcover = false := by
      rw [e]
      show t.snowcover = false
      rcases init_snow_out ho.max_z ht' with hh | hh
      · obtain ⟨_, _, _, _, _, _, _, _, _, _, _, _, _, _, _, _, _, _, _, _, _, _, _, w⟩ := hh
        rw [w]; exact q
      · obtain ⟨_, _, _, _, _, _, _, _, _, _, _, _, _, _, _, _, _, w⟩ := hh
        rw [w]; exact q
    have hd := k.dead2 f2
    rcases init_snow_out ho.max_z ht' with hh | hh
    · obtain ⟨a1, a2, dd, _, _, a3, _, _, a4, a5, a6, _, _, a7, _⟩ := hh
      have a1' : g.small_threshold < x.post.input1.m_snow := by
        rw [← hst, ← hz]; exact a1
      have a3' : t.m_s = x.post.input1.m_snow := by rw [a3]; exact hz
      have hpost : x.post.snow = { t with melt := 0, E_s := 0, h2o_total := t.h2o_total + (t.h2o + x.post.input1.m_rain), swi := t.h2o_total + (t.h2o + x.post.input1.m_rain) } := by
        rw [hd, e]
      have b1 : x.post.snow.m_s = x.post.input1.m_snow := by rw [hpost]; exact a3'
      have b2 : x.post.snow.swi = x.post.input1.m_rain + x.post.snow.h2o := by
        rw [hpost]
        show t.h2o_total + (t.h2o + x.post.input1.m_rain) = x.post.input1.m_rain + t.h2o
        rw [a7, htot]; ring
      have b3 : x.post.snow.E_s = 0 := by rw [hpost]
      refine ⟨?_, by rw [hpost], b3, fun _ => ⟨b1, b2, ?_, ?_⟩, fun hh => absurd a1' (not_lt.mpr hh)⟩
      · rw [b1, b2, b3, hm0, hp]; ring
      · by_contra hcn
        have hz0 : 0 < x.post.snow.z_s_0 := by rw [hpost]; exact a4
        have := (h2.lc_zero_iff ho.max_z).mp (by omega)
        linarith
      · rw [hpost]; exact a6
    · obtain ⟨a1, a2, _, a3, a4, a5, a6, _⟩ := hh
      have hpost : x.post.snow = { t with melt := 0, E_s := 0, h2o_total := t.h2o_total + (t.h2o + x.post.input1.m_rain), swi := t.h2o_total + (t.h2o + x.post.input1.m_rain) } := by
        rw [hd, e]
      have a1' : x.post.input1.m_snow ≤ g.small_threshold := by
        rcases a1 with a1 | a1
        · rw [← hst, ← hz]; exact a1
        · exfalso
          have hd' := (sf.dens hs).1
          have : x.post.input1.rho_snow * x.post.input1.z_snow ≤ 0 := mul_nonpos_of_nonneg_of_nonpos hd'.le a1
          linarith
      have b1 : x.post.snow.m_s = 0 := by rw [hpost]; exact a2
      have b4 : x.post.snow.h2o = 0 := by rw [hpost]; exact a3
      have b2 : x.post.snow.swi = x.post.input1.m_snow + x.post.input1.m_rain := by
        rw [hpost]
        show t.h2o_total + (t.h2o + x.post.input1.m_rain) = _
        rw [a6, htot, a3]
        show 0 + max (x.post.input1.rho_snow * x.post.input1.z_snow) 0 + _ = _
        rw [hz, max_eq_left hs.le]; ring
      have b3 : x.post.snow.E_s = 0 := by rw [hpost]
      refine ⟨?_, by rw [hpost], b3, fun hh => absurd hh (not_lt.mpr a1'), fun _ => ⟨b1, ?_, b4, b2⟩⟩
      · rw [b1, b2, b3, hm0, hp, b4]; ring
      · exact (h2.lc_zero_iff ho.max_z).mpr (by rw [hpost]; exact a4)
  · exact absurd hs q

theorem init_snow_total (c : Env) (s : Snow) (h : 1 - s.h2o_sat * c.max_h2o_vol * RHO_W0 / RHO_ICE ≠ 0) :
    ∃ t, init_snow c s = .ok t := by
  unfold init_snow initLayers
  split
  · exact ⟨_, rfl⟩
  · obtain ⟨z, a, b, hfr⟩ := calc_shape c { s with m_s := s.rho * s.z_s }
    unfold initWater Snow.dry_snow_density
    have e : (initCold (Snow.calc_layers c { s with m_s := s.rho * s.z_s })).h2o_sat = s.h2o_sat := by
      rw [hfr]; rfl
    dsimp only
    rw [e, pdiv_of_ne h]
    exact ⟨_, rfl⟩

/-- Snowfall on bare ground, computed. -/
theorem snowfall_step {c : Env} (hmax : 0 < c.max_z_s_0) {dt : ℝ} {dl i : InputData} {p : Phys}
    (h0 : p.snow.layer_count = 0) (hi : applied dl p.input1 = i) (hn : i.precip_now = true) (hs : 0 < i.m_snow)
    {t : Snow} (ht : init_snow c (freshSnow i { p.snow with h2o_total := 0, snowcover := false, E := 0, en := Energy.zero }) = .ok t) :
    stepPhys c dt dl p = .ok { p with
      input1 := i
      snow := { t with melt := 0, E_s := 0, h2o_total := t.h2o_total + (t.h2o + i.m_rain)
                       swi := t.h2o_total + (t.h2o + i.m_rain) } } := by
  have hf : t.snowcover = false := by
    rcases init_snow_out hmax ht with hh | hh
    · obtain ⟨_, _, _, _, _, _, _, _, _, _, _, _, _, _, _, _, _, _, _, _, _, _, _, w⟩ := hh
      rw [w]; rfl
    · obtain ⟨_, _, _, _, _, _, _, _, _, _, _, _, _, _, _, _, _, w⟩ := hh
      rw [w]; rfl
  unfold stepPhys
  have ha : (if p.input1.precip_now then { p with input1 := p.input1.update_precip_deltas dl } else p) =
      { p with input1 := i } := by
    rw [← hi]
    unfold applied
    split <;> rfl
  rw [ha]
  have hl : Snow.layer_count { p.snow with h2o_total := 0 } = 0 := h0
  have hl' : Snow.layer_count { p.snow with h2o_total := 0, snowcover := false } = 0 := h0
  simp only [hl, gt_iff_lt, lt_irrefl, decide_false]
  unfold energy_balance
  simp only [hl', gt_iff_lt, lt_irrefl, if_false, bind_ok]
  unfold mass_balance
  have hpe : precip_event c i { p.snow with h2o_total := 0, snowcover := false, E := 0, en := Energy.zero } =
      .ok { t with h2o_total := t.h2o_total + (t.h2o + i.m_rain) } := by
    unfold precip_event
    rw [if_pos hn, if_neg (by simp), if_pos hs]
    unfold freshSnow at ht
    dsimp only at ht ⊢
    rw [ht]; rfl
  have htc : time_compact c dt { p.snow with h2o_total := 0, snowcover := false, E := 0, en := Energy.zero } =
      .ok { p.snow with h2o_total := 0, snowcover := false, E := 0, en := Energy.zero } := by
    unfold time_compact
    rw [if_pos (.inl rfl)]
  simp only [htc, hpe, bind_ok]
  simp [snowmelt, evap_cond, h2o_compact, runoff, hf]

/-- C21 fails: there is a completed simulation with admissible data with a run step after which pack and
runoff hold more water than there was (10 kg/m² of snow at the freezing point on bare ground). -/
theorem C21_conservation_fails : ∃ g rows ls m, g.Tiled ∧ g.AdmissibleStart ∧ (∀ r ∈ rows, r.Admissible) ∧
    RunTrace g rows ls m ∧ ∃ l ∈ ls, ∃ x ∈ l, x.pre.snow.layer_count = 0 ∧
      x.precip = 10 ∧ x.post.snow.E_s = 0 ∧ x.post.snow.m_s = 10 ∧ 0.2 < x.post.snow.swi := by
  have hc := calmCfg_env 60 0.01 0 0 0
  obtain ⟨s0, hs0, f1, f2, f3, _⟩ := start_bare (g := calmCfg 60 0.01 0 0 0)
    (by norm_num [calmCfg, defaultSteps]) (.inr (le_refl _)) hc
  have g1 : (calmRec 0 10 1 300).toInput.precip_now = true := calm_now (by norm_num)
  have g3 : (calmRec 0 10 1 300).toInput.m_rain = 0 := by show (10:ℝ) - 10 * 1 = 0; norm_num
  have g3' : (calmRec 0 10 1 300).toInput.m_snow = 10 := by show (10:ℝ) * 1 = 10; norm_num
  have g4 : (calmRec 0 10 1 300).toInput.z_snow = 1 / 30 :=
    (if_pos (c := 0 < (10:ℝ) ∧ 0 < (10:ℝ) * 1) (by norm_num)).trans (by norm_num [calmRec])
  have g5 : (calmRec 0 10 1 300).toInput.rho_snow = 300 := rfl
  have g6 : (calmRec 0 10 1 300).toInput.h2o_sat_snow = 1 :=
    if_pos (c := 0 < (10:ℝ) ∧ 0 < (10:ℝ) * 1 ∧ (0 < (10:ℝ) - 10 * 1 ∨ FREEZE ≤ FREEZE)) (by norm_num)
  have ho : (calmEnv 0.01).OK := by constructor <;> norm_num [calmEnv, RHO_W0, RHO_ICE]
  have hap : applied (deltaRec (calmRec 0 10 1 300).toInput quietRec.toInput 1).toInput
      (calmRec 0 10 1 300).toInput = (calmRec 0 10 1 300).toInput := calm_update _
  obtain ⟨t, ht⟩ : ∃ t, init_snow (calmEnv 0.01) (freshSnow (calmRec 0 10 1 300).toInput
      { s0 with h2o_total := 0, snowcover := false, E := 0, en := Energy.zero }) = .ok t := by
    apply init_snow_total
    show 1 - (calmRec 0 10 1 300).toInput.h2o_sat_snow * 0.01 * RHO_W0 / RHO_ICE ≠ 0
    rw [g6]; norm_num [RHO_W0, RHO_ICE]
  have hst := snowfall_step (c := calmEnv 0.01) (dt := 3600) (p := ⟨s0, (calmRec 0 10 1 300).toInput, none, none⟩)
    ho.max_z f1 hap g1 (by rw [g3']; norm_num) ht
  have ha : (calmCfg 60 0.01 0 0 0).AdmissibleStart := by
    refine ⟨⟨?_, ?_, ?_, ?_⟩, ?_, ?_, ?_⟩ <;> norm_num [calmCfg, defaultSteps, RHO_W0, RHO_ICE]
  have hadm : ∀ r ∈ [calmRec 0 10 1 300, quietRec], r.Admissible := by
    intro r hr
    rcases List.mem_cons.mp hr with rfl | hr
    · exact fun _ => ⟨by norm_num [calmRec], by norm_num [calmRec], fun _ => by norm_num [calmRec, RHO_ICE, FREEZE]⟩
    · rw [List.mem_singleton.mp hr]
      exact fun h => absurd h (lt_irrefl _)
  obtain ⟨ls, m, w1, _⟩ := first_trace (g := calmCfg 60 0.01 0 0 0) (calmCfg_tiled _ _ _ _ _) hc hs0
    (r1 := calmRec 0 10 1 300) (r2 := quietRec) (rs := []) (calmRec_new (by norm_num))
    (calmRec_new (by norm_num)) (bare_below _ f1) (by
        have : (((calmCfg 60 0.01 0 0 0).norm_time_step * 60 : ℤ) : ℝ) = 3600 := by norm_num [calmCfg, defaultSteps]
        rw [this]; exact hst) (P := fun _ _ => True) (fun ts m1 _ _ _ _ => ⟨[], m1, .nil _ _, trivial⟩)
  refine ⟨_, _, _, _, calmCfg_tiled _ _ _ _ _, ha, hadm, w1, _, List.mem_cons_self, _, List.mem_singleton_self _, f1, ?_, ?_, ?_, ?_⟩
  · show (if (calmRec 0 10 1 300).toInput.precip_now then (10:ℝ) else 0) = 10
    rw [if_pos g1]
  · rfl
  · rcases init_snow_out ho.max_z ht with hh | hh
    · obtain ⟨_, _, d, _, _, e, _⟩ := hh
      show t.m_s = 10
      rw [e]
      show (300:ℝ) * (calmRec 0 10 1 300).toInput.z_snow = 10
      rw [g4]; norm_num
    · exfalso
      have h1 := hh.1
      change (300:ℝ) * (calmRec 0 10 1 300).toInput.z_snow ≤ 1 ∨ (calmRec 0 10 1 300).toInput.z_snow ≤ 0 at h1
      rw [g4] at h1
      norm_num at h1
  · show 0.2 < t.h2o_total + (t.h2o + (calmRec 0 10 1 300).toInput.m_rain)
    rcases init_snow_out ho.max_z ht with hh | hh
    · obtain ⟨_, _, d, _, e2, _, _, _, _, e3, e4, _, _, e5, _⟩ := hh
      change d = (300 - (calmRec 0 10 1 300).toInput.h2o_sat_snow * 0.01 * RHO_W0) /
        (1 - (calmRec 0 10 1 300).toInput.h2o_sat_snow * 0.01 * RHO_W0 / RHO_ICE) at e2
      change t.h2o_max = h2o_left (calmRec 0 10 1 300).toInput.z_snow d 0.01 at e3
      change t.h2o = (calmRec 0 10 1 300).toInput.h2o_sat_snow * t.h2o_max at e4
      change t.h2o_total = 0 at e5
      rw [g6] at e2 e4
      rw [g4] at e3
      rw [e5, g3, e4, e3, e2]
      norm_num [h2o_left, RHO_W0, RHO_ICE]
    · exfalso
      have h1 := hh.1
      change (300:ℝ) * (calmRec 0 10 1 300).toInput.z_snow ≤ 1 ∨ (calmRec 0 10 1 300).toInput.z_snow ≤ 0 at h1
      rw [g4] at h1
      norm_num at h1

/-! ## C22 -/

/-- A dry calm hour over a ripe dense pack without liquid water that melts `μ`. -/
theorem melt_step {vol S μ cap ps r : ℝ} {i2 : InputData} {s0 : Snow} (f1 : RipeSnow s0) (f2 : s0.rho = 600)
    (f5 : s0.h2o = 0) (hμ : S * 3600 = 333600 * μ) (hp : 1e-8 < μ) (hlt : μ < s0.m_s) (hm : 1 < s0.m_s)
    (hm' : s0.m_s ≤ 150) (hcap : cap = h2o_left (s0.m_s / 600) ((s0.m_s - μ) / (s0.m_s / 600)) vol)
    (hgt : cap < μ) (hne : s0.m_s - (μ - cap) ≠ 0) :
    ∃ p', stepPhys (calmEnv vol) 3600 (deltaRec (calmRec S 0 ps r).toInput i2 1).toInput
        ⟨s0, (calmRec S 0 ps r).toInput, none, none⟩ = .ok p' ∧ p'.init_ustar = some 0 ∧
      p'.init_factor = some 0 ∧
      p'.input1 = (calmRec S 0 ps r).toInput ∧
      p'.snow = { radiated S s0 with
        melt := μ, h2o_total := μ, z_s := s0.m_s / 600, z_s_0 := s0.m_s / 600, E_s := 0, h2o_max := cap
        swi := μ - cap, h2o := cap, h2o_sat := 1, h2o_vol := vol, m_s := s0.m_s - (μ - cap)
        rho := (s0.m_s - (μ - cap)) / (s0.m_s / 600), m_s_0 := s0.m_s - (μ - cap) } := by
  have hr0 : RipeSnow { radiated S s0 with h2o_total := 0 } :=
    ⟨f1.z0, f1.zl, f1.z, f1.z_le, f1.rho, f1.t0, f1.t, f1.cc0, f1.ccl, f1.m, f1.m0, f1.ml⟩
  have hpe : precip_event (calmEnv vol) (calmRec S 0 ps r).toInput (radiated S s0) =
      .ok { radiated S s0 with h2o_total := 0 } := by
    unfold precip_event
    rw [if_neg (by rw [calm_not_now (lt_irrefl _)]; simp)]
    simp [radiated, f5]
  have haf := afterPrecip_melt (vol := vol) (dt := 3600) (i := (calmRec S 0 ps r).toInput)
    (s := { radiated S s0 with h2o_total := 0 }) hr0 rfl rfl rfl (le_refl _) (μ := μ) hμ hp hlt hm hm'
    (by
      show 600 * (s0.m_s - μ) < s0.m_s * s0.rho
      rw [f2]; linarith) (cap := cap) (by
      show cap = h2o_left (s0.m_s / 600) ((s0.m_s - (0 + μ)) / (s0.m_s / 600)) vol
      rw [zero_add]; exact hcap) (by show cap < 0 + μ; linarith)
    (by show s0.m_s - (0 + μ - cap) ≠ 0; rw [zero_add]; exact hne)
  have hst := stepPhys_calm (vol := vol) (dt := 3600) (dl := (deltaRec (calmRec S 0 ps r).toInput i2 1).toInput)
    (i := (calmRec S 0 ps r).toInput) (p := ⟨s0, (calmRec S 0 ps r).toInput, none, none⟩) f1 (calm_update _)
    (calmRec_calm _ _ _ _) (by show 550 ≤ s0.rho; rw [f2]; norm_num) (calmRec_net _ _ _ _ f1.t0 i2).1
    (.inl ⟨rfl, rfl⟩) (by unfold advec; rw [if_neg (by rw [calm_not_now (lt_irrefl _)]; simp)])
    (by rw [hpe, bind_ok]; exact haf)
  refine ⟨_, hst, rfl, rfl, rfl, ?_⟩
  have ez : (0:ℝ) + μ = μ := zero_add μ
  unfold radiated
  dsimp only
  rw [ez]

/-- Snow falling on a ripe dense pack that stays below the small threshold makes the pack vanish inside
the precipitation event. -/
theorem vanish_step {S m r dt : ℝ} {i2 : InputData} {vol : ℝ} {p : Phys} (hs : RipeSnow p.snow)
    (hr : 550 ≤ p.snow.rho) (ei : p.input1 = (calmRec S m 1 r).toInput) (hm : 0 < m) (hr0 : 0 < r)
    (hle : p.snow.m_s + m ≤ 1) (hst : p.init_ustar = some 0 ∧ p.init_factor = some 0) (hdt : dt ≠ 0) :
    ∃ p', stepPhys (calmEnv vol) dt (deltaRec (calmRec S m 1 r).toInput i2 1).toInput p = .ok p' ∧
      p'.snow.layer_count = 0 ∧ p'.snow.h2o = h2o_left (m / r) r vol := by
  have g1 : (calmRec S m 1 r).toInput.precip_now = true := calm_now hm
  have g3 : (calmRec S m 1 r).toInput.m_rain = 0 := by show m - m * 1 = 0; ring
  have g4 : (calmRec S m 1 r).toInput.z_snow = m / r :=
    (if_pos (c := 0 < m ∧ 0 < m * 1) (by simpa using hm)).trans (by simp [calmRec])
  have g6 : (calmRec S m 1 r).toInput.h2o_sat_snow = 1 :=
    if_pos (c := 0 < m ∧ 0 < m * 1 ∧ (0 < m - m * 1 ∨ FREEZE ≤ FREEZE)) (by simpa using hm)
  have hmax : 0 < (calmEnv vol).max_z_s_0 := by norm_num [calmEnv]
  have hg : Gone (radiated S p.snow) ((radiated S p.snow).m_s + (calmRec S m 1 r).toInput.m_pp)
      (adj_snow (calmEnv vol) (calmRec S m 1 r).toInput.z_snow (calmRec S m 1 r).toInput.m_pp (radiated S p.snow)) := by
    rcases adj_snow_cases hmax (calmRec S m 1 r).toInput.z_snow (calmRec S m 1 r).toInput.m_pp
      (s := radiated S p.snow) hs.z0 with ⟨_, _, h | h⟩ | ⟨h, _⟩
    · exfalso
      have h := h.1
      rw [g4] at h
      exact (div_pos hm hr0).ne' h
    · exfalso
      have h : 1 < p.snow.m_s + m := h
      linarith
    · exact h
  obtain ⟨t, ht⟩ : ∃ t, t = adj_snow (calmEnv vol) (calmRec S m 1 r).toInput.z_snow
      (calmRec S m 1 r).toInput.m_pp (radiated S p.snow) := ⟨_, rfl⟩
  rw [← ht] at hg
  have hpe : precip_event (calmEnv vol) (calmRec S m 1 r).toInput (radiated S p.snow) = .ok
      { t with h2o := t.h2o + h2o_left (m / r) r vol
               h2o_total := t.h2o_total + (t.h2o + h2o_left (m / r) r vol + 0) } := by
    unfold precip_event
    have hcov : (radiated S p.snow).snowcover = true := rfl
    have hv : (calmEnv vol).max_h2o_vol = vol := rfl
    have hrr : (calmRec S m 1 r).toInput.rho_snow = r := rfl
    rw [if_pos g1, if_pos hcov]
    dsimp only
    rw [← ht, g3, g4, g6, one_mul, hv, hrr]
    rfl
  have haf : afterPrecip (calmEnv vol) (calmRec S m 1 r).toInput dt
      { t with h2o := t.h2o + h2o_left (m / r) r vol
               h2o_total := t.h2o_total + (t.h2o + h2o_left (m / r) r vol + 0) } = .ok
      { t with h2o := t.h2o + h2o_left (m / r) r vol
               h2o_total := t.h2o_total + (t.h2o + h2o_left (m / r) r vol + 0), melt := 0, E_s := 0
               swi := t.h2o_total + (t.h2o + h2o_left (m / r) r vol + 0) } := by
    have hf := hg.snowcover
    simp [afterPrecip, snowmelt, evap_cond, h2o_compact, runoff, hf]
  have hst := stepPhys_calm (vol := vol) (dt := dt) (dl := (deltaRec (calmRec S m 1 r).toInput i2 1).toInput)
    (i := (calmRec S m 1 r).toInput) (p := p) hs (by rw [ei]; exact calm_update _) (calmRec_calm _ _ _ _)
    hr (calmRec_net _ _ _ _ hs.t0 i2).1 (.inr hst) (calm_advec (by norm_num) (le_refl _) hdt hs.t0)
    (by rw [hpe, bind_ok]; exact haf)
  refine ⟨_, hst, hg.lc, ?_⟩
  show t.h2o + _ = _
  rw [hg.h2o, zero_add]

/-- C22 fails: there is a configuration with admissible data for which, after a melt hour and an hour with
0.001 kg/m² of wet snow, every one of any number `n` of dry hours over snow-free ground reports the same
positive runoff `w`.  So the reported runoff exceeds every bound although less than 1.02 kg/m² of water
was ever available. -/
theorem C22_runoff_from_nothing : ∃ g w r1 r2 r3, g.Tiled ∧ g.AdmissibleStart ∧ 0 < w ∧
    Rec.Admissible r1 ∧ Rec.Admissible r2 ∧ Rec.Admissible r3 ∧
    g.init_rho * g.init_z_s = 1.01 ∧ r1.m_pp = 0 ∧ r2.m_pp = 0.001 ∧ r3.m_pp = 0 ∧
    ∀ n, ∃ m o1 o2, simulate g (r1 :: r2 :: r3 :: List.replicate n r3) = .ok m ∧
      ∃ out, m.output_list = o1 :: o2 :: out ∧ o2.layer_count = 0 ∧
        out.map (·.swi_sum) = List.replicate n w := by
  obtain ⟨g, hgd⟩ : ∃ g, g = calmCfg 0 0.01 (1.01 / 600) 600 0 := ⟨_, rfl⟩
  have hc : mkEnv g = .ok (calmEnv 0.01) := by rw [hgd]; exact calmCfg_env _ _ _ _ _
  have hg : g.Tiled := by rw [hgd]; exact calmCfg_tiled _ _ _ _ _
  have hinit := init_calm (thr := 0) (vol := 0.01) (z := 1.01 / 600) (rho := 600) (sat := 0) (d := 600)
    (by norm_num) (by norm_num) (by norm_num) (by norm_num) (by norm_num)
  obtain ⟨s0, hs0, f1, f2, f3, f5⟩ : ∃ s0, init_snow (calmEnv 0.01) (recordSnow g) = .ok s0 ∧
      RipeSnow s0 ∧ s0.rho = 600 ∧ s0.m_s = 1.01 ∧ s0.h2o = 0 := by
    rw [hgd]
    refine ⟨_, hinit, ⟨?_, rfl, rfl, ?_, ?_, rfl, rfl, rfl, rfl, rfl, rfl, rfl⟩, rfl, ?_, ?_⟩ <;> norm_num
  obtain ⟨cap, hcap⟩ : ∃ cap, cap = h2o_left (s0.m_s / 600) ((s0.m_s - 0.02) / (s0.m_s / 600)) 0.01 := ⟨_, rfl⟩
  have hcv : 0 < cap ∧ cap < 0.008 := by
    rw [hcap, f3]; unfold h2o_left RHO_W0 RHO_ICE; norm_num
  obtain ⟨p1, k1, k2, k3, k4, k5⟩ := melt_step (vol := 0.01) (S := 139 / 75) (μ := 0.02) (cap := cap) (ps := 1)
    (r := 300) (i2 := (calmRec 0 0.001 1 300).toInput) f1 f2 f5 (by norm_num) (by norm_num) (by rw [f3]; norm_num)
    (by rw [f3]; norm_num) (by rw [f3]; norm_num) hcap (by linarith [hcv.2]) (by rw [f3]; linarith [hcv.1, hcv.2])
  have hrip : RipeSnow p1.snow := by
    have hz0 : (0:ℝ) < s0.m_s / 600 := by rw [f3]; norm_num
    have em : ∀ a : ℝ, a = a / (s0.m_s / 600) * (s0.m_s / 600) := fun a => by field_simp
    rw [k5]
    refine ⟨hz0, f1.zl, rfl, ?_, ?_, f1.t0, f1.t, f1.cc0, f1.ccl, em _, em _, f1.ml⟩
    · show s0.m_s / 600 ≤ 0.25; rw [f3]; norm_num
    · show 0 < (s0.m_s - (0.02 - cap)) / (s0.m_s / 600)
      exact div_pos (by rw [f3]; linarith [hcv.1]) hz0
  have hmv : p1.snow.m_s = 0.99 + cap := by rw [k5]; show s0.m_s - (0.02 - cap) = _; rw [f3]; ring
  have hrv : 550 ≤ p1.snow.rho := by
    rw [k5]
    show 550 ≤ (s0.m_s - (0.02 - cap)) / (s0.m_s / 600)
    rw [f3, le_div_iff₀ (by norm_num)]; linarith [hcv.1]
  refine ⟨g, h2o_left (0.001 / 300) 300 0.01, calmRec (139 / 75) 0 1 300, calmRec 0 0.001 1 300, quietRec, hg, ?_, ?_,
    ?_, ?_, ?_, ?_, rfl, rfl, rfl, fun n => ?_⟩
  · rw [hgd]
    refine ⟨⟨?_, ?_, ?_, ?_⟩, ?_, ?_, ?_⟩ <;> norm_num [calmCfg, defaultSteps, RHO_W0, RHO_ICE]
  · norm_num [h2o_left, RHO_W0, RHO_ICE]
  · exact fun h => absurd h (lt_irrefl _)
  · exact fun _ => ⟨by norm_num [calmRec], by norm_num [calmRec], fun _ => by norm_num [calmRec, RHO_ICE, FREEZE]⟩
  · exact fun h => absurd h (lt_irrefl _)
  · rw [hgd]; norm_num [calmCfg]
  · have e36 : ((g.norm_time_step * 60 : ℤ) : ℝ) = 3600 := by rw [hgd]; norm_num [calmCfg, defaultSteps]
    have hthr : g.norm_threshold = 0 := by rw [hgd]; rfl
    obtain ⟨ls, m, w1, w2⟩ := first_trace (g := g) hg hc hs0
      (r1 := calmRec (139 / 75) 0 1 300) (r2 := calmRec 0 0.001 1 300) (rs := quietRec :: List.replicate n quietRec)
      (calmRec_new (by norm_num)) (calmRec_new (by norm_num)) (by
        unfold below_thold
        rw [if_neg (by rw [f1.lc]; norm_num), if_pos f1.lc, f3, hthr]
        norm_num) (p' := p1) (by rw [e36]; exact k1)
      (P := fun _ m => ∃ o1 o2 out, m.output_list = o1 :: o2 :: out ∧ o2.layer_count = 0 ∧
        out.map (·.swi_sum) = List.replicate n (h2o_left (0.001 / 300) 300 0.01))
      (fun ts m1 q1 q2 q3 q4 => by
        have ht := parse_tile hg q1
        obtain ⟨_, _, e1, _, _⟩ := parse_ok q1
        obtain ⟨p2, v1, v2, v3⟩ := vanish_step (S := 0) (m := 0.001) (r := 300) (dt := 3600)
          (i2 := quietRec.toInput) (vol := 0.01)
          (p := { m1.phys with input1 := (calmRec 0 0.001 1 300).toInput }) (by rw [q2]; exact hrip)
          (by rw [q2]; exact hrv) rfl (by norm_num) (by norm_num)
          (by rw [q2]; show p1.snow.m_s + 0.001 ≤ 1; rw [hmv]; linarith [hcv.2])
          (by rw [q2]; exact ⟨k2, k3⟩) (by norm_num)
        obtain ⟨m2, u1, u2, u3, u4, u5⟩ := executed_normal (c := calmEnv 0.01) (all := g.output_all)
          (i2 := quietRec.toInput) (m := m1) ht (calmRec_new (S := 0) (m := 0.001) (ps := 1) (r := 300) (by norm_num))
          q3 (by
            have hl : m1.phys.snow.layer_count = 1 := by rw [q2]; exact hrip.lc
            have hm1 : m1.phys.snow.m_s = 0.99 + cap := by rw [q2]; exact hmv
            unfold below_thold
            rw [if_neg (by rw [hl]; norm_num), if_pos hl, hm1, e1]
            simp only [hthr, decide_eq_false_iff_not, not_lt]
            linarith [hcv.1]) (p' := p2) (by rw [e1]; show stepPhys _ ((g.norm_time_step * 60 : ℤ) : ℝ) _ _ = _; rw [e36]; exact v1)
        have hl2 : m2.phys.snow.layer_count = 0 := by rw [u4]; exact v2
        have hw2 : m2.phys.snow.h2o = h2o_left (0.001 / 300) 300 0.01 := by rw [u4]; exact v3
        obtain ⟨m3, out, y1, y2, y3⟩ := C22_stored_water_repeats g hg ts q1 (calmEnv 0.01) g.output_all quietRec
          quietRec.toInput (calmRec_new (by norm_num)) (List.replicate n quietRec)
          (by
            intro r hr
            have : r = quietRec := by
              rcases List.mem_cons.mp hr with h | h
              · exact h
              · exact List.eq_of_mem_replicate h
            rw [this]
            exact fun h => absurd h (lt_irrefl _)) m2 u3 hl2
        obtain ⟨ls3, hls3⟩ := runSteps_trace _ _ _ _ y1
        refine ⟨_, m3, .cons (calmRec_new (by norm_num)) u1 u2 hls3, recordOf p1.snow (g.start_date + g.norm_time_step),
          recordOf p2.snow (m1.current_datetime + (ts .normal).timedelta), out, ?_, ?_, ?_⟩
        · rw [y2, u5, q4]; rfl
        · exact v2
        · rw [y3, hw2]
          have : (quietRec :: List.replicate n quietRec).dropLast = List.replicate n quietRec := by
            rw [← List.replicate_succ, List.dropLast_replicate]; rfl
          rw [this, List.map_replicate]
          have e : max quietRec.m_pp 0 = 0 := max_self 0
          rw [e, add_zero])
    obtain ⟨o1, o2, out, w3⟩ := w2
    exact ⟨m, o1, o2, w1.simulate, out, w3⟩

/-! ## C23 -/

theorem adj_layers_depth (c : Env) (s : Snow) : (adj_layers c s).z_s = (s.calc_layers c).z_s := by
  unfold adj_layers
  dsimp only
  split
  · split <;> rfl
  · split
    · rfl
    · split <;> rfl

/-- C23 fails for the depth: there is a completed simulation with admissible data and a record of
snow-free ground with negative depth. -/
theorem C23_depth_can_be_negative : ∃ g rows m, g.Tiled ∧ g.AdmissibleStart ∧ 0 ≤ g.init_z_s ∧
    (∀ r ∈ rows, r.Admissible) ∧ simulate g rows = .ok m ∧
    ∃ o ∈ m.output_list, o.z_s < 0 ∧ o.layer_count = 0 ∧ o.m_s = 0 := by
  obtain ⟨g, hgd⟩ : ∃ g, g = calmCfg 60 0.01 (1 / 6) 600 0 := ⟨_, rfl⟩
  have hc : mkEnv g = .ok (calmEnv 0.01) := by rw [hgd]; exact calmCfg_env _ _ _ _ _
  have hg : g.Tiled := by rw [hgd]; exact calmCfg_tiled _ _ _ _ _
  have hinit := init_calm (thr := 60) (vol := 0.01) (z := 1 / 6) (rho := 600) (sat := 0) (d := 600)
    (by norm_num) (by norm_num) (by norm_num) (by norm_num) (by norm_num)
  obtain ⟨s0, hs0, f1, f2, f3, f5⟩ : ∃ s0, init_snow (calmEnv 0.01) (recordSnow g) = .ok s0 ∧
      RipeSnow s0 ∧ s0.rho = 600 ∧ s0.m_s = 100 ∧ s0.h2o = 0 := by
    rw [hgd]
    refine ⟨_, hinit, ⟨?_, rfl, rfl, ?_, ?_, rfl, rfl, rfl, rfl, rfl, rfl, rfl⟩, rfl, ?_, ?_⟩ <;> norm_num
  have f4 : s0.z_s = 1 / 6 := by
    have h1 := f1.z
    have h2 := f1.m
    rw [f3, f2] at h2
    rw [h1]; linarith
  have hr0 : RipeSnow { radiated 27800 s0 with h2o_total := 0 } :=
    ⟨f1.z0, f1.zl, f1.z, f1.z_le, f1.rho, f1.t0, f1.t, f1.cc0, f1.ccl, f1.m, f1.m0, f1.ml⟩
  have hpe : precip_event (calmEnv 0.01) (calmRec 27800 0 1 300).toInput (radiated 27800 s0) =
      .ok { radiated 27800 s0 with h2o_total := 0 } := by
    unfold precip_event
    rw [if_neg (by rw [calm_not_now (lt_irrefl _)]; simp)]
    simp [radiated, f5]
  have hsm := snowmelt_adj (c := calmEnv 0.01) (dt := 3600) (s := { radiated 27800 s0 with h2o_total := 0 }) hr0 rfl
    (le_refl _) (μ := 300) (by show (27800:ℝ) * 3600 = 333600 * 300; norm_num) (by norm_num)
  obtain ⟨t, ht⟩ : ∃ t, t = adj_snow (calmEnv 0.01) (-1 * 300 / ({ radiated 27800 s0 with h2o_total := 0 } : Snow).rho) 0
      { ({ radiated 27800 s0 with h2o_total := 0 } : Snow) with
        melt := 300, h2o_total := ({ radiated 27800 s0 with h2o_total := 0 } : Snow).h2o_total + 300 } := ⟨_, rfl⟩
  rw [← ht] at hsm
  have hmax : 0 < (calmEnv 0.01).max_z_s_0 := by norm_num [calmEnv]
  have er : ({ radiated 27800 s0 with h2o_total := 0 } : Snow).rho = 600 := f2
  obtain ⟨hlc, hcov, hz, hm⟩ : t.layer_count = 0 ∧ t.snowcover = false ∧ t.z_s < 0 ∧ t.m_s = 0 := by
    rw [er] at ht
    have ea : adjRho (-1 * 300 / 600) 0 { ({ radiated 27800 s0 with h2o_total := 0 } : Snow) with
        melt := 300, h2o_total := ({ radiated 27800 s0 with h2o_total := 0 } : Snow).h2o_total + 300 } = -300 := by
      unfold adjRho
      show (if s0.z_s + -1 * 300 / 600 ≠ 0 then (s0.m_s + 0) / (s0.z_s + -1 * 300 / 600) else 0) = -300
      rw [f3, f4, if_pos (by norm_num)]; norm_num
    rw [adj_snow_move (by rw [ea]; norm_num) (by norm_num), ea] at ht
    rcases adj_layers_cases hmax ({ ({ radiated 27800 s0 with h2o_total := 0 } : Snow) with
        melt := 300, h2o_total := ({ radiated 27800 s0 with h2o_total := 0 } : Snow).h2o_total + 300
        z_s := s0.z_s + -1 * 300 / 600, m_s := s0.m_s + 0, rho := -300 }) with ⟨_, _, h, _⟩ | ⟨h, _⟩
    · exfalso
      have h : 0 < s0.z_s + -1 * 300 / 600 := h
      rw [f4] at h; norm_num at h
    · have ht' := ht
      change t = adj_layers (calmEnv 0.01) { ({ radiated 27800 s0 with h2o_total := 0 } : Snow) with
        melt := 300, h2o_total := ({ radiated 27800 s0 with h2o_total := 0 } : Snow).h2o_total + 300
        z_s := s0.z_s + -1 * 300 / 600, m_s := s0.m_s + 0, rho := -300 } at ht'
      rw [← ht'] at h
      refine ⟨h.lc, h.snowcover, ?_, h.m_s⟩
      have hzz : t.z_s = s0.z_s + -1 * 300 / 600 := by
        rw [ht', adj_layers_depth]
        unfold Snow.calc_layers
        have q1 : ¬ s0.m_s + 0 ≤ (calmEnv 0.01).small_threshold := by
          rw [f3]; show ¬ (100:ℝ) + 0 ≤ 1; norm_num
        have q2 : ¬ s0.z_s + -1 * 300 / 600 - (calmEnv 0.01).max_z_s_0 > 0 := by
          rw [f4]; show ¬ (1:ℝ) / 6 + -1 * 300 / 600 - 0.25 > 0; norm_num
        have q3 : (0:ℝ) * -300 < (calmEnv 0.01).small_threshold := by show (0:ℝ) * -300 < 1; norm_num
        rw [if_neg q1]
        simp only [q2, if_false, q3, if_true, add_zero]
      rw [hzz, f4]; norm_num
  have haf : afterPrecip (calmEnv 0.01) (calmRec 27800 0 1 300).toInput 3600 { radiated 27800 s0 with h2o_total := 0 } =
      .ok { t with E_s := 0, swi := t.h2o_total } := by
    unfold afterPrecip
    rw [hsm, bind_ok]
    simp [evap_cond, h2o_compact, runoff, hcov]
  have hst := stepPhys_calm (vol := 0.01) (dt := 3600)
    (dl := (deltaRec (calmRec 27800 0 1 300).toInput quietRec.toInput 1).toInput)
    (i := (calmRec 27800 0 1 300).toInput) (p := ⟨s0, (calmRec 27800 0 1 300).toInput, none, none⟩) f1 (calm_update _)
    (calmRec_calm _ _ _ _) (by show 550 ≤ s0.rho; rw [f2]; norm_num) (calmRec_net _ _ _ _ f1.t0 quietRec.toInput).1
    (.inl ⟨rfl, rfl⟩) (by unfold advec; rw [if_neg (by rw [calm_not_now (lt_irrefl _)]; simp)])
    (by rw [hpe, bind_ok]; exact haf)
  have e36 : ((g.norm_time_step * 60 : ℤ) : ℝ) = 3600 := by rw [hgd]; norm_num [calmCfg, defaultSteps]
  obtain ⟨ls, m, w1, w2⟩ := first_trace (g := g) hg hc hs0 (r1 := calmRec 27800 0 1 300) (r2 := quietRec) (rs := [])
      (calmRec_new (by norm_num)) (calmRec_new (by norm_num)) (by
        unfold below_thold
        rw [if_neg (by rw [f1.lc]; norm_num), if_pos f1.lc, f3, hgd]
        show decide ((100:ℝ) < 60) = false
        norm_num) (by rw [e36]; exact hst)
      (P := fun _ m => m.output_list = [recordOf { t with E_s := 0, swi := t.h2o_total } (g.start_date + g.norm_time_step)])
      (fun ts m1 _ _ _ h => ⟨[], m1, .nil _ _, h⟩)
  refine ⟨g, _, m, hg, ?_, ?_, ?_, w1.simulate, _, by rw [w2]; exact List.mem_singleton_self _, hz, hlc, hm⟩
  · rw [hgd]
    refine ⟨⟨?_, ?_, ?_, ?_⟩, ?_, ?_, ?_⟩ <;> norm_num [calmCfg, defaultSteps, RHO_W0, RHO_ICE]
  · rw [hgd]; norm_num [calmCfg]
  · intro r hr
    rcases List.mem_cons.mp hr with rfl | hr
    · exact fun h => absurd h (lt_irrefl _)
    · rw [List.mem_singleton.mp hr]
      exact fun h => absurd h (lt_irrefl _)

/-- C23 fails for the mass: there is a completed simulation with admissible data and a record of a pack with
a layer of negative mass (5 kg/m² of snow, 5 kg/m² of wet snowfall, 9.9 kg/m² of melt in one hour: the melt
and the water of the fresh snow together exceed the mass of the pack). -/
theorem C23_mass_can_be_negative : ∃ g rows m, g.Tiled ∧ g.AdmissibleStart ∧ 0 ≤ g.init_z_s ∧
    (∀ r ∈ rows, r.Admissible) ∧ simulate g rows = .ok m ∧
    ∃ o ∈ m.output_list, o.m_s < -0.5 ∧ o.layer_count = 1 ∧ 0 < o.z_s := by
  obtain ⟨g, hgd⟩ : ∃ g, g = calmCfg 0 0.01 (5 / 600) 600 0 := ⟨_, rfl⟩
  have hc : mkEnv g = .ok (calmEnv 0.01) := by rw [hgd]; exact calmCfg_env _ _ _ _ _
  have hg : g.Tiled := by rw [hgd]; exact calmCfg_tiled _ _ _ _ _
  have hinit := init_calm (thr := 0) (vol := 0.01) (z := 5 / 600) (rho := 600) (sat := 0) (d := 600)
    (by norm_num) (by norm_num) (by norm_num) (by norm_num) (by norm_num)
  obtain ⟨s0, hs0, f1, f2, f3, f4, f5⟩ : ∃ s0, init_snow (calmEnv 0.01) (recordSnow g) = .ok s0 ∧
      RipeSnow s0 ∧ s0.rho = 600 ∧ s0.m_s = 5 ∧ s0.z_s_0 = 5 / 600 ∧ s0.h2o = 0 := by
    rw [hgd]
    refine ⟨_, hinit, ⟨?_, rfl, rfl, ?_, ?_, rfl, rfl, rfl, rfl, rfl, rfl, rfl⟩, rfl, ?_, rfl, ?_⟩ <;> norm_num
  obtain ⟨i, hi⟩ : ∃ i, i = (calmRec 917.4 5 1 50).toInput := ⟨_, rfl⟩
  have g1 : i.precip_now = true := by rw [hi]; exact calm_now (by norm_num)
  have g2 : i.m_pp = 5 := by rw [hi]; rfl
  have g3 : i.m_rain = 0 := by rw [hi]; show (5:ℝ) - 5 * 1 = 0; norm_num
  have g4 : i.z_snow = 1 / 10 := by
    rw [hi]
    exact (if_pos (c := 0 < (5:ℝ) ∧ 0 < (5:ℝ) * 1) (by norm_num)).trans (by norm_num [calmRec])
  have g5 : i.rho_snow = 50 := by rw [hi]; rfl
  have g6 : i.h2o_sat_snow = 1 := by
    rw [hi]
    exact if_pos (c := 0 < (5:ℝ) ∧ 0 < (5:ℝ) * 1 ∧ (0 < (5:ℝ) - 5 * 1 ∨ FREEZE ≤ FREEZE)) (by norm_num)
  have hr0 : RipeSnow (radiated 917.4 s0) :=
    ⟨f1.z0, f1.zl, f1.z, f1.z_le, f1.rho, f1.t0, f1.t, f1.cc0, f1.ccl, f1.m, f1.m0, f1.ml⟩
  have hpe := precip_ripe (vol := 0.01) (i := i) (s := radiated 917.4 s0) hr0 rfl g1
    (z' := 13 / 120) (m' := 10) (by show _ = s0.z_s_0 + _; rw [g4, f4]; norm_num)
    (by show _ = s0.m_s + _; rw [g2, f3]; norm_num) (by rw [g4]; norm_num) (by norm_num) (by norm_num)
    (by norm_num) (by norm_num)
  have e0 : (radiated 917.4 s0).h2o = 0 := f5
  have e0' : (radiated 917.4 s0).h2o_total = 0 := rfl
  rw [g4, g5, g6, g3, e0, e0'] at hpe
  simp only [zero_add, one_mul, add_zero] at hpe
  obtain ⟨ω, hω⟩ : ∃ ω, ω = h2o_left (1 / 10) 50 0.01 := ⟨_, rfl⟩
  have hωv : 0.94 < ω ∧ ω < 0.95 := by
    rw [hω]; unfold h2o_left RHO_W0 RHO_ICE; norm_num
  rw [← hω] at hpe
  obtain ⟨cap, hcap⟩ : ∃ cap, cap = h2o_left (10 / 600) ((10 - (ω + 9.9)) / (10 / 600)) 0.01 := ⟨_, rfl⟩
  have hcapv : 0.16 < cap ∧ cap < 0.18 := by
    rw [hcap]; unfold h2o_left RHO_W0 RHO_ICE
    obtain ⟨h1, h2⟩ := hωv
    constructor <;> norm_num <;> linarith
  obtain ⟨s2, hs2⟩ : ∃ s2 : Snow, s2 = { radiated 917.4 s0 with z_s := 13 / 120, m_s := 10, rho := 10 / (13 / 120), z_s_0 := 13 / 120, m_s_0 := 10, h2o := ω, h2o_total := ω } := ⟨_, rfl⟩
  have hpe2 : precip_event (calmEnv 0.01) i (radiated 917.4 s0) = .ok s2 := by rw [hs2]; exact hpe
  have hm2 : s2.m_s = 10 := by rw [hs2]
  have ht2 : s2.h2o_total = ω := by rw [hs2]
  have hr2 : RipeSnow s2 := by
    rw [hs2]
    refine ⟨?_, f1.zl, rfl, ?_, ?_, f1.t0, f1.t, f1.cc0, f1.ccl, ?_, ?_, f1.ml⟩ <;> norm_num
  have haf := afterPrecip_melt (vol := 0.01) (dt := 3600) (i := i) (s := s2) hr2 (by rw [hs2]; rfl) (by rw [hi]; rfl)
    (by rw [hs2]; rfl) (by rw [ht2]; linarith [hωv.1]) (μ := 9.9)
    (by rw [hs2]; show (917.4:ℝ) * 3600 = 333600 * 9.9; norm_num) (by norm_num)
    (by rw [hm2]; norm_num) (by rw [hm2]; norm_num) (by rw [hm2]; norm_num)
    (by rw [hs2]; show (600:ℝ) * (10 - 9.9) < 10 * (10 / (13 / 120)); norm_num) (cap := cap)
    (by rw [hm2, ht2]; exact hcap) (by rw [ht2]; linarith [hωv.1, hcapv.2])
    (by rw [hm2, ht2]; linarith [hωv.1, hωv.2, hcapv.1, hcapv.2])
  have hst := stepPhys_calm (vol := 0.01) (dt := 3600) (R := 917.4)
    (dl := (deltaRec i quietRec.toInput 1).toInput) (i := i) (p := ⟨s0, i, none, none⟩) f1 (by rw [hi]; exact calm_update _) (by rw [hi]; exact calmRec_calm _ _ _ _)
    (by show 550 ≤ s0.rho; rw [f2]; norm_num) (by rw [hi]; exact (calmRec_net _ _ _ _ f1.t0 quietRec.toInput).1)
    (.inl ⟨rfl, rfl⟩) (by rw [hi]; exact calm_advec (by norm_num) (le_refl _) (by norm_num) f1.t0)
    (by rw [hpe2, bind_ok]; exact haf)
  obtain ⟨p', hst', k1, k2, k3⟩ : ∃ p', stepPhys (calmEnv 0.01) 3600 (deltaRec i quietRec.toInput 1).toInput
      ⟨s0, i, none, none⟩ = .ok p' ∧ p'.snow.m_s < -0.5 ∧ p'.snow.layer_count = 1 ∧ 0 < p'.snow.z_s := by
    refine ⟨_, hst, ?_, ?_, ?_⟩
    · show s2.m_s - (s2.h2o_total + 9.9 - cap) < -0.5
      rw [hm2, ht2]; linarith [hωv.1, hcapv.2]
    · unfold Snow.layer_count
      dsimp only
      rw [hr2.zl, hm2]; norm_num
    · show 0 < s2.m_s / 600
      rw [hm2]; norm_num
  have e36 : ((g.norm_time_step * 60 : ℤ) : ℝ) = 3600 := by rw [hgd]; norm_num [calmCfg, defaultSteps]
  obtain ⟨ls, m, w1, w2⟩ := first_trace (g := g) hg hc hs0 (r1 := calmRec 917.4 5 1 50) (r2 := quietRec) (rs := [])
      (i1 := i) (by rw [hi]; exact calmRec_new (by norm_num)) (calmRec_new (by norm_num)) (by
        unfold below_thold
        rw [if_neg (by rw [f1.lc]; norm_num), if_pos f1.lc, f3, hgd]
        show decide ((5:ℝ) < 0) = false
        norm_num) (p' := p') (by rw [e36]; exact hst')
      (P := fun _ m => m.output_list = [recordOf p'.snow (g.start_date + g.norm_time_step)])
      (fun ts m1 _ _ _ h => ⟨[], m1, .nil _ _, h⟩)
  refine ⟨g, _, m, hg, ?_, ?_, ?_, w1.simulate, _, by rw [w2]; exact List.mem_singleton_self _, k1, k2, k3⟩
  · rw [hgd]
    refine ⟨⟨?_, ?_, ?_, ?_⟩, ?_, ?_, ?_⟩ <;> norm_num [calmCfg, defaultSteps, RHO_W0, RHO_ICE]
  · rw [hgd]; norm_num [calmCfg]
  · intro r hr
    rcases List.mem_cons.mp hr with rfl | hr
    · exact fun _ => ⟨by norm_num [calmRec], by norm_num [calmRec], fun _ => by norm_num [calmRec, RHO_ICE, FREEZE]⟩
    · rw [List.mem_singleton.mp hr]
      exact fun h => absurd h (lt_irrefl _)

end

end Pysnobal
