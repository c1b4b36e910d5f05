import Verif.Props.GroundDrop
import Verif.Props.ExamplesMelt

/-! # Examples for C86: 100 kg/m² of ripe snow on freezing and on thawed ground -/

namespace Pysnobal

noncomputable section

open Filter Topology

theorem storm_init : ∃ s0, init_snow (calmEnv 0.01) (recordSnow stormCfg) = .ok s0 ∧
      RipeSnow s0 ∧ s0.rho = 600 ∧ s0.m_s = 100 ∧ s0.z_s_0 = 1 / 6 ∧ s0.h2o = 0 ∧ s0.t_s_l = T_NONE ∧ Inv (calmEnv 0.01) s0 := by
  have hinit := init_calm (thr := 60) (vol := 0.01) (z := 1 / 6) (rho := 600) (sat := 0) (d := 600)
    (by norm_num) (by norm_num) (by norm_num) (by norm_num) (by norm_num)
  refine ⟨_, hinit, ⟨?_, rfl, rfl, ?_, ?_, rfl, rfl, rfl, rfl, rfl, rfl, rfl⟩, rfl, ?_, rfl, ?_, rfl, ⟨?_, ?_, ?_, ?_, ?_, ?_, ?_⟩⟩
  · norm_num
  · norm_num
  · norm_num
  · norm_num
  · norm_num
  · simp [Snow.zero]
  · simp [Snow.zero]
  · simp [Snow.zero]
  · intro _; exact ⟨rfl, rfl, rfl⟩
  · intro h; norm_num at h
  · intro _; norm_num [Snow.zero]
  · intro h; cases h

/-- Ground a little warmer than freezing, from which a pack at the freezing point gets some heat, but less than 1 W/m². -/
theorem mild_ground {s : Snow} (hs : RipeSnow s) : ∃ t e, FREEZE < t ∧ t ≤ BOIL ∧ sati t = .ok e ∧ e < SEA_LEVEL ∧
    ∀ i : InputData, i.t_g = t → ∃ G, g_soil (calmEnv 0.01) i true s = .ok G ∧ 0 < G ∧ G < 1 := by
  have hP : (1100:ℝ) < SEA_LEVEL := by norm_num [SEA_LEVEL]
  have hw : satwV FREEZE < 640 := satw_freeze_lt _ (satw_pos_eq freeze_pos)
  obtain ⟨ks, hks, ks0⟩ := efcon_prog (kts_pos hs.rho) freeze_pos boil_gt.le (by norm_num : (0:ℝ) < 610.71) (by linarith : (610.71:ℝ) < SEA_LEVEL)
  have cv : ContinuousAt lh_vap FREEZE := by unfold lh_vap; fun_prop
  have hw0 : ∀ t, 0 < satwV t := by intro t; unfold satwV; positivity
  have c1 : 0 < condG SEA_LEVEL (lh_vap FREEZE) FREEZE (satwV FREEZE) := by
    have lv : lh_vap FREEZE = 2500000 := by unfold lh_vap; norm_num
    unfold condG
    have := freeze_pos
    have := molh2o_pos
    have := molair_pos
    have := hw0 FREEZE
    have : 0 < SEA_LEVEL - satwV FREEZE := by linarith
    have : (0:ℝ) < KT_MOISTSAND := by norm_num [KT_MOISTSAND]
    have : (0:ℝ) < SEA_LEVEL := by linarith
    rw [lv]; positivity
  have hz0 := hs.z0
  have k1 := (heatG_cont (P := SEA_LEVEL) (ks := ks) (T := FREEZE) (d := s.z_s_0) (z := 0.5) cv satwV_cont (by linarith) (by positivity)).eventually_lt_const
    (show heatG ks (condG SEA_LEVEL (lh_vap FREEZE) FREEZE (satwV FREEZE)) FREEZE FREEZE s.z_s_0 0.5 < 1 by unfold heatG; norm_num)
  have k3 := satwV_cont.eventually_lt_const (show satwV FREEZE < SEA_LEVEL by linarith)
  obtain ⟨ε, he, hball⟩ := Metric.eventually_nhds_iff.mp (k1.and k3)
  obtain ⟨t, ht1, ht2⟩ : ∃ t, FREEZE < t ∧ t < FREEZE + min ε 49 := exists_between (by have := lt_min he (by norm_num : (0:ℝ) < 49); linarith)
  have m1 := min_le_left ε 49
  have m2 := min_le_right ε 49
  obtain ⟨b1, b2⟩ := hball (y := t) (by rw [Real.dist_eq, abs_lt]; constructor <;> linarith)
  have hb : t ≤ BOIL := by
    unfold FREEZE at ht2
    norm_num [BOIL]; linarith
  have s2 : sati t = .ok (satwV t) := by rw [sati_warm_eq ht1]; exact satw_pos_eq (freeze_pos.trans ht1)
  refine ⟨t, satwV t, ht1, hb, s2, b2, fun i hi => ?_⟩
  have G := g_soil_heatG (c := calmEnv 0.01) (i := i) (b := true) (s := s) (T := FREEZE) (d := s.z_s_0) (es := 610.71) (ks := ks) (e := satwV t)
    (by simp [hs.t0]) (by simp) (le_refl _) sati_freeze hks ks0 hz0 (by norm_num [calmEnv]) (by rw [hi]; exact freeze_pos.trans ht1) (by rw [hi]; exact hb)
    (by rw [hi]; exact s2) b2
  refine ⟨_, G, ?_, ?_⟩
  · rcases g_soil_sign (c := calmEnv 0.01) (i := i) (s := s) (b := true) ⟨by norm_num [calmEnv], by show (610.71:ℝ) < SEA_LEVEL; linarith, by rw [hi]; exact freeze_pos.trans ht1,
      by rw [hi, s2]; intro e he; cases he; exact b2⟩ (by norm_num [calmEnv]) (by rw [hi]; exact hb) hs.rho (by simpa using hz0) (by simp [hs.t0]) G with ⟨q, _⟩
    exact q.mpr (by rw [hi]; simpa [hs.t0] using ht1)
  · have d2 : diffLat t = lh_vap t := by unfold diffLat; rw [if_pos ht1]
    rw [hi, d2]
    exact b1

/-- The quiet hour on other ground. -/
theorem ground_hour {s : Snow} (hs : RipeSnow s) (hi : Inv (calmEnv 0.01) s) (hm : s.m_s = 100) (hh : s.h2o = 0) (hl : s.t_s_l = T_NONE) {t e : ℝ} (h1 : FREEZE ≤ t)
    (hb : t ≤ BOIL) (he : sati t = .ok e) (heP : e < SEA_LEVEL)
    (hG : ∀ i : InputData, i.t_g = t → ∃ G, g_soil (calmEnv 0.01) i true s = .ok G ∧ 0 ≤ G ∧ G < 1) (dl : InputData) :
    ∃ p', stepPhys (calmEnv 0.01) 3600 dl ⟨s, quietRec.toInput.ground t, none, none⟩ = .ok p' := by
  have hap : ∀ dl, applied dl quietRec.toInput = quietRec.toInput := by
    intro dl
    unfold applied
    rw [if_neg]
    simp [quietRec, calmRec, Rec.toInput]
  have hcalm := energy_calm (vol := 0.01) (dt := 3600) (p := stepStart dl ⟨s, quietRec.toInput, none, none⟩)
    ⟨hs.z0, hs.zl, hs.z, hs.z_le, hs.rho, hs.t0, hs.t, hs.cc0, hs.ccl, hs.m, hs.m0, hs.ml⟩
    (by show CalmInput (applied dl quietRec.toInput); rw [hap]; exact calmRec_calm _ _ _ _) (.inl ⟨rfl, rfl⟩)
    (by show advec (applied dl quietRec.toInput) _ _ = _; rw [hap]; unfold advec; rw [if_neg]; simp [quietRec, calmRec, Rec.toInput])
  have hl0 : 0 < (stepStart dl ⟨s, quietRec.toInput, none, none⟩).snow.layer_count := by show 0 < s.layer_count; rw [hs.lc]; norm_num
  have hturb : ∃ r, h_le (calmEnv 0.01) (stepStart dl ⟨s, quietRec.toInput, none, none⟩) = .ok r := by
    rcases energy_balance_ok hcalm with ⟨_, r, p1, _, _, _, h1, _⟩ | ⟨h0, _⟩
    · exact ⟨_, h1⟩
    · omega
  have hstart : stepStart dl ⟨s, quietRec.toInput.ground t, none, none⟩ =
      { stepStart dl ⟨s, quietRec.toInput, none, none⟩ with input1 := (stepStart dl ⟨s, quietRec.toInput, none, none⟩).input1.ground t } := by
    unfold stepStart
    dsimp only
    rw [applied_ground]
  have fr : s.Frozen := ⟨by rw [hs.t0]; exact ⟨freeze_pos, le_refl _⟩, by rw [hs.t]; exact ⟨freeze_pos, le_refl _⟩, by rw [hl]; exact t_none_ok⟩
  have hsoil : SoilOK (calmEnv 0.01) (quietRec.toInput.ground t) :=
    ⟨by norm_num [calmEnv], by show (610.71:ℝ) < SEA_LEVEL; norm_num [SEA_LEVEL], freeze_pos.trans_le h1, by
      show ∀ e, sati t = .ok e → _
      rw [he]; intro e' he'; cases he'; exact heP⟩
  have hE : EnergyStart (calmEnv 0.01) (applied dl (quietRec.toInput.ground t)) s := by
    rw [applied_ground, hap]
    exact ⟨hi, hsoil, by norm_num [calmEnv], hb, fun _ => by rw [hm]; norm_num, fun _ => fr⟩
  refine C52_step_completes (calmEnv 0.01) calmEnv_ok (by norm_num [calmEnv]) 3600 (by norm_num) dl ⟨s, quietRec.toInput.ground t, none, none⟩ hE
    (by show 0 ≤ s.h2o; rw [hh]) (by show s.cc_s_l ≤ 0; rw [hs.ccl]) (fun h => ?_) (fun _ => ?_) (fun _ p1 k1 T hT v hv => ?_)
  · exfalso
    rw [applied_ground, hap] at h
    simp [quietRec, calmRec, Rec.toInput, InputData.ground] at h
  · rw [hstart, h_le_ground]
    obtain ⟨r, hr⟩ := hturb
    rw [hr]
    exact ⟨_, rfl⟩
  · rw [hstart] at k1
    obtain ⟨hin, e', hsn, hcase⟩ := energy_balance_ground hcalm k1
    rcases hcase with ⟨h0, _⟩ | ⟨_, htg, g1, g2, r1, r2, r3, r4, r5, r6, r7⟩
    · omega
    have hlc : (stepStart dl ⟨s, quietRec.toInput, none, none⟩).snow.layer_count = 1 := hs.lc
    rw [hlc] at g2
    have hin' : p1.input1 = quietRec.toInput.ground t := by
      rw [hin]; show (applied dl quietRec.toInput).ground t = _; rw [hap]
    obtain ⟨G, q1, q2, q3⟩ := hG (quietRec.toInput.ground t) rfl
    have hGe : G = e'.G := by
      have g2' : g_soil (calmEnv 0.01) (quietRec.toInput.ground t) true s = .ok e'.G := by
        have := hin.symm.trans hin'
        have g3 : g_soil (calmEnv 0.01) (quietRec.toInput.ground t) true (stepStart dl ⟨s, quietRec.toInput, none, none⟩).snow = .ok e'.G := by
          rw [← this]; exact g2
        exact g3
      rw [q1] at g2'
      exact Except.ok.inj g2'
    rw [if_pos hlc] at r5 r6
    have hnet : net_radiation (stepStart dl ⟨s, quietRec.toInput, none, none⟩).input1 (stepStart dl ⟨s, quietRec.toInput, none, none⟩).snow = 0 := by
      show net_radiation (applied dl quietRec.toInput) _ = 0
      rw [hap]
      exact (calmRec_net 0 0 (1 / 2) 300 (s := (stepStart dl ⟨s, quietRec.toInput, none, none⟩).snow) hs.t0 quietRec.toInput).1
    have dq : p1.snow.en.delta_Q_0 = G ∧ p1.snow.en.G - p1.snow.en.G_0 = 0 := by
      rw [hsn]
      show e'.delta_Q_0 = G ∧ e'.G - e'.G_0 = 0
      rw [r6, r5, hGe]
      dsimp only
      rw [hnet]
      constructor <;> ring
    have hE0 : p1.snow.E = 0 := by rw [hsn]; rfl
    have hcc : p1.snow.cc_s_0 = 0 := by rw [hsn]; exact hs.cc0
    have hnp : p1.input1.precip_now = false := by rw [hin']; simp [quietRec, calmRec, Rec.toInput, InputData.ground]
    have hT' : 0 < T ∧ T ≤ FREEZE := by
      simp only [soilTemps, List.mem_cons, List.not_mem_nil, or_false] at hT
      rcases hT with e | e | e | e <;> rw [e]
      · exact fr.surf
      · exact fr.mean
      · exact fr.lower
      · exact t_none_ok
    rw [hin'] at hv
    have hn := soilExchange_nonneg hsoil (by norm_num [calmEnv]) (by norm_num) hT'.1 hT'.2 (hT'.2.trans h1) hb hv
    rw [max_eq_left (by linarith : -v ≤ 0), hE0, hnp]
    unfold meltCap
    rw [dq.1, dq.2, hcc, lf_eq]
    have : Snow.ice s = 100 := by unfold Snow.ice; rw [hm, hh]; norm_num
    show _ < s.ice + _
    rw [this, zero_mul, neg_zero, max_self, max_eq_right (by positivity : (0:ℝ) ≤ G * 3600 + 0)]
    norm_num
    linarith

/-- C86: a quiet hour over freezing ground and over slightly warmer ground; the runs differ only in the last record, the one over warmer
ground shows more heat from the ground. -/
example : ∃ t m m' out o o', FREEZE < t ∧ simulate stormCfg [quietRec, quietRec] = .ok m ∧
    simulate stormCfg [{ quietRec with t_g := t }, quietRec] = .ok m' ∧
    m.output_list = out ++ [o] ∧ m'.output_list = out ++ [o'] ∧ WarmerGroundRecord 3600 1 (m.phys.snow.snowcover = true ∧ m'.phys.snow.snowcover = true) o o' ∧
    o.G_bar = 0 ∧ 0 < o'.G_bar := by
  obtain ⟨hg, ha, hmax, _, _⟩ := stormCfg_ok
  obtain ⟨s0, hs0, f1, f2, f3, f4, f5, f6, f7⟩ := storm_init
  obtain ⟨t, e, t1, t2, t3, t4, t5⟩ := mild_ground f1
  have hc : mkEnv stormCfg = .ok (calmEnv 0.01) := calmCfg_env _ _ _ _ _
  have hthr : s0.NoThinLayer stormCfg.norm_threshold := by
    refine ⟨fun _ => ?_, fun h => ?_⟩
    · rw [f3]; norm_num [stormCfg, calmCfg, defaultSteps]
    · rw [f1.lc] at h; norm_num at h
  have hdt : ((stormCfg.norm_time_step * 60 : ℤ) : ℝ) = 3600 := by norm_num [stormCfg, calmCfg, defaultSteps]
  have nq : ∀ t, InputData.new { quietRec with t_g := t } = .ok (quietRec.toInput.ground t) := fun t => by
    rw [new_eq, if_neg]
    · rfl
    · rintro ⟨h, _⟩
      exact absurd h (by norm_num [quietRec, calmRec])
  have hG0 : ∀ i : InputData, i.t_g = FREEZE → ∃ G, g_soil (calmEnv 0.01) i true s0 = .ok G ∧ 0 ≤ G ∧ G < 1 := by
    intro i hi
    have hso := calm_soil 0.01 hi
    obtain ⟨G, hG⟩ := g_soil_prog hso (by norm_num [calmEnv]) (by rw [hi]; exact boil_gt.le) ⟨by rw [f1.t0]; exact ⟨freeze_pos, le_refl _⟩, by rw [f1.t]; exact ⟨freeze_pos, le_refl _⟩, by rw [f6]; exact t_none_ok⟩ f1.rho (b := true) (by simpa using f1.z0)
    have hs := g_soil_sign hso (by norm_num [calmEnv]) (by rw [hi]; exact boil_gt.le) f1.rho (b := true) (by simpa using f1.z0) (by simp [f1.t0]) hG
    simp only [if_true, f1.t0, hi, lt_irrefl, iff_false, not_lt] at hs
    exact ⟨G, hG, hs.2, by linarith [hs.1]⟩
  have run : ∀ t e, FREEZE ≤ t → t ≤ BOIL → sati t = .ok e → e < SEA_LEVEL →
      (∀ i : InputData, i.t_g = t → ∃ G, g_soil (calmEnv 0.01) i true s0 = .ok G ∧ 0 ≤ G ∧ G < 1) →
      ∃ x m, RunTrace stormCfg [{ quietRec with t_g := t }, quietRec] [[x]] m ∧ x.pre.snow = s0 ∧ x.post.input1.t_g = t ∧
        g_soil (calmEnv 0.01) x.post.input1 true s0 = .ok x.post.snow.en.G ∧ ∃ z, m.output_list = [recordOf x.post.snow z] := by
    intro t e a1 a2 a3 a4 a5
    obtain ⟨p1, d1⟩ := ground_hour f1 f7 f3 f5 f6 a1 a2 a3 a4 a5 (deltaRec (quietRec.toInput.ground t) quietRec.toInput 1).toInput
    obtain ⟨ls, m, h1, h2⟩ := first_trace hg hc hs0 (nq t) (nq FREEZE) (rs := []) (below_of_noThin hthr) (p' := p1) (by rw [hdt]; exact d1)
      (P := fun ls m => ls = [] ∧ ∃ t, m.output_list = [recordOf p1.snow t])
      (fun ts m1 _ e1 _ e2 => ⟨[], m1, .nil _ _, rfl, _, e2⟩)
    obtain ⟨rfl, h3⟩ := h2
    refine ⟨_, m, h1, rfl, ?_, ?_, h3⟩
    · obtain ⟨b0, b1, b2, b3, b4, b5, b6, k⟩ := step_chain calmEnv_ok.max_z (p := ⟨s0, quietRec.toInput.ground t, none, none⟩) f7 d1
      show p1.input1.t_g = t
      rw [k.input, applied_ground]
      rfl
    · rcases stepPhys_energy d1 with ⟨hlp, r, q1, G, G0, M, k1, k2, kM, k4, k5⟩ | ⟨h0, _⟩
      · show g_soil _ p1.input1 true s0 = .ok p1.snow.en.G
        unfold heat_transfer at k2
        rw [if_pos (show s0.layer_count = 1 from f1.lc)] at k2
        obtain ⟨y, hy, k2⟩ := bind_eq_ok.mp k2
        simp only [pure_ok, Except.ok.injEq, Prod.mk.injEq] at k2
        rw [k5, ← k2.1]
        exact hy
      · have h0 : s0.layer_count = 0 := h0
        rw [f1.lc] at h0
        norm_num at h0
  obtain ⟨x, m, x1, x2, x3, x4, z, x5⟩ := run FREEZE 610.71 (le_refl _) boil_gt.le sati_freeze (by norm_num [SEA_LEVEL]) hG0
  obtain ⟨x', m', x1', x2', x3', x4', z', x5'⟩ := run t e t1.le t2 t3 t4 (fun i hi => by
    obtain ⟨G, a, b, c⟩ := t5 i hi
    exact ⟨G, a, b.le, c⟩)
  have hq : simulate stormCfg ([] ++ [quietRec, quietRec]) = .ok m := x1.simulate
  obtain ⟨c, ts, ia, ib, m1, ls, l, q1, q2, q3, q4, q5, q6, q7, q8⟩ := simulate_last hq
  have hm1 : m1.phys.snow = s0 := by
    obtain ⟨_, _, c', m0, _, _, e3, e4, e5⟩ := simulate_ok (r := quietRec) (rs := []) q5
    simp only [runSteps, Except.ok.injEq] at e5
    rw [hc] at e3; cases e3
    have := (mkModel_ok e4).2.2.2.1
    rw [hs0] at this
    rw [← e5]
    exact (Except.ok.inj this).symm
  obtain ⟨out, o, o', k1, k2, k3⟩ := C86_warmer_ground_record stormCfg hg ha (by norm_num [stormCfg, calmCfg, defaultSteps]) [] quietRec quietRec quietRec t
    (by
      intro r hr
      simp only [List.nil_append, List.mem_cons, List.not_mem_nil, or_false, or_self] at hr
      subst hr
      exact fun h => absurd h (lt_irrefl _)) _ hc (.inl rfl) m1 q5 (by rw [hm1]; exact hthr)
    (fun _ => by
      rw [hm1]
      have hb : s0.baseTemp = FREEZE := by unfold Snow.baseTemp; rw [if_pos f1.lc, f1.t0]
      refine ⟨by rw [f3]; norm_num, by rw [hb], ⟨by show (610.71:ℝ) < SEA_LEVEL; norm_num [SEA_LEVEL], freeze_pos, t2, ?_⟩, ?_⟩
      · rw [t3]; intro e' he'; cases he'; exact t4
      · rw [hb]
        exact ⟨t1.le, t1.le, .inr (.inr (.inl (le_refl FREEZE)))⟩) m m' hq x1'.simulate
  have single : ∀ {z z' : OutRec}, [z'] = out ++ [z] → z = z' := by
    intro z z' e
    have := congrArg List.getLast? e
    simp at this
    exact this.symm
  refine ⟨t, m, m', out, o, o', t1, hq, x1'.simulate, k1, k2, ?_, ?_, ?_⟩
  · rw [hm1, f1.lc] at k3
    have : ((stormCfg.norm_time_step : ℝ) * 60 : ℝ) = 3600 := by have h := hdt; push_cast at h; exact h
    rw [← this]; exact k3
  · rw [single (x5.symm.trans k1)]
    show x.post.snow.en.G = 0
    have hs := g_soil_sign (calm_soil 0.01 x3) (by norm_num [calmEnv]) (by rw [x3]; exact boil_gt.le) f1.rho (b := true) (by simpa using f1.z0) (by simp [f1.t0]) x4
    simp only [if_true, f1.t0, x3, lt_irrefl, iff_false, not_lt] at hs
    exact le_antisymm hs.1 hs.2
  · rw [single (x5'.symm.trans k2)]
    show 0 < x'.post.snow.en.G
    obtain ⟨G, a, b, _⟩ := t5 _ x3'
    rw [x4'] at a
    cases a
    exact b

/-- C86: 100 kg/m² of snow at 270 K meets the conditions of the drop, and its energy balance can be computed on both sides of the freezing
point: the drop occurs. -/
example : ∃ (p : Phys) (t t' : ℝ) (q q' : Phys), p.snow.layer_count > 0 ∧ p.snow.m_s = 100 ∧ p.snow.baseTemp = 270 ∧ t < 273.16 ∧ 273.16 < t' ∧
    energy_balance (calmEnv 0.01) 3600 { p with input1 := { p.input1 with t_g := t } } = .ok q ∧
    energy_balance (calmEnv 0.01) 3600 { p with input1 := { p.input1 with t_g := t' } } = .ok q' ∧
    q'.snow.en.delta_Q < q.snow.en.delta_Q := by
  obtain ⟨s, hs⟩ : ∃ s : Snow, s = { stormPack with t_s_0 := 270, t_s := 270, snowcover := false } := ⟨_, rfl⟩
  obtain ⟨p, hp⟩ : ∃ p : Phys, p = ⟨s, mildRec.toInput, none, none⟩ := ⟨_, rfl⟩
  have hps : p.snow = s := by rw [hp]
  have hlc : p.snow.layer_count = 1 := by rw [hps, hs]; simp [Snow.layer_count, stormPack, Snow.zero]
  have hms : p.snow.m_s = 100 := by rw [hps, hs]; rfl
  have hinv : Inv (calmEnv 0.01) p.snow := by
    rw [hps, hs]
    refine ⟨?_, ?_, ?_, ?_, ?_, ?_, ?_⟩
    · simp [stormPack, Snow.zero]
    · simp [stormPack, Snow.zero]
    · simp [stormPack, Snow.zero]
    · simp [stormPack, Snow.zero]
    · intro h; norm_num [stormPack, Snow.zero] at h
    · intro _; norm_num [stormPack, Snow.zero]
    · intro h; cases h
  have hb : p.snow.baseTemp = 270 := by unfold Snow.baseTemp; rw [if_pos hlc, hps, hs]
  have hP : (1100:ℝ) < (calmEnv 0.01).P_a := by show (1100:ℝ) < SEA_LEVEL; norm_num [SEA_LEVEL]
  obtain ⟨ε, he, hd⟩ := C86_freezing_point_drop (calmEnv 0.01) 3600 p hP (by norm_num [calmEnv]) calmEnv_ok.max_z hinv (by rw [hlc]; norm_num)
    (by rw [hms]; norm_num) (by rw [hb]; norm_num) (by rw [hb]; norm_num)
  have k3 := satwV_cont.eventually_lt_const (show satwV FREEZE < SEA_LEVEL by
    have := satw_freeze_lt _ (satw_pos_eq freeze_pos)
    have h2 : satwV FREEZE < 640 := this
    exact h2.trans (by norm_num [SEA_LEVEL]))
  obtain ⟨η, hη, hball⟩ := Metric.eventually_nhds_iff.mp k3
  obtain ⟨δ, hδ, d1, d2, d3⟩ : ∃ δ > 0, δ < ε ∧ δ < η ∧ δ < 50 := by
    obtain ⟨δ, a, b⟩ := exists_between (lt_min he (lt_min hη (by norm_num : (0:ℝ) < 50)))
    exact ⟨δ, a, b.trans_le (min_le_left _ _), b.trans_le ((min_le_right _ _).trans (min_le_left _ _)), b.trans_le ((min_le_right _ _).trans (min_le_right _ _))⟩
  have turb : ∃ r, h_le (calmEnv 0.01) p = .ok r := by
    obtain ⟨r, q, k, _⟩ := mild_air (p := p) (by rw [hps, hs]; norm_num [stormPack]) (by rw [hps, hs]; norm_num [stormPack])
      (by rw [hps, hs]; norm_num [FREEZE]) (by rw [hps, hs]; norm_num [FREEZE]) (by rw [hp]; rfl) (by rw [hp]; rfl) (by rw [hp]; rfl) (by rw [hp]; exact .inl ⟨rfl, rfl⟩)
    exact ⟨_, k⟩
  have comp : ∀ t, 0 < t → t ≤ BOIL → (∀ e, sati t = .ok e → e < SEA_LEVEL) →
      ∃ q, energy_balance (calmEnv 0.01) 3600 { p with input1 := p.input1.ground t } = .ok q := by
    intro t t0 t1 hv
    refine (C52_energy_balance_completes (calmEnv 0.01) calmEnv_ok 3600 (by norm_num) { p with input1 := p.input1.ground t }
      ⟨hinv, ⟨by norm_num [calmEnv], by linarith, t0, hv⟩, by norm_num [calmEnv], t1, fun _ => by show 0 < p.snow.m_s; rw [hms]; norm_num, fun _ => ?_⟩
      (by show 0 < p.snow.layer_count; rw [hlc]; norm_num)).mpr ?_
    · show p.snow.Frozen
      rw [hps, hs]
      exact ⟨by norm_num [FREEZE], by norm_num [FREEZE], t_none_ok⟩
    · obtain ⟨r, hr⟩ := turb
      rw [h_le_ground, hr]
      exact ⟨_, rfl⟩
  obtain ⟨q, hq⟩ := comp (273.16 - δ) (by linarith) (by norm_num [BOIL]; linarith) (fun e h => by
    have := sati_le_freeze (by norm_num [FREEZE]; linarith) h
    exact lt_of_le_of_lt this (by norm_num [SEA_LEVEL]))
  obtain ⟨q', hq'⟩ := comp (273.16 + δ) (by linarith) (by norm_num [BOIL]; linarith) (fun e h => by
    have hF : FREEZE < 273.16 + δ := by unfold FREEZE; linarith
    rw [sati_warm_eq hF, satw_pos_eq (freeze_pos.trans hF)] at h
    cases h
    exact hball (y := 273.16 + δ) (by rw [Real.dist_eq]; unfold FREEZE; rw [add_sub_cancel_left, abs_of_pos hδ]; exact d2))
  refine ⟨p, 273.16 - δ, 273.16 + δ, q, q', by rw [hlc]; norm_num, hms, hb, by linarith, by linarith, hq, hq', ?_⟩
  exact (hd (273.16 - δ) (273.16 + δ) (by linarith) (by linarith) (by linarith) (by linarith) q q' hq hq').2.1

end

end Pysnobal
