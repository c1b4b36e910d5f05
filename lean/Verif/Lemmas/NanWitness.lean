import Verif.Lemmas.NanHistory
import Verif.Lemmas.WitnessRich

/-! # A run with a blank wind cell that completes -/

namespace Pysnobal

noncomputable section

open Classical

namespace Nan

theorem div_none_ne {y : ℝ} (h : y ≠ 0) : NVal.div none (some y) = .ok none := by
  simp [NVal.div, h]

theorem hleConst_wind (a : HleIn) (x : NVal) (u f : Option NVal) (ea : NVal) :
    hleConst { a with wind_speed := x, init_ustar := u, init_factor := f } ea =
      (hleConst a ea).map fun k => { k with wind_speed := x } := by
  unfold hleConst
  simp only [map_bind, map_pure]
  rfl

/-- The loop when wind and flux guesses are missing: it runs through all its passes. -/
theorem hleLoop_blank {k : HleConst} {lm lh lv : ℝ} (hw : k.wind_speed = none) (h1 : k.ltsm = some lm) (h2 : k.ltsh = some lh)
    (h3 : k.ltsv = some lv) (hm : lm ≠ 0) (hh : lh ≠ 0) (hv : lv ≠ 0) : ∀ (n it : ℕ) (s : HleSt),
    s.ustar = none → s.e = none → s.h = none → s.lo = none →
    ∃ s', hleLoop k n it s = .ok (it + n - 1, s') := by
  intro n
  induction n with
  | zero => exact fun it s _ _ _ _ => ⟨s, rfl⟩
  | succ n ih =>
    intro it s a1 a2 a3 a4
    have hl : hleLo k s = none := by
      unfold hleLo
      rw [a1, a2, a3]
      simp only [n_mul, n_div, ite_self]
    have h0 : ∀ x : ℝ, (some x : NVal) - (0 : NVal) = some x := fun x => by
      rw [zero_s, sub_s, sub_zero]
    have hs : hleStep k s = .ok { lo := none, ustar := none, factor := none, e := none, h := none } := by
      unfold hleStep
      dsimp only
      rw [hl]
      simp only [psiAt_n, bind_ok, hw, mul_n, h1, h2, h3, h0, pdiv, div_none_ne hm, div_none_ne hh, div_none_ne hv, n_mul,
        pure_ok]
    obtain ⟨s', h'⟩ := ih (it + 1) { lo := none, ustar := none, factor := none, e := none, h := none } rfl rfl rfl rfl
    refine ⟨s', ?_⟩
    unfold hleLoop
    rw [hs, bind_ok, a4]
    simp only [hleConverged, Bool.false_eq_true, if_false]
    rw [h', show it + 1 + n - 1 = it + (n + 1) - 1 by omega]

/-- The turbulent fluxes with a blank wind speed on a first step: missing, and no error. -/
theorem hle_blank_wind {a : Pysnobal.HleIn} (v : HleValid a) (hu : a.zu ≠ 5.9 * a.z0) (hq : a.zq ≠ 5.9 * a.z0)
    (ha : a.za ≠ 5.9 * a.z0) (ht : a.air_temp + DALR * a.za ≠ a.surface_temp) :
    ∃ r, hle1 { HleIn.ofReal a with wind_speed := none, init_ustar := none, init_factor := none } = .ok r ∧ r.status = 0 := by
  obtain ⟨w, _, hc⟩ := hleCheck_of v
  obtain ⟨k, hk, hd, _, _⟩ := hleConst_of v hc
  obtain ⟨qa, qs, vt, _, _, _, e1, e2, _, _, _, e3, _, e4, e5, e6, _, _⟩ := hleConst_ok hk
  have hne : ∀ z, 4.9 * a.z0 < z → z ≠ 5.9 * a.z0 →
      Real.log ((z - 2 * PAESCHKE * a.z0 / 3) / a.z0) ≠ 0 := by
    intro z h1 h2
    have p1 := (profileArg_pos v.z0).mpr h1
    have p2 : profileArg z a.z0 ≠ 1 := fun h => h2 ((profileArg_eq_one v.z0).mp h)
    unfold profileArg at p1 p2
    exact Real.log_ne_zero_of_pos_of_ne_one p1 p2
  have hm : k.ltsm ≠ 0 := by rw [e4]; exact hne _ v.zu hu
  have hh : k.ltsh ≠ 0 := by rw [e5]; exact hne _ v.za ha
  have hv : k.ltsv ≠ 0 := by rw [e6]; exact hne _ v.zq hq
  have hc' : hleCheck { HleIn.ofReal a with wind_speed := none, init_ustar := none, init_factor := none } = .ok (some (min a.ea w)) := by
    have := hleCheck_s a
    rw [hc] at this
    exact this
  have hk' : hleConst { HleIn.ofReal a with wind_speed := none, init_ustar := none, init_factor := none } (some (min a.ea w)) =
      .ok { HleConst.ofReal k with wind_speed := none } := by
    rw [hleConst_wind, hleConst_s, hk]
    rfl
  unfold hle1
  rw [hc', bind_ok, hk', bind_ok]
  obtain ⟨s', hl⟩ := hleLoop_blank (k := { HleConst.ofReal k with wind_speed := none }) rfl rfl rfl rfl hm hh hv ITMAX 0
    { lo := none, ustar := none, factor := none, e := none, h := none } rfl rfl rfl rfl
  have hs : hleSolve { HleIn.ofReal a with wind_speed := none, init_ustar := none, init_factor := none }
      { HleConst.ofReal k with wind_speed := none } = .ok (some (ITMAX - 1), s') := by
    unfold hleSolve
    rw [if_neg]
    · dsimp only [HleConst.ofReal]
      simp only [mul_n, n_mul, pdiv, div_none_ne hm, div_none_ne hh, div_none_ne hv, bind_ok]
      refine (congrArg (fun x : Except Err (ℕ × HleSt) => x >>= fun y => pure (some y.1, y.2)) hl).trans ?_
      rw [Nat.zero_add]
      rfl
    · show ¬NVal.eq (some k.air_temp) (some a.surface_temp)
      rw [NVal.eq_some, e1]
      exact ht
  rw [hs, bind_ok]
  refine ⟨_, rfl, ?_⟩
  show (if ITMAX - 1 ≥ ITMAX then (-1 : ℤ) else 0) = 0
  norm_num [ITMAX]

theorem heat_transfer_tg {c : Env} {i j : NInput} (h : i.t_g = j.t_g) (s : Snow) :
    heat_transfer c i s = heat_transfer c j s := by
  unfold heat_transfer g_soil
  rw [h]

theorem soilEvap_congr {c : Env} {i j : NInput} {dt : ℝ} {s t : Snow} (h : i.t_g = j.t_g) (h1 : s.layer_count = t.layer_count)
    (h2 : s.t_s_0 = t.t_s_0) (h3 : s.t_s_l = t.t_s_l) : soilEvap c i dt s = soilEvap c j dt t := by
  unfold soilEvap Snow.e_s_l Snow.e_s_0
  rw [h, h1, h2, h3]

/-- Forcing with the wind blank. -/
def gapInput (i : InputData) : NInput := { i.cells with u := none }

/-- Calm weather with the wind blank over ripe snow: the energy balance completes. -/
theorem energy_blank {vol dt : ℝ} {i : InputData} {s : Pysnobal.Snow} (hs : RipeSnow s) (hc : CalmInput i)
    (hp : i.precip_now = false) :
    ∃ x en y z, energy_balance (calmEnv vol) dt ⟨Snow.ofReal s, gapInput i, none, none⟩ =
      .ok ⟨{ Snow.ofReal s with E := x, en := en }, gapInput i, y, z⟩ := by
  have hzz : s.z_s ≤ 0.25 := by rw [hs.z]; exact hs.z_le
  have hzp : 0 < s.z_s := by rw [hs.z]; exact hs.z0
  have hea := hc.e_a
  obtain ⟨r, hr, hst⟩ := hle_blank_wind (a := ⟨(calmEnv vol).P_a, i.t_a, s.t_s_0, 5 - s.z_s, i.e_a, 610.71, 5 - s.z_s, 0, 5 - s.z_s, (calmEnv vol).z_0, none, none⟩)
    (by
      refine ⟨?_, ?_, ?_, ?_, ?_, ?_, ?_, ?_, ?_, ?_, ?_⟩ <;> dsimp only [calmEnv]
      · norm_num
      · norm_num; linarith
      · norm_num; linarith
      · norm_num; linarith
      · rw [hc.t_a]; norm_num [FREEZE]
      · rw [hs.t0]; norm_num [FREEZE]
      · exact hea.1
      · norm_num
      · refine lt_of_le_of_lt hea.2 ?_
        norm_num [SEA_LEVEL]
      · norm_num [SEA_LEVEL]
      · intro w hw
        have := freeze_sat_le hw hc.t_a
        linarith)
    (by dsimp only [calmEnv]; norm_num; linarith) (by dsimp only [calmEnv]; norm_num; linarith)
    (by dsimp only [calmEnv]; norm_num; linarith)
    (by
      dsimp only
      rw [hc.t_a, hs.t0]
      have : 0 < DALR := by norm_num [DALR, GRAVITY, CP_AIR]
      have h5 : 0 < 5 - s.z_s := by linarith
      have := mul_pos this h5
      linarith)
  have hh : h_le (calmEnv vol) ⟨Snow.ofReal s, gapInput i, none, none⟩ =
      .ok (r, ⟨Snow.ofReal s, gapInput i, some r.ustar, some r.factor⟩) := by
    have e1 : sati (some i.t_a) = .ok (some 610.71) := by rw [sati_s, hc.t_a, sati_freeze]; rfl
    have e2 : (Snow.ofReal s).e_s_0 = .ok (some 610.71) := by
      rw [e_s_0_s]; unfold Pysnobal.Snow.e_s_0; rw [hs.t0, sati_freeze]; rfl
    have hr' : hle1 ⟨some (calmEnv vol).P_a, some i.t_a, some s.t_s_0, some (5 - s.z_s), some i.e_a, some 610.71, some (5 - s.z_s), none, some (5 - s.z_s), some (calmEnv vol).z_0, none, none⟩ = .ok r := hr
    have hif : ¬NVal.lt (some 610.71) (some i.e_a) := by rw [NVal.lt_some]; exact not_lt.mpr hea.2
    have e3 : (Snow.ofReal s).z_s = some s.z_s := rfl
    have e4 : (Snow.ofReal s).t_s_0 = some s.t_s_0 := rfl
    have e5 : (calmEnv vol).relative_hts = false := rfl
    have e6 : (calmEnv vol).z_t = 5 ∧ (calmEnv vol).z_u = 5 := ⟨rfl, rfl⟩
    unfold h_le
    dsimp only [gapInput, InputData.cells]
    rw [e1, bind_ok, e2, bind_ok]
    simp only [hif, e3, e4, e5, e6, Bool.false_eq_true, if_false, sub_s, hr', bind_ok, hst, ne_eq, not_true, if_false]
    rfl
  obtain ⟨G, hG⟩ : ∃ G, heat_transfer (calmEnv vol) (gapInput i) (Snow.ofReal s) = .ok G := by
    rw [heat_transfer_tg (i := gapInput i) (j := i.cells) rfl, heat_transfer_s _ _ i (InputData.cells_reads i)]
    have := energy_calm (vol := vol) (dt := dt) (p := ⟨s, i, none, none⟩) hs hc (.inl ⟨rfl, rfl⟩)
      (by unfold Pysnobal.advec; rw [if_neg (by simp [hp])])
    unfold Pysnobal.energy_balance at this
    rw [if_pos (by show 0 < s.layer_count; rw [hs.lc]; norm_num)] at this
    obtain ⟨⟨r', p'⟩, h1, this⟩ := bind_eq_ok.mp this
    obtain ⟨G, h2, this⟩ := bind_eq_ok.mp this
    have j : p' = ⟨s, i, p'.init_ustar, p'.init_factor⟩ := by
      obtain ⟨M, h3, this⟩ := bind_eq_ok.mp this
      have k := Except.ok.inj this
      have k1 : p'.input1 = i := congrArg Pysnobal.Phys.input1 k
      unfold Pysnobal.h_le at h1
      obtain ⟨_, _, h1⟩ := bind_eq_ok.mp h1
      obtain ⟨_, _, h1⟩ := bind_eq_ok.mp h1
      obtain ⟨_, _, h1⟩ := bind_eq_ok.mp h1
      dsimp only at h1
      split at h1
      · cases h1
      · have k2 := congrArg (fun x : Pysnobal.HleOut × Pysnobal.Phys => x.2.snow) (Except.ok.inj h1)
        have k2' : p'.snow = s := k2.symm
        rw [← k1, ← k2']
    rw [j] at h2
    dsimp only at h2
    rw [h2]
    exact ⟨_, rfl⟩
  unfold energy_balance
  dsimp only
  rw [if_pos (by rw [layer_count_s, hs.lc]; norm_num), hh, bind_ok]
  dsimp only
  rw [hG, bind_ok]
  have hM : advec (gapInput i) dt (Snow.ofReal s) = .ok 0 := by
    unfold advec
    rw [if_neg]
    show ¬i.precip_now = true
    rw [hp]; simp
  rw [hM, bind_ok]
  exact ⟨_, _, _, _, rfl⟩

/-- A step over ripe snow at the density limit with the wind blank completes. -/
theorem mass_blank {vol dt : ℝ} {i : InputData} {s : Pysnobal.Snow} (hs : RipeSnow s) (hc : i.t_g = FREEZE)
    (hp : i.precip_now = false) (hr : RHO_MAX ≤ s.rho) (hf : s.snowcover = true) {en : Energy}
    (hq : en.delta_Q_0 = none) :
    ∃ s', mass_balance (calmEnv vol) (gapInput i) dt { Snow.ofReal s with E := none, en := en } = .ok s' := by
  obtain ⟨s0, h0⟩ : ∃ s0 : Snow, s0 = { Snow.ofReal s with E := none, en := en } := ⟨_, rfl⟩
  have l0 : s0.layer_count = 1 := by rw [h0]; exact (layer_count_s s).trans hs.lc
  have f0 : s0.snowcover = true := by rw [h0]; exact hf
  have r0 : s0.rho = some s.rho := by rw [h0]; rfl
  have t0 : s0.t_s_0 = some s.t_s_0 := by rw [h0]; rfl
  have t1 : s0.t_s_l = some s.t_s_l := by rw [h0]; rfl
  have q0 : s0.en.delta_Q_0 = none := by rw [h0]; exact hq
  have E0 : s0.E = none := by rw [h0]
  rw [← h0]
  clear h0
  have e1 : time_compact (calmEnv vol) dt s0 = .ok s0 := by
    unfold time_compact
    rw [if_pos (.inr (by rw [r0, NVal.le_some]; exact hr))]
  have e2 : precip_event (calmEnv vol) (gapInput i) s0 = .ok { s0 with h2o_total := s0.h2o_total + s0.h2o } := by
    unfold precip_event
    rw [if_neg]
    show ¬i.precip_now = true
    rw [hp]; simp
  obtain ⟨s2, h2⟩ : ∃ s2 : Snow, s2 = { s0 with h2o_total := s0.h2o_total + s0.h2o } := ⟨_, rfl⟩
  rw [← h2] at e2
  have l2 : s2.layer_count = 1 := by rw [h2]; exact l0
  have f2 : s2.snowcover = true := by rw [h2]; exact f0
  have r2 : s2.rho = some s.rho := by rw [h2]; exact r0
  have t2 : s2.t_s_0 = some s.t_s_0 := by rw [h2]; exact t0
  have t2' : s2.t_s_l = some s.t_s_l := by rw [h2]; exact t1
  have q2 : s2.en.delta_Q_0 = none := by rw [h2]; exact q0
  have E2 : s2.E = none := by rw [h2]; exact E0
  clear h2
  have e3 : ∃ s3, snowmelt (calmEnv vol) dt s2 = .ok s3 ∧ s3.layer_count = 1 ∧ s3.snowcover = true ∧
      s3.rho = some s.rho ∧ s3.t_s_0 = some s.t_s_0 ∧ s3.t_s_l = some s.t_s_l := by
    have hQ : meltQ0 dt s2 = none := by unfold meltQ0; rw [q2]; simp only [n_mul, n_add]
    have hml : meltLayers dt s2 = { s2 with melt := 0, cc_s_0 := none, h2o_total := s2.h2o_total + 0 } := by
      unfold meltLayers
      have l2' := l2
      unfold Snow.layer_count at l2'
      simp only [hQ, NVal.lt_none, NVal.none_eq, if_false, Snow.layer_count, l2', OfNat.one_ne_ofNat]
    obtain ⟨s3, h3⟩ : ∃ s3 : Snow, s3 = { s2 with melt := 0, cc_s_0 := none, h2o_total := s2.h2o_total + 0 } := ⟨_, rfl⟩
    rw [← h3] at hml
    have l3 : s3.layer_count = 1 := by rw [h3]; exact l2
    have c3 : s3.cc_s_0 = none := by rw [h3]
    have m3 : s3.melt = 0 := by rw [h3]
    have g1 : ∀ q, refreezeSurf q s3 = .ok (s3, 0) := by
      intro q
      unfold refreezeSurf
      rw [if_neg]
      rintro ⟨h, _⟩
      rw [c3] at h
      obtain ⟨_, _, h, _⟩ := h
      cases h
    have g2 : ∀ q r, refreezeLower q s3 r = .ok (s3, r) := by
      intro q r
      unfold refreezeLower
      rw [if_neg]
      rintro ⟨⟨h, _⟩, _⟩
      rw [l3] at h
      cases h
    obtain ⟨w1, w2, w3⟩ := (refreezeSnap_same (r := 0) (s := s3))
    have w : (refreezeSnap s3 0).melt = 0 ∧ (refreezeSnap s3 0).rho = s3.rho ∧ (refreezeSnap s3 0).t_s_0 = s3.t_s_0 ∧
        (refreezeSnap s3 0).t_s_l = s3.t_s_l ∧ (refreezeSnap s3 0).layer_count = s3.layer_count ∧
        (refreezeSnap s3 0).snowcover = s3.snowcover := by
      unfold refreezeSnap
      split <;> exact ⟨m3, rfl, rfl, rfl, rfl, rfl⟩
    obtain ⟨k1, k2, k3, k4, k5, k6⟩ := w
    refine ⟨refreezeSnap s3 0, ?_, ?_, ?_, ?_, ?_, ?_⟩
    · unfold snowmelt
      rw [if_neg (by rw [f2]; simp)]
      dsimp only
      rw [hml, g1, bind_ok, g2, bind_ok]
      dsimp only
      rw [if_neg]
      · rfl
      · rw [k1]
        intro h
        exact absurd ((NVal.lt_some 0 0).mp h) (lt_irrefl 0)
    · rw [k5]; exact l3
    · rw [k6, h3]; exact f2
    · rw [k2, h3]; exact r2
    · rw [k3, h3]; exact t2
    · rw [k4, h3]; exact t2'
  obtain ⟨s3, e3, l3, f3, r3, t3, t3'⟩ := e3
  have E3 : s3.E = none := by rw [snowmelt_E e3]; exact E2
  have e4 : ∃ s4, evap_cond (calmEnv vol) (gapInput i) dt s3 = .ok s4 := by
    rw [evap_cond_some _ _ _ _ f3 (by rw [l3]; norm_num)]
    have hsoil : ∀ x, soilEvap (calmEnv vol) (gapInput i) dt { s3 with h2o_total := x } = .ok (some 0) := by
      intro x
      have hl : Snow.layer_count { s3 with h2o_total := x } = (Snow.ofReal s).layer_count := by
        rw [layer_count_s, hs.lc]; exact l3
      rw [soilEvap_congr (i := gapInput i) (j := i.cells) (s := { s3 with h2o_total := x }) (t := Snow.ofReal s) rfl hl t3 t3',
        soilEvap_s _ _ i (InputData.cells_reads i), soilEvap_calm hc hs.lc hs.t0]
      rfl
    rw [hsoil, bind_ok, E3]
    simp only [n_mul, n_add, n_sub, r3, pdiv, div_none_ne hs.rho.ne', bind_ok]
    exact ⟨_, rfl⟩
  obtain ⟨s4, e4⟩ := e4
  obtain ⟨b, _⟩ := evap_cond_nan f3 (by rw [l3]; norm_num) (.inl E3) e4
  have f4 : s4.snowcover = false := b.2.1
  unfold mass_balance
  rw [e1, bind_ok, e2, bind_ok, e3, bind_ok, e4, bind_ok]
  have e5 : h2o_compact (calmEnv vol) (gapInput i) s4 = .ok s4 := by
    unfold h2o_compact
    rw [if_pos (.inl f4)]
  have e6 : runoff (calmEnv vol) s4 = .ok { s4 with swi := s4.h2o_total } := by
    unfold runoff
    rw [if_pos (.inl f4)]
  rw [e5, bind_ok, e6, bind_ok, if_neg]
  · exact ⟨_, rfl⟩
  · show ¬s4.snowcover = true
    rw [f4]; simp

theorem step_blank {vol dt : ℝ} {i : InputData} {dl : NInput} {s : Pysnobal.Snow} (hs : RipeSnow s) (hc : CalmInput i)
    (hp : i.precip_now = false) (hr : RHO_MAX ≤ s.rho) :
    ∃ p', stepPhys (calmEnv vol) dt dl ⟨Snow.ofReal s, gapInput i, none, none⟩ = .ok p' := by
  have hs' : RipeSnow { s with h2o_total := 0, snowcover := true } :=
    ⟨hs.z0, hs.zl, hs.z, hs.z_le, hs.rho, hs.t0, hs.t, hs.cc0, hs.ccl, hs.m, hs.m0, hs.ml⟩
  obtain ⟨x, en, y, z, he⟩ := energy_blank (vol := vol) (dt := dt) hs' hc hp
  have hl : 0 < (Snow.ofReal { s with h2o_total := 0, snowcover := true }).layer_count := by
    rw [layer_count_s, hs'.lc]; norm_num
  have hx : x = none := energy_balance_nan (p := ⟨Snow.ofReal { s with h2o_total := 0, snowcover := true }, gapInput i, none, none⟩) hl (.inl rfl) he
  have hq : en.delta_Q_0 = none := by
    have he' := he
    unfold energy_balance at he'
    rw [if_pos hl] at he'
    obtain ⟨⟨r, p1⟩, e1, he'⟩ := bind_eq_ok.mp he'
    have h1 := (h_le_nan e1 (.inl rfl)).2
    obtain ⟨⟨G, G0⟩, _, he'⟩ := bind_eq_ok.mp he'
    obtain ⟨M, _, he'⟩ := bind_eq_ok.mp he'
    have k := congrArg (fun p : Phys => p.snow.en.delta_Q_0) (Except.ok.inj he')
    dsimp only at k
    rw [← k, h1]
    simp only [add_n, n_add]
  subst hx
  obtain ⟨s', hm⟩ := mass_blank (vol := vol) (dt := dt) hs' hc.t_g hp hr rfl hq
  refine ⟨⟨s', gapInput i, y, z⟩, ?_⟩
  unfold stepPhys
  dsimp only
  rw [if_neg (show ¬(gapInput i).precip_now = true by show ¬i.precip_now = true; rw [hp]; simp)]
  have hd : decide (({ Snow.ofReal s with h2o_total := 0 } : Snow).layer_count > 0) = true := decide_eq_true hl
  dsimp only
  rw [hd]
  refine (congrArg (fun e : Except Err Phys => e >>= _) he).trans ?_
  rw [bind_ok]
  exact (congrArg (fun e : Except Err Snow => e >>= _) hm).trans rfl

end Nan

end

end Pysnobal
