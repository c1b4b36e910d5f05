import Verif.Lemmas.Errors

/-! # C31, C32, C33, C34, C47: the turbulent transfer routine `hle1` and its caller -/

namespace Pysnobal

noncomputable section

/-! ## A valid calm input, used as witness below -/

/-- Calm, dry air at freezing over snow at freezing, at sea level. -/
def calmIn : HleIn :=
  { press := 101324.6, air_temp := FREEZE, surface_temp := FREEZE, za := 4, ea := 20, es := 610.71,
    zq := 4, wind_speed := 0, zu := 4, z0 := 0.005, init_ustar := none, init_factor := none }

theorem calmIn_valid : HleValid calmIn where
  z0 := by norm_num [calmIn]
  zu := by norm_num [calmIn]
  zq := by norm_num [calmIn]
  za := by norm_num [calmIn]
  air := freeze_pos
  surf := freeze_pos
  ea := by norm_num [calmIn]
  es := by norm_num [calmIn]
  eaP := by norm_num [calmIn]
  esP := by norm_num [calmIn]
  sat := fun w hw => by
    have := satw_value_pos hw
    simp only [calmIn]
    linarith

/-! ## C31 -/

/-- C31 (negative result): the status returned by `hle1` is always 0. -/
theorem C31_status_always_zero (a : HleIn) (r : HleOut) (h : hle1 a = .ok r) : r.status = 0 :=
  hle1_status h

/-- C31: consequently the exception "hle1 did not converge" can never be raised by a data time step,
whatever the configuration, forcing and snow state. -/
theorem C31_noConverge_unreachable (c : Env) (ts : Tsteps) (all : Bool) (i1 i2 : InputData)
    (m : Model) : do_data_tstep c ts all i1 i2 m ≠ .error .noConverge := fun h =>
  quiet_data c ts all i1 i2 m _ h (.inl rfl)

/-- C11: no data time step recurses deeper than the three levels, and none indexes outside the list of
levels, whatever the time steps, thresholds, forcing and snow state. -/
theorem C11_no_level_out_of_range (c : Env) (ts : Tsteps) (all : Bool) (i1 i2 : InputData) (m : Model) :
    do_data_tstep c ts all i1 i2 m ≠ .error .recursion ∧ do_data_tstep c ts all i1 i2 m ≠ .error .index :=
  ⟨fun h => quiet_data c ts all i1 i2 m _ h (.inr (.inl rfl)),
   fun h => quiet_data c ts all i1 i2 m _ h (.inr (.inr (.inl rfl)))⟩

/-- The iteration started from `s` runs forever without ever passing its convergence test. -/
def NeverConverges (k : HleConst) (s : HleSt) : Prop :=
  ∃ seq : ℕ → HleSt, seq 0 = s ∧
    ∀ n, hleStep k (seq n) = .ok (seq (n + 1)) ∧ hleConverged (seq n).lo (seq (n + 1)).lo = false

/-- C31: for every valid calm input with a temperature difference the iteration never converges, and
`hle1` reports success all the same. -/
theorem C31_nonconvergence_reported_as_success (a : HleIn) (v : HleValid a) (hw : a.wind_speed = 0)
    (hu : a.zu ≠ 5.9 * a.z0) (hq : a.zq ≠ 5.9 * a.z0) (ha : a.za ≠ 5.9 * a.z0)
    (hi : a.init_ustar = none ∧ a.init_factor = none)
    (ht : a.air_temp + DALR * a.za ≠ a.surface_temp) :
    ∃ ea k s0 r, hleCheck a = .ok ea ∧ hleConst a ea = .ok k ∧
      s0 = { lo := none, ustar := 0, factor := 0, e := 0, h := 0 } ∧ NeverConverges k s0 ∧
      hle1 a = .ok r ∧ r.status = 0 ∧ r.h = 0 ∧ r.le = 0 ∧ r.e = 0 := by
  obtain ⟨w, _, hc⟩ := hleCheck_of v
  obtain ⟨k, hk, hd, _, _⟩ := hleConst_of v hc
  obtain ⟨qa, qs, vt, _, _, _, e1, e2, _, _, _, e3, _, e4, e5, e6, _, _⟩ := hleConst_ok hk
  have hne : ∀ z, 4.9 * a.z0 < z → z ≠ 5.9 * a.z0 →
      Real.log ((z - 2 * PAESCHKE * a.z0 / 3) / a.z0) ≠ 0 := by
    intro z h1 h2
    have p1 := (profileArg_pos v.z0).mpr h1
    have p2 : profileArg z a.z0 ≠ 1 := fun h => h2 ((profileArg_eq_one v.z0).mp h)
    unfold profileArg at p1 p2
    exact Real.log_ne_zero_of_pos_of_ne_one p1 p2
  have hm : k.ltsm ≠ 0 := by rw [e4]; exact hne _ v.zu hu
  have hh : k.ltsh ≠ 0 := by rw [e5]; exact hne _ v.za ha
  have hv : k.ltsv ≠ 0 := by rw [e6]; exact hne _ v.zq hq
  have hkw : k.wind_speed = 0 := by rw [e3, hw]
  have hs : hleStep k { lo := none, ustar := 0, factor := 0, e := 0, h := 0 } =
      .ok { lo := none, ustar := 0, factor := 0, e := 0, h := 0 } := by
    simp [hleStep, hleLo, psiAt, psi, hkw, pdiv, hm, hv, hh]
  refine ⟨_, k, _, ⟨0, 0, 0, 0, 0, 0⟩, hc, hk, rfl, ⟨fun _ => _, rfl, fun n => ⟨hs, rfl⟩⟩, ?_, rfl, rfl,
    rfl, rfl⟩
  unfold hle1
  rw [hc, bind_ok, hk, bind_ok]
  have hsol : hleSolve a k = .ok (some 49, { lo := none, ustar := 0, factor := 0, e := 0, h := 0 }) := by
    unfold hleSolve
    rw [if_neg (by rw [e1]; exact ht), hi.1, hi.2]
    simp only [hw, mul_zero, pdiv, hm, if_false, zero_div, bind_ok, zero_mul, hv, hh]
    rw [hleLoop_calm hkw hm hv hh]
    simp [ITMAX]
  rw [hsol, bind_ok]
  simp [hleFinish, ITMAX]

/-- non-vacuity of C31: the calm input above satisfies every hypothesis -/
example : HleValid calmIn ∧ calmIn.wind_speed = 0 ∧ calmIn.zu ≠ 5.9 * calmIn.z0 ∧
    calmIn.air_temp + DALR * calmIn.za ≠ calmIn.surface_temp := by
  refine ⟨calmIn_valid, rfl, by norm_num [calmIn], ?_⟩
  have := mul_pos dalr_pos (show (0 : ℝ) < calmIn.za by norm_num [calmIn])
  have e : calmIn.air_temp = calmIn.surface_temp := rfl
  rw [e]
  linarith

/-! ## C32 -/

/-- C32 (negative result): in exactly neutral conditions (potential air temperature equal to the
surface temperature) `hle1` raises `UnboundLocalError` for every valid input; it never returns the
neutral-profile fluxes. -/
theorem C32_neutral_raises (a : HleIn) (v : HleValid a) (hu : a.zu ≠ 5.9 * a.z0)
    (hq : a.zq ≠ 5.9 * a.z0) (ha : a.za ≠ 5.9 * a.z0)
    (ht : a.air_temp + DALR * a.za = a.surface_temp) : hle1 a = .error .unboundLocal := by
  obtain ⟨w, _, hc⟩ := hleCheck_of v
  obtain ⟨k, hk, hd, _, _⟩ := hleConst_of v hc
  obtain ⟨qa, qs, vt, _, _, _, e1, e2, _, _, _, e3, _, e4, e5, e6, _, _⟩ := hleConst_ok hk
  have hne : ∀ z, 4.9 * a.z0 < z → z ≠ 5.9 * a.z0 →
      Real.log ((z - 2 * PAESCHKE * a.z0 / 3) / a.z0) ≠ 0 := by
    intro z h1 h2
    have p1 := (profileArg_pos v.z0).mpr h1
    have p2 : profileArg z a.z0 ≠ 1 := fun h => h2 ((profileArg_eq_one v.z0).mp h)
    unfold profileArg at p1 p2
    exact Real.log_ne_zero_of_pos_of_ne_one p1 p2
  have hm : k.ltsm ≠ 0 := by rw [e4]; exact hne _ v.zu hu
  have hh : k.ltsh ≠ 0 := by rw [e5]; exact hne _ v.za ha
  have hv : k.ltsv ≠ 0 := by rw [e6]; exact hne _ v.zq hq
  unfold hle1
  rw [hc, bind_ok, hk, bind_ok]
  unfold hleSolve
  rw [if_pos (by rw [e1]; exact ht)]
  simp [pdiv, hm, hh, hv, hleFinish]

/-- C32: no call in neutral conditions ever returns, valid or not. -/
theorem C32_neutral_never_returns (a : HleIn) (ht : a.air_temp + DALR * a.za = a.surface_temp)
    (r : HleOut) : hle1 a ≠ .ok r := by
  intro h
  obtain ⟨ea, k, it, s, _, h2, h3, _⟩ := hle1_ok h
  obtain ⟨_, _, _, _, _, _, e1, _⟩ := hleConst_ok h2
  exact (hleSolve_some h3).1 (by rw [e1]; exact ht)

/-- non-vacuity of C32: a valid neutral input -/
example : ∃ a, HleValid a ∧ a.air_temp + DALR * a.za = a.surface_temp ∧ a.zu ≠ 5.9 * a.z0 := by
  refine ⟨{ calmIn with surface_temp := FREEZE + DALR * 4 }, ⟨?_, ?_, ?_, ?_, freeze_pos, ?_, ?_, ?_, ?_,
    ?_, calmIn_valid.sat⟩, rfl, ?_⟩ <;> first
    | (norm_num [calmIn]; done)
    | (have := dalr_pos; have := freeze_pos; simp only; linarith)

/-! ## C33 -/

/-- C33: `hle1` never returns a value for invalid inputs. -/
theorem C33_returns_only_for_valid (a : HleIn) (r : HleOut) (h : hle1 a = .ok r) :
    0 < a.z0 ∧ a.z0 < a.zq ∧ a.z0 < a.zu ∧ a.z0 < a.za ∧ 0 < a.air_temp ∧ 0 < a.surface_temp ∧
    0 < a.ea ∧ 0 < a.es ∧ 0 < a.press ∧ a.ea < a.press ∧ a.es < a.press ∧
    ∃ w, satw a.air_temp = .ok w ∧ a.ea ≤ w + 25 := by
  obtain ⟨ea, k, it, s, h1, _⟩ := hle1_ok h
  obtain ⟨a1, a2, a3, a4, a5, a6, a7, a8, a9, a10, a11, w, hw, h12, _⟩ := hleCheck_ok h1
  exact ⟨a1, a2, a3, a4, a5, a6, a7, a8, a9, a10, a11, w, hw, by linarith⟩

/-- C33: which exception is raised; the checks are made in this order. -/
theorem C33_rejections (a : HleIn) :
    ((a.z0 ≤ 0 ∨ a.zq ≤ a.z0 ∨ a.zu ≤ a.z0 ∨ a.za ≤ a.z0) → hle1 a = .error .heights) ∧
    (0 < a.z0 → a.z0 < a.zq → a.z0 < a.zu → a.z0 < a.za →
      ((a.air_temp ≤ 0 ∨ a.surface_temp ≤ 0) → hle1 a = .error .tempsNotK) ∧
      (0 < a.air_temp → 0 < a.surface_temp →
        ((a.ea ≤ 0 ∨ a.es ≤ 0 ∨ a.press ≤ 0 ∨ a.press ≤ a.ea ∨ a.press ≤ a.es) →
          hle1 a = .error .pressures) ∧
        (0 < a.ea → 0 < a.es → a.ea < a.press → a.es < a.press →
          ∃ w, satw a.air_temp = .ok w ∧ (w + 25 < a.ea → hle1 a = .error .exceedsSat)))) := by
  unfold hle1
  refine ⟨fun h => by simp only [hleCheck, if_pos h]; rfl, fun h1 h2 h3 h4 => ?_⟩
  have n1 : ¬ (a.z0 ≤ 0 ∨ a.zq ≤ a.z0 ∨ a.zu ≤ a.z0 ∨ a.za ≤ a.z0) := by push Not; exact ⟨h1, h2, h3, h4⟩
  refine ⟨fun h => by simp only [hleCheck, if_neg n1, if_pos h]; rfl, fun h5 h6 => ?_⟩
  have n2 : ¬ (a.air_temp ≤ 0 ∨ a.surface_temp ≤ 0) := by push Not; exact ⟨h5, h6⟩
  refine ⟨fun h => by simp only [hleCheck, if_neg n1, if_neg n2, ge_iff_le, if_pos h]; rfl,
    fun h7 h8 h9 h10 => ?_⟩
  obtain ⟨w, hw⟩ := satw_ok_iff.mpr h5
  refine ⟨w, hw, fun h11 => ?_⟩
  have n3 : ¬ (a.ea ≤ 0 ∨ a.es ≤ 0 ∨ a.press ≤ 0 ∨ a.ea ≥ a.press ∨ a.es ≥ a.press) := by
    push Not; exact ⟨h7, h8, by linarith, h9, h10⟩
  have h12 : a.ea - 25 > w := by linarith
  simp [hleCheck, n1, n2, n3, hw, h12]

/-- C33: a height between the roughness length and the displacement height plus nothing passes the
check "height > roughness" and then fails with a domain error of the logarithm. -/
theorem C33_low_height_domain_error (a : HleIn) (ea : ℝ) (h : hleCheck a = .ok ea)
    (hz : a.zu ≤ 4.9 * a.z0) : hle1 a = .error .mathDomain := by
  have h0 := (hleCheck_ok h).1
  have : ¬ 0 < profileArg a.zu a.z0 := fun hp => absurd ((profileArg_pos h0).mp hp) (not_lt.mpr hz)
  have hl : plog ((a.zu - 2 * PAESCHKE * a.z0 / 3) / a.z0) = .error .mathDomain := by
    unfold plog
    exact if_pos (not_lt.mp this)
  unfold hle1
  rw [h, bind_ok]
  simp only [hleConst, hl, bind_error]

/-! ## C34 -/

/-- C34: the latent heat flux is the mass flux times the latent heat of sublimation over a surface at
or below freezing and of vaporisation above. -/
theorem C34_latent_heat (a : HleIn) (r : HleOut) (h : hle1 a = .ok r) :
    (a.surface_temp ≤ FREEZE → r.le = lh_sub a.surface_temp * r.e) ∧
    (FREEZE < a.surface_temp → r.le = lh_vap a.surface_temp * r.e) := by
  obtain ⟨_, _, _, s, _, _, _, _, h2, _, _, _, h3⟩ := hle1_ok h
  rw [h3, h2]
  constructor
  · intro h; rw [if_pos h, lh_sub]
  · intro h; rw [if_neg (not_le.mpr h)]

/-- The last pass of the loop. -/
theorem hle1_last {a : HleIn} {r : HleOut} (h : hle1 a = .ok r) :
    ∃ ea k s0, hleCheck a = .ok ea ∧ hleConst a ea = .ok k ∧
      ∃ s, hleStep k s0 = .ok s ∧ r.h = s.h ∧ r.e = s.e ∧ r.ustar = s.ustar ∧ r.factor = s.factor := by
  obtain ⟨ea, k, it, s, h1, h2, h3, e1, e2, e3, e4, _⟩ := hle1_ok h
  obtain ⟨_, s0, _, h5⟩ := hleSolve_some h3
  obtain ⟨⟨s1, h6⟩, _⟩ := hleLoop_last (n := 49) h5
  exact ⟨ea, k, s1, h1, h2, s, h6, e1, e2, e3, e4⟩

/-- C34: without wind there are no turbulent fluxes. -/
theorem C34_calm_air (a : HleIn) (hw : a.wind_speed = 0) (r : HleOut) (h : hle1 a = .ok r) :
    r.h = 0 ∧ r.e = 0 ∧ r.le = 0 ∧ r.ustar = 0 := by
  have hl := C34_latent_heat a r h
  obtain ⟨ea, k, s0, _, hk, s, hs, e1, e2, e3, e4⟩ := hle1_last h
  obtain ⟨_, _, _, _, _, _, _, _, _, _, _, e5, _⟩ := hleConst_ok hk
  obtain ⟨pm, pv, ph, _, _, _, _, _, _, _, f1, f2, f3, f4⟩ := hleStep_ok hs
  have u0 : s.ustar = 0 := by rw [f1, e5, hw, mul_zero, zero_div]
  have he : r.e = 0 := by rw [e2, f3, f2, u0]; simp
  have hh : r.h = 0 := by rw [e1, f4, f2, u0]; simp
  refine ⟨hh, he, ?_, by rw [e3, u0]⟩
  rcases le_or_gt a.surface_temp FREEZE with h1 | h1
  · rw [hl.1 h1, he, mul_zero]
  · rw [hl.2 h1, he, mul_zero]

theorem psi_stable {z : ℝ} {code : PsiCode} (h : 0 ≤ z) :
    ∃ p, psi z code = .ok p ∧ p ≤ 0 := by
  unfold psi
  by_cases hz : z > 0
  · rw [if_pos hz]
    refine ⟨_, rfl, ?_⟩
    have : (0 : ℝ) < if z > 1 then 1 else z := by split <;> linarith
    unfold BETA_S
    linarith
  · rw [if_neg hz, if_neg (not_lt.mpr h)]
    exact ⟨0, rfl, le_refl _⟩

theorem psiAt_stable {z : ℝ} (hz : 0 ≤ z) {lo : Option ℝ} (hlo : ∀ l, lo = some l → 0 < l)
    {code : PsiCode} : ∃ p, psiAt z lo code = .ok p ∧ p ≤ 0 := by
  unfold psiAt
  cases lo with
  | none => exact psi_stable (le_refl _)
  | some l =>
    have := hlo l rfl
    simp only [this.ne', if_false]
    exact psi_stable (div_nonneg hz this.le)

/-- Loop states in stable air: momentum transfer and buoyancy flux do not differ in sign. -/
structure StableSt (k : HleConst) (s : HleSt) : Prop where
  buoy : 0 ≤ s.ustar * (s.h / (k.air_temp * CP_AIR) + 0.61 * s.e)
  link : s.ustar = 0 → s.e = 0 ∧ s.h = 0

theorem hleLo_stable {k : HleConst} {s : HleSt} (hs : StableSt k s) (hd : 0 < k.dens) :
    ∀ l, hleLo k s = some l → 0 < l := by
  intro l hl
  unfold hleLo at hl
  have hg : 0 < VON_KARMAN * GRAVITY := mul_pos vk_pos grav_pos
  simp only at hl
  split at hl
  · cases hl
  · rename_i hne
    cases hl
    have hx : s.h / (k.air_temp * CP_AIR) + 0.61 * s.e ≠ 0 := fun h => hne (by rw [h, mul_zero])
    have hu : s.ustar ≠ 0 := fun h => hx (by obtain ⟨h1, h2⟩ := hs.link h; rw [h1, h2]; simp)
    have hb := lt_of_le_of_ne hs.buoy (mul_ne_zero hu hx).symm
    generalize s.h / (k.air_temp * CP_AIR) + 0.61 * s.e = y at *
    have hu2 : 0 < s.ustar * s.ustar := mul_self_pos.mpr hu
    have hy2 : 0 < y * y := mul_self_pos.mpr hx
    have e : s.ustar * s.ustar * s.ustar * k.dens / (VON_KARMAN * GRAVITY * y) =
        s.ustar * s.ustar * k.dens * (s.ustar * y) / (VON_KARMAN * GRAVITY * (y * y)) := by
      have := hg.ne'
      have h1 : VON_KARMAN ≠ 0 := vk_pos.ne'
      have h2 : GRAVITY ≠ 0 := grav_pos.ne'
      field_simp
    rw [e]
    positivity

/-- Stable stratification: air both warmer and moister than the surface, or the same instrument height for
temperature and humidity and lighter air above. -/
def Stratified (k : HleConst) : Prop :=
  (0 ≤ k.q_diff ∧ 0 ≤ k.t_diff) ∨
  (k.zq = k.za ∧ k.ltsv = k.ltsh ∧ 0 ≤ k.t_diff / k.air_temp + 0.61 * k.q_diff)

/-- One pass in stable air: it succeeds, and the fluxes are the differences times positive exchange coefficients
not above the neutral ones. -/
theorem hleStep_stable {k : HleConst} {s : HleSt} (hs : StableSt k s) (hd : 0 < k.dens)
    (ht : 0 < k.air_temp) (hm : 0 < k.ltsm) (hh : 0 < k.ltsh) (hv : 0 < k.ltsv) (hw : 0 < k.wind_speed)
    (hb : Stratified k) (hzu : 0 ≤ k.zu) (hzq : 0 ≤ k.zq) (hza : 0 ≤ k.za) :
    ∃ s', hleStep k s = .ok s' ∧ StableSt k s' ∧
      0 < s'.ustar ∧ s'.ustar ≤ VON_KARMAN * k.wind_speed / k.ltsm ∧ ∃ κe κh, 0 < κe ∧ 0 < κh ∧
      κe ≤ VON_KARMAN * (VON_KARMAN * k.wind_speed / k.ltsm) * k.dens / k.ltsv ∧
      κh ≤ VON_KARMAN * (VON_KARMAN * k.wind_speed / k.ltsm) * k.dens / k.ltsh ∧
      s'.e = κe * k.q_diff ∧ s'.h = κh * (CP_AIR * k.t_diff) ∧
      (k.zq = k.za → k.ltsv = k.ltsh → κe = κh) := by
  have hlo := hleLo_stable hs hd
  obtain ⟨pm, p1, p1'⟩ := psiAt_stable (code := .SM) hzu hlo
  obtain ⟨pv, p2, p2'⟩ := psiAt_stable (code := .SV) hzq hlo
  obtain ⟨ph, p3, p3'⟩ := psiAt_stable (code := .SH) hza hlo
  have hsame : k.zq = k.za → pv = ph := by
    intro h
    rw [h] at p2
    have : psiAt k.za (hleLo k s) .SV = psiAt k.za (hleLo k s) .SH := by
      unfold psiAt psi; rfl
    rw [this, p3] at p2
    cases p2; rfl
  have d1 : 0 < k.ltsm - pm := by linarith
  have d2 : 0 < k.ltsv - pv := by linarith
  have d3 : 0 < k.ltsh - ph := by linarith
  have hvk := vk_pos
  have hcp := cpair_pos
  have hn : 0 < VON_KARMAN * k.wind_speed := mul_pos hvk hw
  unfold hleStep
  simp only [p1, p2, p3, bind_ok, pdiv_of_ne d1.ne', pdiv_of_ne d2.ne', pdiv_of_ne d3.ne', pure_ok]
  have hu : 0 < VON_KARMAN * k.wind_speed / (k.ltsm - pm) := div_pos hn d1
  have hule : VON_KARMAN * k.wind_speed / (k.ltsm - pm) ≤ VON_KARMAN * k.wind_speed / k.ltsm :=
    div_le_div_of_nonneg_left hn.le hm (by linarith)
  generalize VON_KARMAN * k.wind_speed / (k.ltsm - pm) = us at hu hule
  generalize VON_KARMAN * k.wind_speed / k.ltsm = un at hule
  have hf : 0 < VON_KARMAN * us * k.dens := by positivity
  have hfle : VON_KARMAN * us * k.dens ≤ VON_KARMAN * un * k.dens := by gcongr
  generalize VON_KARMAN * us * k.dens = f at hf hfle
  generalize VON_KARMAN * un * k.dens = fn at hfle
  have eAV : AV = 1 := rfl
  have eAH : AH = 1 := rfl
  have b1 : f / (k.ltsv - pv) ≤ fn / k.ltsv :=
    div_le_div₀ (hf.le.trans hfle) hfle hv (by linarith)
  have b2 : f / (k.ltsh - ph) ≤ fn / k.ltsh :=
    div_le_div₀ (hf.le.trans hfle) hfle hh (by linarith)
  have e1 : k.q_diff * f * AV / (k.ltsv - pv) = f / (k.ltsv - pv) * k.q_diff := by rw [eAV]; ring
  have e2 : k.t_diff * f * AH * CP_AIR / (k.ltsh - ph) = f / (k.ltsh - ph) * (CP_AIR * k.t_diff) := by
    rw [eAH]; ring
  refine ⟨_, rfl, ⟨?_, fun h => absurd h hu.ne'⟩, hu, hule, f / (k.ltsv - pv), f / (k.ltsh - ph),
    div_pos hf d2, div_pos hf d3, b1, b2, e1, e2, fun h1 h2 => by rw [h2, hsame h1]⟩
  show 0 ≤ us * (k.t_diff * f * AH * CP_AIR / (k.ltsh - ph) / (k.air_temp * CP_AIR) +
    0.61 * (k.q_diff * f * AV / (k.ltsv - pv)))
  refine mul_nonneg hu.le ?_
  rw [e1, e2]
  have hd2 := div_pos hf d2
  have hd3 := div_pos hf d3
  rcases hb with ⟨hq, htd⟩ | ⟨hz, hl, hb⟩
  · positivity
  · rw [hl, hsame hz]
    have : f / (k.ltsh - ph) * (CP_AIR * k.t_diff) / (k.air_temp * CP_AIR) +
        0.61 * (f / (k.ltsh - ph) * k.q_diff) =
        f / (k.ltsh - ph) * (k.t_diff / k.air_temp + 0.61 * k.q_diff) := by
      field_simp
    rw [this]
    exact mul_nonneg hd3.le hb

theorem hleLoop_inv {k : HleConst} {P : HleSt → Prop}
    (hstep : ∀ s, P s → ∃ s', hleStep k s = .ok s' ∧ P s') :
    ∀ (n it : ℕ) (s : HleSt), P s → ∃ it' s', hleLoop k n it s = .ok (it', s') := by
  intro n
  induction n with
  | zero => intro it s _; exact ⟨_, _, rfl⟩
  | succ n ih =>
    intro it s hs
    obtain ⟨s1, h1, h2⟩ := hstep s hs
    unfold hleLoop
    rw [h1, bind_ok]
    split
    · exact ⟨_, _, rfl⟩
    · exact ih _ _ h2

theorem hleLoop_prev {k : HleConst} {P : HleSt → Prop} (hstep : ∀ s s', P s → hleStep k s = .ok s' → P s') :
    ∀ (n it : ℕ) (s : HleSt) (it' : ℕ) (s' : HleSt), P s → hleLoop k (n + 1) it s = .ok (it', s') →
      ∃ s0, P s0 ∧ hleStep k s0 = .ok s' := by
  intro n
  induction n with
  | zero =>
    intro it s it' s' hs h
    unfold hleLoop at h
    obtain ⟨s1, h1, h⟩ := bind_eq_ok.mp h
    split at h
    · simp at h; obtain ⟨_, rfl⟩ := h; exact ⟨s, hs, h1⟩
    · simp [hleLoop] at h; obtain ⟨_, rfl⟩ := h; exact ⟨s, hs, h1⟩
  | succ n ih =>
    intro it s it' s' hs h
    unfold hleLoop at h
    obtain ⟨s1, h1, h⟩ := bind_eq_ok.mp h
    split at h
    · simp at h; obtain ⟨_, rfl⟩ := h; exact ⟨s, hs, h1⟩
    · exact ih _ _ _ _ (hstep s s1 hs h1) h

/-- The first state of the loop. -/
theorem hleSolve_start {a : HleIn} {k : HleConst} (hne : k.air_temp ≠ a.surface_temp)
    (hm : k.ltsm ≠ 0) (hv : k.ltsv ≠ 0) (hh : k.ltsh ≠ 0) :
    ∃ us f, (a.init_ustar = none → us = VON_KARMAN * a.wind_speed / k.ltsm) ∧
      (∀ u, a.init_ustar = some u → us = u) ∧
      (a.init_factor = none → f = VON_KARMAN * us * k.dens) ∧
      (∀ x, a.init_factor = some x → f = x) ∧
      hleSolve a k = (hleLoop k ITMAX 0
        { lo := none, ustar := us, factor := f, e := k.q_diff * f * AV / k.ltsv,
          h := k.t_diff * f * CP_AIR * AH / k.ltsh }).map (fun x => (some x.1, x.2)) := by
  unfold hleSolve
  rw [if_neg hne]
  cases hu : a.init_ustar with
  | none =>
    cases hf : a.init_factor with
    | none =>
      refine ⟨_, _, fun _ => rfl, by simp, fun _ => rfl, by simp, ?_⟩
      simp only [pdiv_of_ne hm, bind_ok, pdiv_of_ne hv, pdiv_of_ne hh]
      cases hleLoop k ITMAX 0 _ <;> rfl
    | some f =>
      refine ⟨_, f, fun _ => rfl, by simp, by simp, by simp, ?_⟩
      simp only [pdiv_of_ne hm, bind_ok, pdiv_of_ne hv, pdiv_of_ne hh]
      cases hleLoop k ITMAX 0 _ <;> rfl
  | some u =>
    cases hf : a.init_factor with
    | none =>
      refine ⟨u, _, by simp, by simp, fun _ => rfl, by simp, ?_⟩
      simp only [pure_ok, bind_ok, pdiv_of_ne hv, pdiv_of_ne hh]
      cases hleLoop k ITMAX 0 _ <;> rfl
    | some f =>
      refine ⟨u, f, by simp, by simp, by simp, by simp, ?_⟩
      simp only [pure_ok, bind_ok, pdiv_of_ne hv, pdiv_of_ne hh]
      cases hleLoop k ITMAX 0 _ <;> rfl

/-- First guesses as the model passes them on: either none, or the friction velocity and momentum factor a
previous call returned (of the same sign, and no momentum factor without friction velocity). -/
def GuessOK (a : HleIn) : Prop :=
  (a.init_ustar = none ∧ a.init_factor = none) ∨
  ∃ u f, a.init_ustar = some u ∧ a.init_factor = some f ∧ 0 ≤ u * f ∧ (u = 0 → f = 0)

/-- Stably stratified air: `hle1` returns and its fluxes are the differences times exchange coefficients. -/
theorem stable_core {a : HleIn} (v : HleValid a) (hu : 5.9 * a.z0 < a.zu)
    (hq : 5.9 * a.z0 < a.zq) (ha : 5.9 * a.z0 < a.za) (hw : 0 < a.wind_speed) (hg : GuessOK a)
    (ht : a.air_temp + DALR * a.za ≠ a.surface_temp) {ea : ℝ} (hc : hleCheck a = .ok ea) {k : HleConst}
    (hk : hleConst a ea = .ok k) (hb : Stratified k) :
    ∃ r, hle1 a = .ok r ∧ 0 < k.dens ∧ 0 < r.ustar ∧ r.ustar ≤ VON_KARMAN * a.wind_speed / k.ltsm ∧
      ∃ κe κh, 0 < κe ∧ 0 < κh ∧
      κe ≤ VON_KARMAN * (VON_KARMAN * a.wind_speed / k.ltsm) * k.dens / k.ltsv ∧
      κh ≤ VON_KARMAN * (VON_KARMAN * a.wind_speed / k.ltsm) * k.dens / k.ltsh ∧
      r.e = κe * k.q_diff ∧ r.h = κh * (CP_AIR * k.t_diff) ∧
      (k.zq = k.za → k.ltsv = k.ltsh → κe = κh) := by
  obtain ⟨k', hk', hd, _⟩ := hleConst_of v hc
  rw [hk] at hk'
  cases hk'
  obtain ⟨qa, qs, vt, q1, q2, q3, e1, e2, z1, z2, z3, e3, _, e4, e5, e6, _, _⟩ := hleConst_ok hk
  have hlog : ∀ z, 5.9 * a.z0 < z → 0 < Real.log ((z - 2 * PAESCHKE * a.z0 / 3) / a.z0) := by
    intro z h1
    have p1 := (profileArg_gt_one v.z0).mpr h1
    exact Real.log_pos p1
  have hm : 0 < k.ltsm := by rw [e4]; exact hlog _ hu
  have hh : 0 < k.ltsh := by rw [e5]; exact hlog _ ha
  have hv : 0 < k.ltsv := by rw [e6]; exact hlog _ hq
  have hkw : 0 < k.wind_speed := by rw [e3]; exact hw
  have hz0 := v.z0
  have hta : 0 < k.air_temp := by
    rw [e1]
    have := mul_pos dalr_pos (show 0 < a.za by linarith)
    have := v.air
    linarith
  have hz1 : 0 ≤ k.zu := by rw [z3]; linarith
  have hz2 : 0 ≤ k.zq := by rw [z2]; linarith
  have hz3 : 0 ≤ k.za := by rw [z1]; linarith
  obtain ⟨us, f, s1, s2, s3, s4, hsol⟩ := hleSolve_start (a := a) (k := k) (by rw [e1]; exact ht)
    hm.ne' hv.ne' hh.ne'
  have hvk := vk_pos
  have hcp := cpair_pos
  have hst : StableSt k { lo := none, ustar := us, factor := f, e := k.q_diff * f * AV / k.ltsv,
                          h := k.t_diff * f * CP_AIR * AH / k.ltsh } := by
    have hg' : 0 ≤ us * f ∧ (us = 0 → f = 0) := by
      rcases hg with ⟨g1, g2⟩ | ⟨u, x, g1, g2, g3, g5⟩
      · have t1 := s1 g1
        have t2 := s3 g2
        have : 0 < us := by rw [t1]; positivity
        refine ⟨by rw [t2]; positivity, fun h => absurd h this.ne'⟩
      · rw [s2 u g1, s4 x g2]; exact ⟨g3, g5⟩
    obtain ⟨g1, g3⟩ := hg'
    refine ⟨?_, fun h => ?_⟩
    · show 0 ≤ us * (k.t_diff * f * CP_AIR * AH / k.ltsh / (k.air_temp * CP_AIR) +
        0.61 * (k.q_diff * f * AV / k.ltsv))
      rw [show AV = 1 from rfl, show AH = 1 from rfl]
      rcases hb with ⟨hq, htd⟩ | ⟨hz, hl, hb⟩
      · have : us * (k.t_diff * f * CP_AIR * 1 / k.ltsh / (k.air_temp * CP_AIR) +
            0.61 * (k.q_diff * f * 1 / k.ltsv)) =
            us * f * (k.t_diff / k.ltsh / k.air_temp + 0.61 * (k.q_diff / k.ltsv)) := by
          field_simp
        rw [this]
        positivity
      · rw [hl]
        have : us * (k.t_diff * f * CP_AIR * 1 / k.ltsh / (k.air_temp * CP_AIR) +
            0.61 * (k.q_diff * f * 1 / k.ltsh)) =
            us * f / k.ltsh * (k.t_diff / k.air_temp + 0.61 * k.q_diff) := by
          field_simp
        rw [this]
        positivity
    · simp [g3 h]
  have hstep := fun s (hs : StableSt k s) => hleStep_stable hs hd hta hm hh hv hkw hb hz1 hz2 hz3
  obtain ⟨it, s, hl⟩ := hleLoop_inv (P := StableSt k)
    (fun s hs => by obtain ⟨s', h1, h2, _⟩ := hstep s hs; exact ⟨s', h1, h2⟩) ITMAX 0 _ hst
  obtain ⟨s0, hs0, hlast⟩ := hleLoop_prev (P := StableSt k) (n := 49)
    (fun s s' hs h => by
      obtain ⟨s2, h1, h2, _⟩ := hstep s hs
      rw [h] at h1; cases h1; exact h2) _ _ _ _ hst hl
  obtain ⟨s', h1, _, h3, h4, κe, κh, h5⟩ := hstep s0 hs0
  rw [hlast] at h1; cases h1
  rw [hl] at hsol
  have hr : hle1 a = hleFinish a (some it) s := by
    unfold hle1
    rw [hc, bind_ok, hk, bind_ok, hsol]
    rfl
  rw [e3] at h4 h5
  exact ⟨_, hr, hd, h3, h4, κe, κh, h5⟩

/-- C34: warm and moist air over a colder and drier surface.  For every valid input with positive wind,
heights above 5.9 roughness lengths, potential air temperature above the surface temperature and (capped)
vapour pressure at least that of the surface, `hle1` returns, both fluxes are directed towards the
surface (non-negative), the heat flux strictly, and neither exceeds its neutral-profile value. -/
theorem C34_stable_fluxes (a : HleIn) (v : HleValid a) (hu : 5.9 * a.z0 < a.zu)
    (hq : 5.9 * a.z0 < a.zq) (ha : 5.9 * a.z0 < a.za) (hw : 0 < a.wind_speed) (hg : GuessOK a)
    (ht : a.surface_temp < a.air_temp + DALR * a.za)
    (he : ∀ ea, hleCheck a = .ok ea → a.es ≤ ea) :
    ∃ r ea k, hle1 a = .ok r ∧ hleCheck a = .ok ea ∧ hleConst a ea = .ok k ∧ 0 < k.dens ∧
      k.t_diff = a.air_temp + DALR * a.za - a.surface_temp ∧
      k.ltsm = Real.log ((a.zu - 4.9 * a.z0) / a.z0) ∧ k.ltsh = Real.log ((a.za - 4.9 * a.z0) / a.z0) ∧
      k.ltsv = Real.log ((a.zq - 4.9 * a.z0) / a.z0) ∧
      0 < r.ustar ∧ r.ustar ≤ VON_KARMAN * a.wind_speed / k.ltsm ∧
      0 < r.h ∧
      r.h ≤ k.t_diff * (VON_KARMAN * (VON_KARMAN * a.wind_speed / k.ltsm) * k.dens) * CP_AIR / k.ltsh ∧
      0 ≤ r.e ∧
      r.e ≤ k.q_diff * (VON_KARMAN * (VON_KARMAN * a.wind_speed / k.ltsm) * k.dens) / k.ltsv ∧
      (a.es < ea → 0 < r.e) := by
  obtain ⟨w, _, hc⟩ := hleCheck_of v
  obtain ⟨k, hk, hd, hea, hea'⟩ := hleConst_of v hc
  have hes := he _ hc
  obtain ⟨qa, qs, vt, q1, q2, q3, e1, e2, z1, z2, z3, e3, _, e4, e5, e6, _, _⟩ := hleConst_ok hk
  have htd : 0 < k.t_diff := by rw [e2, e1]; linarith
  have hqd : 0 ≤ k.q_diff := by
    rw [q3]
    rcases eq_or_lt_of_le hes with h | h
    · rw [h] at q2; rw [q1] at q2; cases q2; simp
    · have := spec_hum_lt v.es h (lt_of_le_of_lt hea' v.eaP) q2 q1
      linarith
  have hqd' : a.es < min a.ea w → 0 < k.q_diff := by
    intro h
    rw [q3]
    have := spec_hum_lt v.es h (lt_of_le_of_lt hea' v.eaP) q2 q1
    linarith
  obtain ⟨r, hr, _, h3, h4, κe, κh, g1, g2, g3, g4, g5, g6, _⟩ :=
    stable_core v hu hq ha hw hg ht.ne' hc hk (.inl ⟨hqd, htd.le⟩)
  have hcp := cpair_pos
  have h49 : 2 * PAESCHKE * a.z0 / 3 = 4.9 * a.z0 := by unfold PAESCHKE; ring
  rw [h49] at e4 e5 e6
  refine ⟨r, _, k, hr, hc, hk, hd, by rw [e2, e1], e4, e5, e6, h3, h4, by rw [g6]; positivity, ?_,
    by rw [g5]; positivity, ?_, fun h => by have := hqd' h; rw [g5]; positivity⟩
  · rw [g6]
    calc κh * (CP_AIR * k.t_diff) ≤
        VON_KARMAN * (VON_KARMAN * a.wind_speed / k.ltsm) * k.dens / k.ltsh * (CP_AIR * k.t_diff) := by gcongr
      _ = _ := by ring
  · rw [g5]
    calc κe * k.q_diff ≤
        VON_KARMAN * (VON_KARMAN * a.wind_speed / k.ltsm) * k.dens / k.ltsv * k.q_diff := by gcongr
      _ = _ := by ring

/-- An input for the examples: moist warm air in wind over a cold dry surface. -/
def stableIn : HleIn :=
  { calmIn with wind_speed := 3, es := 1, surface_temp := 200, ea := 20, air_temp := BOIL }

/-- saturation vapour pressure at the boiling point is the standard pressure -/
theorem satw_boil : satw BOIL = .ok SEA_LEVEL := by
  rw [satw_pos_eq boil_pos]
  have h1 : BOIL / BOIL = 1 := div_self boil_pos.ne'
  rw [h1]
  have h2 : satwExp BOIL 1 (Real.log 1) = LOG_SEA_LEVEL / LOG_10 := by
    simp [satwExp, h1]
  rw [h2]
  congr 1
  have h10 : LOG_10 ≠ 0 := by
    unfold LOG_10
    exact (Real.log_pos (by norm_num)).ne'
  rw [Real.rpow_def_of_pos (by norm_num)]
  have : Real.log 10 * (LOG_SEA_LEVEL / LOG_10) = LOG_SEA_LEVEL := by
    change LOG_10 * _ = _
    field_simp
  rw [this]
  unfold LOG_SEA_LEVEL
  exact Real.exp_log (by norm_num [SEA_LEVEL])

/-- non-vacuity of C34: moist air warmer than a cold surface -/
theorem stableIn_ok : HleValid stableIn ∧ 5.9 * stableIn.z0 < stableIn.zu ∧ 0 < stableIn.wind_speed ∧
    GuessOK stableIn ∧ stableIn.surface_temp < stableIn.air_temp + DALR * stableIn.za ∧
    ∀ ea, hleCheck stableIn = .ok ea → stableIn.es ≤ ea := by
  unfold stableIn
  refine ⟨?_, ?_, ?_, .inl ⟨rfl, rfl⟩, ?_, ?_⟩
  · refine ⟨?_, ?_, ?_, ?_, boil_pos, ?_, ?_, ?_, ?_, ?_, fun w hw => ?_⟩ <;> first
      | (norm_num [calmIn]; done)
      | (have := satw_value_pos hw; simp only; linarith)
  · norm_num [calmIn]
  · norm_num
  · have := mul_pos dalr_pos (show (0 : ℝ) < 4 by norm_num)
    simp only [calmIn, BOIL]
    linarith
  · intro ea h
    obtain ⟨_, _, _, _, _, _, _, _, _, _, _, w, hw, _, rfl⟩ := hleCheck_ok h
    rw [satw_boil] at hw
    cases hw
    simp only [SEA_LEVEL]
    norm_num

/-! ### The model never leaves the numbers it follows -/

/-- C34: the argument of the stability functions is always finite or the neutral 0: a call with the
first guesses the model passes on never divides a height by a zero Obukhov length. -/
theorem C34_arguments_finite (a : HleIn) (ea : ℝ) (k : HleConst) (hk : hleConst a ea = .ok k)
    (hd : k.dens ≠ 0)
    (hg : ∀ u, a.init_ustar = some u → ∃ f, a.init_factor = some f ∧ (u = 0 → f = 0))
    (hg' : a.init_ustar = none → a.init_factor = none) :
    hleSolve a k ≠ .error .nonFinite :=
  hleSolve_finite hk hd hg hg'

/-- C34: the first guesses stored by `h_le` satisfy the condition above, so it holds throughout a
simulation. -/
theorem C34_guesses_consistent (c : Env) (p p' : Phys) (r : HleOut) (h : h_le c p = .ok (r, p')) :
    ∃ u f, p'.init_ustar = some u ∧ p'.init_factor = some f ∧ (u = 0 → f = 0) := by
  obtain ⟨_, _, _, _, _, _, h1, h2, _, h3⟩ := h_le_ok h
  obtain ⟨ea, k, s0, _, hk, s, hs, e1, e2, e3, e4⟩ := hle1_last h3
  obtain ⟨pm, pv, ph, _, _, _, _, _, _, _, f1, f2, f3, f4⟩ := hleStep_ok hs
  refine ⟨_, _, h1, h2, fun h0 => ?_⟩
  rw [e4, f2, ← e3, h0]; simp

/-! ## C47 -/

/-- C47: before the turbulent scheme is called, the working vapour pressure is lowered to the
saturation value over ice at air temperature when it lies above it, and is otherwise left alone; nothing
else of the forcing changes and that is the value the scheme receives. -/
theorem C47_vapour_pressure_capped (c : Env) (p p' : Phys) (r : HleOut)
    (h : h_le c p = .ok (r, p')) :
    ∃ sv es, sati p.input1.t_a = .ok sv ∧ sati p.snow.t_s_0 = .ok es ∧
      p'.input1.e_a ≤ sv ∧ p'.input1.e_a ≤ p.input1.e_a ∧
      (sv < p.input1.e_a → p'.input1.e_a = sv) ∧
      (p.input1.e_a ≤ sv → p'.input1 = p.input1) ∧
      p'.input1 = { p.input1 with e_a := p'.input1.e_a } ∧ p'.snow = p.snow ∧
      ∃ za zu, hle1 { press := c.P_a, air_temp := p.input1.t_a, surface_temp := p.snow.t_s_0, za := za
                      ea := p'.input1.e_a, es := es, zq := za, wind_speed := p.input1.u, zu := zu
                      z0 := c.z_0, init_ustar := p.init_ustar, init_factor := p.init_factor } = .ok r := by
  obtain ⟨sv, es, h1, h2, h3, h4, _, _, _, h5⟩ := h_le_ok h
  refine ⟨sv, es, h1, h2, ?_, ?_, ?_, ?_, ?_, h4, if c.relative_hts then c.z_t else c.z_t - p.snow.z_s,
    if c.relative_hts then c.z_u else c.z_u - p.snow.z_s, ?_⟩
  · rw [h3]; exact min_le_right _ _
  · rw [h3]; exact min_le_left _ _
  · intro h; rw [h3]; exact min_eq_right h.le
  · intro h; rw [h3, min_eq_left h]
  · rw [h3]
  · rw [h3]; exact h5

/-- C47: over a whole run step the working vapour pressure is never raised, and with snow on the ground
it ends at most at saturation. -/
theorem C47_run_step (c : Env) (dt : ℝ) (dl : InputData) (p p' : Phys)
    (h : stepPhys c dt dl p = .ok p') :
    p'.input1.e_a ≤ p.input1.e_a ∧
    (0 < p.snow.layer_count → ∀ sv, sati p.input1.t_a = .ok sv →
      p'.input1.e_a = min p.input1.e_a sv) ∧
    (p.snow.layer_count = 0 → p'.input1.e_a = p.input1.e_a) := by
  refine ⟨(stepPhys_input h).2, ?_⟩
  obtain ⟨p1, h1, h2, h3⟩ := stepPhys_ok h
  have he : p'.input1 = p1.input1 := by rw [h3]
  have ha : (applied dl p.input1).e_a = p.input1.e_a ∧ (applied dl p.input1).t_a = p.input1.t_a := by
    unfold applied InputData.update_precip_deltas
    split <;> exact ⟨rfl, rfl⟩
  rcases energy_balance_ok h1 with ⟨hl, r, p2, G, G0, M, k1, _, _, k2⟩ | ⟨hl, k2⟩
  · have hl' : 0 < p.snow.layer_count := hl
    refine ⟨fun _ sv hsv => ?_, fun h0 => by omega⟩
    obtain ⟨sv', es, k3, _, k4, _⟩ := h_le_ok k1
    simp only [ha.2] at k3
    rw [hsv] at k3
    cases k3
    rw [he, k2]
    show p2.input1.e_a = _
    rw [k4]
    show min (applied dl p.input1).e_a sv = _
    rw [ha.1]
  · have hl' : p.snow.layer_count = 0 := hl
    refine ⟨fun h0 => by omega, fun _ => ?_⟩
    rw [he, k2]
    exact ha.1

end

end Pysnobal
