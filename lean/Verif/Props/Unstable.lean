import Verif.Props.Exchange

/-! # C67: wind over a surface warmer than the air -/

namespace Pysnobal

noncomputable section

/-! ## The stability functions in unstable air -/

theorem psiH_unstable_bound {ζ : ℝ} (h : ζ ≤ 0) : 0 ≤ psiH ζ ∧ psiH ζ ≤ Real.log (1 - 8 * ζ) := by
  unfold psiH
  by_cases h0 : 0 ≤ ζ
  · have : ζ = 0 := le_antisymm h h0
    subst this
    simp
  rw [if_neg h0]
  have hy : 1 ≤ √(1 - 16 * ζ) := Real.one_le_sqrt.mpr (by linarith)
  have hs : √(1 - 16 * ζ) ^ 2 = 1 - 16 * ζ := Real.sq_sqrt (by linarith)
  generalize √(1 - 16 * ζ) = y at hy hs
  have hl : 0 ≤ Real.log ((1 + y) / 2) := Real.log_nonneg (by linarith)
  refine ⟨by linarith, ?_⟩
  rw [show 2 * Real.log ((1 + y) / 2) = Real.log (((1 + y) / 2) ^ 2) by rw [Real.log_pow]; norm_num]
  apply Real.log_le_log (by positivity)
  nlinarith [sq_nonneg (y - 1)]

theorem psiM_unstable_bound {ζ : ℝ} (h : ζ ≤ 0) : 0 ≤ psiM ζ ∧ psiM ζ ≤ psiH ζ := by
  unfold psiM psiH
  by_cases h0 : 0 ≤ ζ
  · rw [if_pos h0, if_pos h0]
    have : ζ = 0 := le_antisymm h h0
    subst this
    simp
  rw [if_neg h0, if_neg h0]
  have hx : 1 ≤ √√(1 - 16 * ζ) := Real.one_le_sqrt.mpr (Real.one_le_sqrt.mpr (by linarith))
  have hs : √√(1 - 16 * ζ) ^ 2 = √(1 - 16 * ζ) := Real.sq_sqrt (Real.sqrt_nonneg _)
  dsimp only
  generalize √√(1 - 16 * ζ) = x at hx hs ⊢
  rw [← hs]
  constructor
  · have := psiSM_strictMono.monotoneOn (Set.mem_Ici.mpr le_rfl) (Set.mem_Ici.mpr hx) hx
    rw [psiSM_one] at this
    unfold psiSM at this
    rw [pow_two]; exact this
  · have ha : Real.pi / 4 ≤ Real.arctan x := by
      rw [← Real.arctan_one]; exact Real.arctan_strictMono.monotone hx
    have : 2 * Real.log ((1 + x) / 2) ≤ Real.log ((1 + x ^ 2) / 2) := by
      rw [show 2 * Real.log ((1 + x) / 2) = Real.log (((1 + x) / 2) ^ 2) by rw [Real.log_pow]; norm_num]
      apply Real.log_le_log (by positivity)
      nlinarith [sq_nonneg (x - 1)]
    linarith

/-- The height `z` is small against an Obukhov length `-l` if `(1 + 8 z / l)² ≤ R`: both stability functions then
are at most half the logarithm of `R`. -/
theorem psi_mild {z l R : ℝ} (hz : 0 ≤ z) (hl : 0 < l) (hR : (1 + 8 * z / l) ^ 2 ≤ R) {lo : Option ℝ}
    (hlo : ∀ x, lo = some x → x ≤ -l) :
    ∃ pm ph, psiAt z lo .SM = .ok pm ∧ psiAt z lo .SH = .ok ph ∧ psiAt z lo .SV = .ok ph ∧
      0 ≤ pm ∧ pm ≤ Real.log R / 2 ∧ 0 ≤ ph ∧ ph ≤ Real.log R / 2 := by
  have h1 : 1 ≤ 1 + 8 * z / l := by
    have : 0 ≤ 8 * z / l := by positivity
    linarith
  have hlog : Real.log (1 + 8 * z / l) ≤ Real.log R / 2 := by
    have := Real.log_le_log (by positivity) hR
    rw [Real.log_pow] at this
    push_cast at this
    linarith
  have key : ∀ ζ : ℝ, ζ ≤ 0 → -ζ ≤ z / l →
      0 ≤ psiM ζ ∧ psiM ζ ≤ Real.log R / 2 ∧ 0 ≤ psiH ζ ∧ psiH ζ ≤ Real.log R / 2 := by
    intro ζ h0 hb
    obtain ⟨m1, m2⟩ := psiM_unstable_bound h0
    obtain ⟨p1, p2⟩ := psiH_unstable_bound h0
    have : Real.log (1 - 8 * ζ) ≤ Real.log (1 + 8 * z / l) := by
      apply Real.log_le_log (by linarith)
      rw [mul_div_assoc]
      linarith
    exact ⟨m1, by linarith, p1, by linarith⟩
  cases lo with
  | none =>
    obtain ⟨a, b, c, d⟩ := key 0 le_rfl (by rw [neg_zero]; positivity)
    exact ⟨_, _, psi_momentum 0, psi_heat 0, psi_vapour 0, a, b, c, d⟩
  | some x =>
    have hx := hlo x rfl
    have hx0 : x < 0 := by linarith
    obtain ⟨a, b, c, d⟩ := key (z / x) (div_nonpos_of_nonneg_of_nonpos hz hx0.le) (by
      rw [← div_neg]
      exact div_le_div_of_nonneg_left hz hl (by linarith))
    refine ⟨psiM (z / x), psiH (z / x), ?_, ?_, ?_, a, b, c, d⟩
    · unfold psiAt; simp only [hx0.ne, if_false]; exact psi_momentum _
    · unfold psiAt; simp only [hx0.ne, if_false]; exact psi_heat _
    · unfold psiAt; simp only [hx0.ne, if_false]; exact psi_vapour _

/-- One pass in moderately unstable air. -/
theorem hleStep_unstable {k : HleConst} {s : HleSt} {B l Ru Ra : ℝ} (hd : 0 < k.dens) (ht : 0 < k.air_temp)
    (hm : 0 < k.ltsm) (hh : 0 < k.ltsh) (hw : 0 < k.wind_speed) (hz : k.zq = k.za) (hv : k.ltsv = k.ltsh)
    (eB : B = -(k.t_diff / k.air_temp + 0.61 * k.q_diff)) (hB : 0 < B)
    (hl : 0 < l) (el : l ≤ k.wind_speed ^ 2 * k.ltsh / (2 * GRAVITY * B * k.ltsm ^ 2))
    (hzu : 0 ≤ k.zu) (hza : 0 ≤ k.za) (eu : k.ltsm = Real.log Ru) (ea : k.ltsh = Real.log Ra)
    (hRu : (1 + 8 * k.zu / l) ^ 2 ≤ Ru) (hRa : (1 + 8 * k.za / l) ^ 2 ≤ Ra)
    (hlo : ∀ x, hleLo k s = some x → x ≤ -l) :
    ∃ s' κ, hleStep k s = .ok s' ∧ (∀ x, hleLo k s' = some x → x ≤ -l) ∧
      VON_KARMAN * k.wind_speed / k.ltsm ≤ s'.ustar ∧ s'.ustar ≤ 2 * (VON_KARMAN * k.wind_speed / k.ltsm) ∧
      VON_KARMAN * (VON_KARMAN * k.wind_speed / k.ltsm) * k.dens / k.ltsh ≤ κ ∧
      κ ≤ 4 * (VON_KARMAN * (VON_KARMAN * k.wind_speed / k.ltsm) * k.dens / k.ltsh) ∧
      s'.e = κ * k.q_diff ∧ s'.h = κ * (CP_AIR * k.t_diff) := by
  have hg := grav_pos
  obtain ⟨pm, _, p1, _, _, m1, m2, _⟩ := psi_mild hzu hl hRu hlo
  obtain ⟨_, ph, _, p3, p2, _, _, h1, h2⟩ := psi_mild hza hl hRa hlo
  rw [← hz] at p2
  rw [← eu] at m2
  rw [← ea] at h2
  have d1 : 0 < k.ltsm - pm := by linarith
  have d3 : 0 < k.ltsh - ph := by linarith
  have hvk := vk_pos
  have hcp := cpair_pos
  have hn : 0 < VON_KARMAN * k.wind_speed := mul_pos hvk hw
  unfold hleStep
  simp only [p1, p2, p3, bind_ok, pdiv_of_ne d1.ne', hv, pdiv_of_ne d3.ne', pure_ok]
  have u1 : VON_KARMAN * k.wind_speed / k.ltsm ≤ VON_KARMAN * k.wind_speed / (k.ltsm - pm) :=
    div_le_div_of_nonneg_left hn.le d1 (by linarith)
  have u2 : VON_KARMAN * k.wind_speed / (k.ltsm - pm) ≤ 2 * (VON_KARMAN * k.wind_speed / k.ltsm) := by
    rw [← mul_div_assoc, div_le_div_iff₀ d1 hm]
    nlinarith
  have eun : l * (VON_KARMAN ^ 2 * (2 * GRAVITY * B)) ≤ (VON_KARMAN * k.wind_speed / k.ltsm) ^ 2 * k.ltsh := by
    calc _ ≤ k.wind_speed ^ 2 * k.ltsh / (2 * GRAVITY * B * k.ltsm ^ 2) * (VON_KARMAN ^ 2 * (2 * GRAVITY * B)) := by
          gcongr
      _ = _ := by field_simp
  have hun : 0 < VON_KARMAN * k.wind_speed / k.ltsm := div_pos hn hm
  generalize VON_KARMAN * k.wind_speed / (k.ltsm - pm) = us at u1 u2
  generalize VON_KARMAN * k.wind_speed / k.ltsm = un at u1 u2 hun eun
  have hus : 0 < us := lt_of_lt_of_le hun u1
  have eAV : AV = 1 := rfl
  have eAH : AH = 1 := rfl
  have e1 : k.q_diff * (VON_KARMAN * us * k.dens) * AV / (k.ltsh - ph) =
      VON_KARMAN * us * k.dens / (k.ltsh - ph) * k.q_diff := by rw [eAV]; ring
  have e2 : k.t_diff * (VON_KARMAN * us * k.dens) * AH * CP_AIR / (k.ltsh - ph) =
      VON_KARMAN * us * k.dens / (k.ltsh - ph) * (CP_AIR * k.t_diff) := by rw [eAH]; ring
  refine ⟨_, VON_KARMAN * us * k.dens / (k.ltsh - ph), rfl, ?_, u1, u2, ?_, ?_, e1, e2⟩
  · intro x hx
    unfold hleLo at hx
    simp only [e1, e2] at hx
    have eb : VON_KARMAN * us * k.dens / (k.ltsh - ph) * (CP_AIR * k.t_diff) / (k.air_temp * CP_AIR) +
        0.61 * (VON_KARMAN * us * k.dens / (k.ltsh - ph) * k.q_diff) =
        -(VON_KARMAN * us * k.dens / (k.ltsh - ph) * B) := by
      rw [eB]; field_simp
      try ring
    rw [eb] at hx
    split at hx
    · cases hx
    cases hx
    have : us * us * us * k.dens / (VON_KARMAN * GRAVITY * -(VON_KARMAN * us * k.dens / (k.ltsh - ph) * B)) =
        -(us ^ 2 * (k.ltsh - ph) / (VON_KARMAN ^ 2 * GRAVITY * B)) := by
      have := hd.ne'; have := hus.ne'; have := d3.ne'; have := hvk.ne'; have := hg.ne'; have := hB.ne'
      field_simp
    rw [this, neg_le_neg_iff, le_div_iff₀ (by positivity)]
    have : un ^ 2 ≤ us ^ 2 := by gcongr
    have : un ^ 2 * k.ltsh ≤ us ^ 2 * (2 * (k.ltsh - ph)) :=
      mul_le_mul this (by linarith) hh.le (by positivity)
    nlinarith
  · rw [div_le_div_iff₀ hh d3]
    have : VON_KARMAN * un * k.dens ≤ VON_KARMAN * us * k.dens := by gcongr
    exact mul_le_mul this (by linarith) d3.le (by positivity)
  · rw [← mul_div_assoc, div_le_div_iff₀ d3 hh]
    have : VON_KARMAN * us * k.dens ≤ VON_KARMAN * (2 * un) * k.dens := by gcongr
    calc _ ≤ VON_KARMAN * (2 * un) * k.dens * (2 * (k.ltsh - ph)) :=
          mul_le_mul this (by linarith) hh.le (by positivity)
      _ = _ := by ring

/-- First guesses `u`, `f` of friction velocity and momentum factor whose Obukhov length is not shorter than `l`,
in air of density `ρ` and buoyancy `-B` and with the temperature profile `P`: none, both zero (after calm air), or
positive ones with `l ≤ ρ u³ P / (0.41 g B f)`. -/
def GuessWindy (init_ustar init_factor : Option ℝ) (l ρ B P : ℝ) : Prop :=
  (init_ustar = none ∧ init_factor = none) ∨ (init_ustar = some 0 ∧ init_factor = some 0) ∨
  ∃ u f, init_ustar = some u ∧ init_factor = some f ∧ 0 < u ∧ 0 < f ∧
    l * (0.41 * GRAVITY * B * f) ≤ ρ * u ^ 3 * P

/-- C67: moderately unstable air.  For every valid input with wind, temperature and humidity measured at one
height, heights above 5.9 roughness lengths and air heavier than the air at the surface by the relative buoyancy
`B`, for which a length `l ≤ U² ln((za - d)/z0) / (2 g B ln²((zu - d)/z0))` is not small against the instrument
heights - `(1 + 8 z / l)² ≤ (z - d) / z0` - and first guesses of no shorter Obukhov length: `hle1` returns, the
friction velocity is between one and two times that of the neutral profile, and heat and vapour flux are the
differences in heat and humidity times one exchange coefficient, between one and four times that of the neutral
profile. -/
theorem C67_moderately_unstable (a : HleIn) (v : HleValid a) (hu : 5.9 * a.z0 < a.zu)
    (ha : 5.9 * a.z0 < a.za) (hq : a.zq = a.za) (hw : 0 < a.wind_speed) (ht : a.theta ≠ a.surface_temp)
    (sat : ℝ) (hs : satw a.air_temp = .ok sat) (B l un ρ : ℝ)
    (eB : B = -((a.theta - a.surface_temp) / a.theta +
      0.61 * (vapourFraction (min a.ea sat) a.press - vapourFraction a.es a.press))) (hB : 0 < B)
    (hl : 0 < l) (el : l ≤ a.wind_speed ^ 2 * a.profile a.za / (2 * GRAVITY * B * a.profile a.zu ^ 2))
    (hlu : (1 + 8 * a.zu / l) ^ 2 ≤ (a.zu - 4.9 * a.z0) / a.z0)
    (hla : (1 + 8 * a.za / l) ^ 2 ≤ (a.za - 4.9 * a.z0) / a.z0)
    (eun : un = 0.41 * a.wind_speed / a.profile a.zu) (eρ : ρ = a.density (min a.ea sat))
    (hg : GuessWindy a.init_ustar a.init_factor l ρ B (a.profile a.za)) :
    ∃ r κ, hle1 a = .ok r ∧ un ≤ r.ustar ∧ r.ustar ≤ 2 * un ∧ r.factor = 0.41 * r.ustar * ρ ∧ 0 < un ∧ 0 < κ ∧
      0.41 * un * ρ / a.profile a.za ≤ κ ∧ κ ≤ 4 * (0.41 * un * ρ / a.profile a.za) ∧
      r.h = κ * (CP_AIR * (a.theta - a.surface_temp)) ∧
      r.e = κ * (vapourFraction (min a.ea sat) a.press - vapourFraction a.es a.press) := by
  obtain ⟨w, hw', hc⟩ := hleCheck_of v
  rw [hs] at hw'
  cases hw'
  obtain ⟨k, hk, hd, _⟩ := hleConst_of v hc
  obtain ⟨qa, qs, vt, q1, q2, q3, q4, q5, q6, q7, q8, q9, _, l1, l2, l3, _⟩ := hleConst_ok hk
  have et : k.air_temp = a.theta := q4
  have hlog : ∀ z : ℝ, Real.log ((z - 2 * PAESCHKE * a.z0 / 3) / a.z0) = a.profile z := fun z => by
    unfold HleIn.profile PAESCHKE
    congr 2; ring
  rw [hlog] at l1 l2 l3
  rw [spec_hum_spec q1, spec_hum_spec q2] at q3
  have hpos : ∀ z : ℝ, 5.9 * a.z0 < z → 0 < a.profile z := fun z hz => by
    rw [← hlog]; exact Real.log_pos ((profileArg_gt_one v.z0).mpr hz)
  have hz0 := v.z0
  have hm : 0 < k.ltsm := by rw [l1]; exact hpos _ hu
  have hh : 0 < k.ltsh := by rw [l2]; exact hpos _ ha
  have hvh : k.ltsv = k.ltsh := by rw [l2, l3, hq]
  have hvk := vk_pos
  have hcp := cpair_pos
  have hgr := grav_pos
  have hta : 0 < k.air_temp := by
    rw [q4]
    have := mul_pos dalr_pos (show 0 < a.za by linarith)
    have := v.air
    linarith
  rw [← density_of hk] at eρ
  have eun' : un = VON_KARMAN * k.wind_speed / k.ltsm := by rw [eun, l1, q9]; rfl
  have hkw : 0 < k.wind_speed := by rw [q9]; exact hw
  have eB' : B = -(k.t_diff / k.air_temp + 0.61 * k.q_diff) := by rw [eB, q5, et, q3]
  have el' : l ≤ k.wind_speed ^ 2 * k.ltsh / (2 * GRAVITY * B * k.ltsm ^ 2) := by rw [l1, l2, q9]; exact el
  have hstep := fun s (hlo : ∀ x, hleLo k s = some x → x ≤ -l) =>
    hleStep_unstable (s := s) (Ru := (a.zu - 4.9 * a.z0) / a.z0) (Ra := (a.za - 4.9 * a.z0) / a.z0)
      hd hta hm hh hkw (by rw [q6, q7, hq]) hvh eB' hB hl el' (by rw [q8]; linarith) (by rw [q6]; linarith)
      l1 l2 (by rw [q8]; exact hlu) (by rw [q6]; exact hla) hlo
  obtain ⟨us, f, s1, s2, s3, s4, hsol⟩ := hleSolve_start (a := a) (k := k) (by rw [et]; exact ht)
    hm.ne' (by rw [hvh]; exact hh.ne') hh.ne'
  have hun : 0 < un := by rw [eun']; positivity
  have eunl : l * (VON_KARMAN ^ 2 * (2 * GRAVITY * B)) ≤ un ^ 2 * k.ltsh := by
    rw [eun']
    calc _ ≤ k.wind_speed ^ 2 * k.ltsh / (2 * GRAVITY * B * k.ltsm ^ 2) * (VON_KARMAN ^ 2 * (2 * GRAVITY * B)) := by
          gcongr
      _ = _ := by field_simp
  have hst : ∀ x, hleLo k { lo := none, ustar := us, factor := f, e := k.q_diff * f * AV / k.ltsv,
                            h := k.t_diff * f * CP_AIR * AH / k.ltsh } = some x → x ≤ -l := by
    have hg' : (us = 0 ∧ f = 0) ∨ (0 < us ∧ 0 < f ∧ l * (VON_KARMAN * GRAVITY * B * f) ≤ ρ * us ^ 3 * k.ltsh) := by
      rcases hg with ⟨g1, g2⟩ | ⟨g1, g2⟩ | ⟨u, x, g1, g2, g3, g4, g5⟩
      · have t1 := s1 g1
        have t2 := s3 g2
        rw [← q9, ← eun'] at t1
        right
        rw [t2, t1, eρ]
        refine ⟨hun, by positivity, ?_⟩
        have h1 : l * (VON_KARMAN ^ 2 * (2 * GRAVITY * B)) * (un * k.dens) ≤ un ^ 2 * k.ltsh * (un * k.dens) := by
          gcongr
        have h2 : 0 ≤ l * (VON_KARMAN ^ 2 * (GRAVITY * B)) * (un * k.dens) := by positivity
        nlinarith
      · exact .inl ⟨s2 0 g1, s4 0 g2⟩
      · right
        rw [s2 u g1, s4 x g2, l2]; exact ⟨g3, g4, g5⟩
    intro x hx
    unfold hleLo at hx
    dsimp only at hx
    rw [show AV = 1 from rfl, show AH = 1 from rfl, hvh] at hx
    have eb : k.t_diff * f * CP_AIR * 1 / k.ltsh / (k.air_temp * CP_AIR) + 0.61 * (k.q_diff * f * 1 / k.ltsh) =
        -(f / k.ltsh * B) := by
      rw [eB']; field_simp
      try ring
    rw [eb] at hx
    rcases hg' with ⟨g1, g2⟩ | ⟨g1, g2, g3⟩
    · rw [g2] at hx
      simp at hx
    rw [if_neg (by
      have : 0 < f / k.ltsh * B := by positivity
      have := hvk.ne'; have := hgr.ne'
      simp only [ne_eq, mul_eq_zero, neg_eq_zero, not_or]
      exact ⟨⟨by assumption, by assumption⟩, ⟨by positivity, by positivity⟩⟩)] at hx
    cases hx
    have : us * us * us * k.dens / (VON_KARMAN * GRAVITY * -(f / k.ltsh * B)) =
        -(us ^ 3 * k.dens * k.ltsh / (VON_KARMAN * GRAVITY * f * B)) := by
      have := hvk.ne'; have := hgr.ne'; have := g2.ne'; have := hB.ne'; have := hh.ne'
      field_simp
    rw [this, neg_le_neg_iff, le_div_iff₀ (by positivity)]
    rw [eρ] at g3
    calc _ = l * (VON_KARMAN * GRAVITY * B * f) := by ring
      _ ≤ _ := g3
      _ = _ := by ring
  obtain ⟨it, s, hlp⟩ := hleLoop_inv (P := fun s => ∀ x, hleLo k s = some x → x ≤ -l)
    (fun s hs => by obtain ⟨s', _, h1, h2, _⟩ := hstep s hs; exact ⟨s', h1, h2⟩) ITMAX 0 _ hst
  obtain ⟨s0, hs0, hlast⟩ := hleLoop_prev (P := fun s => ∀ x, hleLo k s = some x → x ≤ -l) (n := 49)
    (fun s s' hs h => by
      obtain ⟨s2, _, h1, h2, _⟩ := hstep s hs
      rw [h] at h1; cases h1; exact h2) _ _ _ _ hst hlp
  obtain ⟨s', κ, h1, _, h3, h4, h5, h6, h7, h8⟩ := hstep s0 hs0
  rw [hlast] at h1
  cases h1
  obtain ⟨_, _, _, _, _, _, _, _, _, _, _, hfac, _⟩ := hleStep_ok hlast
  rw [hlp] at hsol
  have hr : hle1 a = hleFinish a (some it) s := by
    unfold hle1
    rw [hc, bind_ok, hk, bind_ok, hsol]
    rfl
  rw [← eun'] at h3 h4 h5 h6
  rw [← eρ, l2] at h5 h6
  have hρ : 0 < ρ := by rw [eρ]; exact hd
  have hpa := hpos _ ha
  refine ⟨_, κ, hr, h3, h4, by rw [eρ]; exact hfac, hun, lt_of_lt_of_le (by unfold VON_KARMAN at *; positivity) h5, h5, h6, ?_, ?_⟩
  · show s.h = _
    rw [h8, q5, et]
  · show s.e = _
    rw [h7, q3]

/-- An input for the examples: air over a slightly warmer surface in strong wind. -/
def unstableIn : HleIn :=
  { calmIn with wind_speed := 10, surface_temp := BOIL + 1, ea := 20, es := 20, air_temp := BOIL
                zu := 4, za := 4, zq := 4, z0 := 0.4, press := 101324.6 }

/-- C67: strong wind over a slightly warmer surface is moderately unstable: heat leaves the surface. -/
example : ∃ r, hle1 unstableIn = .ok r ∧ r.h < 0 := by
  have v : HleValid unstableIn := by
    refine ⟨?_, ?_, ?_, ?_, boil_pos, ?_, ?_, ?_, ?_, ?_, fun w hw => ?_⟩ <;> first
      | (norm_num [unstableIn, BOIL]; done)
      | (have := satw_value_pos hw; simp only [unstableIn]; linarith)
  have hth : unstableIn.theta - unstableIn.surface_temp = GRAVITY / CP_AIR * 4 - 1 := by
    simp only [HleIn.theta, unstableIn]; ring
  have hth0 : 373 ≤ unstableIn.theta := by
    have h : unstableIn.theta = BOIL + GRAVITY / CP_AIR * 4 := rfl
    have := mul_pos (div_pos grav_pos cpair_pos) (show (0:ℝ) < 4 by norm_num)
    rw [h]
    have : (373 : ℝ) ≤ BOIL := by norm_num [BOIL]
    linarith
  have hm : min unstableIn.ea SEA_LEVEL = 20 := by
    rw [show unstableIn.ea = 20 from rfl]; exact min_eq_left (by norm_num [SEA_LEVEL])
  have hg1 : GRAVITY / CP_AIR * 4 < 0.5 := by norm_num [GRAVITY, CP_AIR]
  have hg2 : 0 < GRAVITY / CP_AIR * 4 := by norm_num [GRAVITY, CP_AIR]
  have hB0 : (unstableIn.theta - unstableIn.surface_temp) / unstableIn.theta +
      0.61 * (vapourFraction (min unstableIn.ea SEA_LEVEL) unstableIn.press -
        vapourFraction unstableIn.es unstableIn.press) = -((1 - GRAVITY / CP_AIR * 4) / unstableIn.theta) := by
    rw [hm, show unstableIn.es = 20 from rfl, sub_self, mul_zero, add_zero, hth, ← neg_div, neg_sub]
  have hB1 : 0 < (1 - GRAVITY / CP_AIR * 4) / unstableIn.theta := div_pos (by linarith) (by linarith)
  have hB2 : (1 - GRAVITY / CP_AIR * 4) / unstableIn.theta ≤ 1 / 373 := by
    rw [div_le_div_iff₀ (by linarith) (by norm_num)]; linarith
  have ep : unstableIn.profile 4 = Real.log 5.1 := by
    simp only [HleIn.profile, unstableIn]; norm_num
  have hp1 : 0 < Real.log 5.1 := Real.log_pos (by norm_num)
  have hp2 : Real.log 5.1 ≤ 4.1 := by
    have := Real.log_le_sub_one_of_pos (show (0:ℝ) < 5.1 by norm_num)
    linarith
  obtain ⟨r, κ, h1, _, _, _, _, h2, _, _, h3, _⟩ := C67_moderately_unstable unstableIn v
    (by norm_num [unstableIn]) (by norm_num [unstableIn]) rfl (by norm_num [unstableIn])
    (fun h => by rw [h, sub_self] at hth; linarith) SEA_LEVEL satw_boil
    ((1 - GRAVITY / CP_AIR * 4) / unstableIn.theta) 100 _ _ (by rw [hB0, neg_neg]) hB1 (by norm_num)
    (by
      rw [show unstableIn.za = 4 from rfl, show unstableIn.zu = 4 from rfl, ep,
        show unstableIn.wind_speed = 10 from rfl]
      generalize (1 - GRAVITY / CP_AIR * 4) / unstableIn.theta = B at hB1 hB2
      have hgr : GRAVITY ≤ 10 := by norm_num [GRAVITY]
      have := grav_pos
      rw [le_div_iff₀ (by positivity)]
      have h5 : GRAVITY * B ≤ 10 * (1 / 373) := mul_le_mul hgr hB2 hB1.le (by norm_num)
      have h6 : GRAVITY * B * Real.log 5.1 ≤ 10 * (1 / 373) * 4.1 := mul_le_mul h5 hp2 hp1.le (by norm_num)
      have h7 : GRAVITY * B * Real.log 5.1 * Real.log 5.1 ≤ 10 * (1 / 373) * 4.1 * Real.log 5.1 := by gcongr
      nlinarith)
    (by norm_num [unstableIn]) (by norm_num [unstableIn]) rfl rfl (.inl ⟨rfl, rfl⟩)
  refine ⟨r, h1, ?_⟩
  rw [h3, hth]
  have := mul_pos h2 cpair_pos
  nlinarith

/-- C67: the turbulent-transfer routine of a step completes in moderately unstable air. -/
theorem C67_turbulence_unstable (c : Env) (p : Phys) (hz0 : 0 < c.z_0) {zu zt sv es w θ B l un ρ : ℝ}
    (ezu : zu = if c.relative_hts then c.z_u else c.z_u - p.snow.z_s)
    (ezt : zt = if c.relative_hts then c.z_t else c.z_t - p.snow.z_s)
    (hzu : 5.9 * c.z_0 < zu) (hzt : 5.9 * c.z_0 < zt)
    (hw : 0 < p.input1.u) (hta : 0 < p.input1.t_a) (hts : 0 < p.snow.t_s_0) (hea : 0 < p.input1.e_a)
    (hsv : sati p.input1.t_a = .ok sv) (hes : sati p.snow.t_s_0 = .ok es) (hsw : satw p.input1.t_a = .ok w)
    (hP : min p.input1.e_a sv < c.P_a) (hP' : es < c.P_a)
    (eθ : θ = p.input1.t_a + GRAVITY / CP_AIR * zt) (hne : θ ≠ p.snow.t_s_0)
    (eB : B = -((θ - p.snow.t_s_0) / θ +
      0.61 * (vapourFraction (min (min p.input1.e_a sv) w) c.P_a - vapourFraction es c.P_a))) (hB : 0 < B)
    (hl : 0 < l)
    (el : l ≤ p.input1.u ^ 2 * Real.log ((zt - 4.9 * c.z_0) / c.z_0) /
      (2 * GRAVITY * B * Real.log ((zu - 4.9 * c.z_0) / c.z_0) ^ 2))
    (hlu : (1 + 8 * zu / l) ^ 2 ≤ (zu - 4.9 * c.z_0) / c.z_0)
    (hlt : (1 + 8 * zt / l) ^ 2 ≤ (zt - 4.9 * c.z_0) / c.z_0)
    (eun : un = 0.41 * p.input1.u / Real.log ((zu - 4.9 * c.z_0) / c.z_0))
    (eρ : ρ = moistDensity (√(min (min p.input1.e_a sv) w * es)) c.P_a (√(θ * p.snow.t_s_0)))
    (hguess : GuessWindy p.init_ustar p.init_factor l ρ B (Real.log ((zt - 4.9 * c.z_0) / c.z_0))) :
    ∃ r κ, h_le c p = .ok (r, { p with input1 := { p.input1 with e_a := min p.input1.e_a sv }
                                       init_ustar := some r.ustar, init_factor := some r.factor }) ∧
      un ≤ r.ustar ∧ r.ustar ≤ 2 * un ∧ r.factor = 0.41 * r.ustar * ρ ∧ 0 < κ ∧
      0.41 * un * ρ / Real.log ((zt - 4.9 * c.z_0) / c.z_0) ≤ κ ∧
      κ ≤ 4 * (0.41 * un * ρ / Real.log ((zt - 4.9 * c.z_0) / c.z_0)) ∧
      r.h = κ * (CP_AIR * (θ - p.snow.t_s_0)) ∧
      r.e = κ * (vapourFraction (min (min p.input1.e_a sv) w) c.P_a - vapourFraction es c.P_a) := by
  obtain ⟨a, ha⟩ : ∃ a : HleIn, a = { press := c.P_a, air_temp := p.input1.t_a, surface_temp := p.snow.t_s_0
                                      za := zt, ea := min p.input1.e_a sv, es := es, zq := zt
                                      wind_speed := p.input1.u, zu := zu
                                      z0 := c.z_0, init_ustar := p.init_ustar
                                      init_factor := p.init_factor } := ⟨_, rfl⟩
  have eth : a.theta = θ := by rw [eθ, ha]; rfl
  have v : HleValid a := by
    rw [ha]
    exact ⟨hz0, by dsimp only; linarith, by dsimp only; linarith, by dsimp only; linarith, hta, hts,
      lt_min hea (sati_value_pos hsv), sati_value_pos hes, hP, hP', fun w' hw'' => by
        rw [hsw] at hw''; cases hw''; exact (sub_le_sub_right (min_le_right _ _) 25).trans (C35_ice_within_tolerance _ _ _ hsv hsw)⟩
  obtain ⟨r, κ, hr, k1, k2, k3, _, k4, k5, k6, k7, k8⟩ := C67_moderately_unstable a v (by rw [ha]; exact hzu)
    (by rw [ha]; exact hzt) (by rw [ha]) (by rw [ha]; exact hw) (by rw [eth, ha]; exact hne) w
    (by rw [ha]; exact hsw) B l un ρ (by rw [eth, ha]; exact eB) hB hl (by unfold HleIn.profile; rw [ha]; exact el)
    (by rw [ha]; exact hlu) (by rw [ha]; exact hlt) (by unfold HleIn.profile; rw [ha]; exact eun)
    (by unfold HleIn.density; rw [eth, ha]; exact eρ) (by unfold HleIn.profile; rw [ha]; exact hguess)
  rw [eth] at k7
  refine ⟨r, κ, ?_, k1, k2, k3, k4, ?_, ?_, by rw [k7, ha], by rw [k8, ha]⟩
  · have hi : (if p.input1.e_a > sv then { p.input1 with e_a := sv } else p.input1) =
        { p.input1 with e_a := min p.input1.e_a sv } := by
      split
      · rename_i h; rw [min_eq_right h.le]
      · rename_i h; rw [min_eq_left (not_lt.mp h)]
    rw [ha] at hr
    unfold h_le InputData.sat_vp Snow.e_s_0
    rw [hsv, bind_ok]
    dsimp only
    rw [hi, hes, bind_ok]
    dsimp only
    rw [← ezu, ← ezt, hr, bind_ok, if_neg (by rw [hle1_status hr]; simp)]
    rfl
  · unfold HleIn.profile at k5; rw [ha] at k5; exact k5
  · unfold HleIn.profile at k6; rw [ha] at k6; exact k6

/-- C67, run step: in every run step that starts with snow on the ground, in wind and moderately unstable air
(as in `C67_moderately_unstable`, the first guesses being those carried from the step before), sensible heat and
vapour flux are the differences in heat and humidity between air and snow surface times one coefficient between
one and four times that of the neutral profile. -/
theorem C67_exchange_step (g : Config) (rows : List Rec) (ls : List (List (RStep Phys))) (m : Model)
    (h : RunTrace g rows ls m) (c : Env) (hc : mkEnv g = .ok c) : ∀ l ∈ ls, ∀ x ∈ l, 0 < x.pre.snow.layer_count →
      ∀ zu zt θ B lm un ρ sat es Pu Pt Δq : ℝ,
        zu = g.z_u - x.pre.snow.z_s → zt = g.z_t - x.pre.snow.z_s →
        satw x.post.input1.t_a = .ok sat → sati x.pre.snow.t_s_0 = .ok es →
        θ = x.post.input1.t_a + GRAVITY / CP_AIR * zt →
        Δq = vapourFraction (min x.post.input1.e_a sat) c.P_a - vapourFraction es c.P_a →
        Pu = Real.log ((zu - 4.9 * g.init_z_0) / g.init_z_0) → Pt = Real.log ((zt - 4.9 * g.init_z_0) / g.init_z_0) →
        B = -((θ - x.pre.snow.t_s_0) / θ + 0.61 * Δq) → un = 0.41 * x.post.input1.u / Pu →
        ρ = moistDensity (√(min x.post.input1.e_a sat * es)) c.P_a (√(θ * x.pre.snow.t_s_0)) →
        0 < x.post.input1.u → 5.9 * g.init_z_0 < zu → 5.9 * g.init_z_0 < zt → 0 < B →
        0 < lm → lm ≤ x.post.input1.u ^ 2 * Pt / (2 * GRAVITY * B * Pu ^ 2) →
        (1 + 8 * zu / lm) ^ 2 ≤ (zu - 4.9 * g.init_z_0) / g.init_z_0 →
        (1 + 8 * zt / lm) ^ 2 ≤ (zt - 4.9 * g.init_z_0) / g.init_z_0 →
        GuessWindy x.pre.init_ustar x.pre.init_factor lm ρ B Pt →
        ∃ κ u, x.post.init_ustar = some u ∧ un ≤ u ∧ u ≤ 2 * un ∧ x.post.init_factor = some (0.41 * u * ρ) ∧
          0 < κ ∧ 0.41 * un * ρ / Pt ≤ κ ∧ κ ≤ 4 * (0.41 * un * ρ / Pt) ∧
          x.post.snow.en.H = κ * (CP_AIR * (θ - x.pre.snow.t_s_0)) ∧ x.post.snow.E = κ * Δq := by
  obtain ⟨c', ts, hc', hts, hx⟩ := trace_guess h
  rw [hc] at hc'
  cases hc'
  intro l hl x hxl hlc zu zt θ B lm un ρ sat es Pu Pt Δq ezu ezt hsat hes eθ eΔ ePu ePt eB eun eρ hu h59u h59t hB
    hlm elm hlu hlt hgw
  obtain ⟨d, _, hs⟩ := hx l hl x hxl
  rcases stepPhys_energy hs with ⟨_, r, p1, G, G0, M, h1, _, _, hE, hen⟩ | ⟨h0, _⟩
  swap
  · omega
  have hp1 : x.post.input1 = p1.input1 ∧ x.post.init_ustar = p1.init_ustar ∧ x.post.init_factor = p1.init_factor := by
    obtain ⟨q, k1, _, k3⟩ := stepPhys_ok hs
    rcases energy_balance_ok k1 with ⟨_, r', q', _, _, _, k4, _, _, e⟩ | ⟨h0, _⟩
    · rw [h1] at k4
      cases k4
      rw [k3, e]
      exact ⟨rfl, rfl, rfl⟩
    · exact absurd h0 hlc.ne'
  obtain ⟨hp1, hp2, hp3⟩ := hp1
  obtain ⟨sv, es', hsv, hes', e1, e2, i1, i2, _, hh⟩ := h_le_ok h1
  have : es' = es := by
    have : sati x.pre.snow.t_s_0 = .ok es' := hes'
    rw [hes] at this; cases this; rfl
  subst this
  have hH : x.post.snow.en.H = r.h := by rw [hen]
  obtain ⟨ez1, ez2, ez3, ez4⟩ : c.z_t = g.z_t ∧ c.z_u = g.z_u ∧ c.z_0 = g.init_z_0 ∧ c.relative_hts = false := by
    unfold mkEnv at hc
    obtain ⟨P, _, hc⟩ := bind_eq_ok.mp hc
    simp only [pure_ok, Except.ok.injEq] at hc
    rw [← hc]
    exact ⟨rfl, rfl, rfl, rfl⟩
  have eta : x.post.input1.t_a = (applied d x.pre.input1).t_a := by rw [hp1, e1]
  have eea : x.post.input1.e_a = min (applied d x.pre.input1).e_a sv := by rw [hp1, e1]
  have eu : x.post.input1.u = (applied d x.pre.input1).u := by rw [hp1, e1]
  obtain ⟨a, hadef⟩ : ∃ a : HleIn, a = { press := c.P_a, air_temp := x.post.input1.t_a
                                         surface_temp := x.pre.snow.t_s_0
                                         za := zt
                                         ea := x.post.input1.e_a, es := es'
                                         zq := zt
                                         wind_speed := x.post.input1.u
                                         zu := zu
                                         z0 := g.init_z_0, init_ustar := x.pre.init_ustar
                                         init_factor := x.pre.init_factor } := ⟨_, rfl⟩
  have hra : hle1 a = .ok r := by
    rw [hadef, eta, eea, eu, ezu, ezt]
    simp only [ez4, ez1, ez2, ez3] at hh
    exact hh
  have v := hle1_valid hra
  have eth : a.theta = θ := by rw [eθ, hadef]; rfl
  have hne : a.theta ≠ a.surface_temp := fun he => C32_neutral_never_returns a he r hra
  have epu : a.profile a.zu = Pu := by unfold HleIn.profile; rw [ePu, hadef]
  have ept : a.profile a.za = Pt := by unfold HleIn.profile; rw [ePt, hadef]
  obtain ⟨r', κ, hr', k1, k2, k3, _, k4, k5, k6, k7, k8⟩ := C67_moderately_unstable a v (by rw [hadef]; exact h59u)
    (by rw [hadef]; exact h59t) (by rw [hadef]) (by rw [hadef]; exact hu) hne sat (by rw [hadef]; exact hsat)
    B lm un ρ (by rw [eth, hadef]; rw [eΔ] at eB; exact eB) hB hlm (by rw [epu, ept, hadef]; exact elm)
    (by rw [hadef]; exact hlu) (by rw [hadef]; exact hlt) (by rw [epu, hadef]; exact eun)
    (by unfold HleIn.density; rw [eth, hadef]; exact eρ) (by rw [ept, hadef]; exact hgw)
  rw [hra] at hr'
  cases hr'
  rw [ept] at k5 k6
  refine ⟨κ, r.ustar, by rw [hp2, i1], k1, k2, by rw [hp3, i2, k3], k4, k5, k6, ?_, ?_⟩
  · rw [hH, k7, eth, hadef]
  · rw [hE, k8, eΔ, hadef]

end

end Pysnobal
