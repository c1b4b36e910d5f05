import Verif.Lemmas.Hle

/-! # When the parts of the turbulent transfer routine succeed -/

namespace Pysnobal

noncomputable section

theorem freeze_pos : (0 : ℝ) < FREEZE := by norm_num [FREEZE]
theorem boil_pos : (0 : ℝ) < BOIL := by norm_num [BOIL]
theorem vk_pos : (0 : ℝ) < VON_KARMAN := by norm_num [VON_KARMAN]
theorem grav_pos : (0 : ℝ) < GRAVITY := by norm_num [GRAVITY]
theorem cpair_pos : (0 : ℝ) < CP_AIR := by norm_num [CP_AIR]
theorem rgas_pos : (0 : ℝ) < RGAS := by norm_num [RGAS]
theorem dalr_pos : (0 : ℝ) < DALR := div_pos grav_pos cpair_pos
theorem molair_pos : (0 : ℝ) < MOL_AIR := by norm_num [MOL_AIR]
theorem molh2o_pos : (0 : ℝ) < MOL_H2O := by norm_num [MOL_H2O]
theorem molh2o_lt : MOL_H2O < MOL_AIR := by norm_num [MOL_H2O, MOL_AIR]

theorem satw_pos_eq {t : ℝ} (h : 0 < t) :
    satw t = .ok ((10 : ℝ) ^ satwExp t (BOIL / t) (Real.log (BOIL / t))) := by
  unfold satw
  rw [if_neg (not_lt.mpr h.le), pdiv_of_ne h.ne', bind_ok, plog_of_pos (div_pos boil_pos h), bind_ok]
  rfl

/-- `satw` succeeds with a positive value exactly at positive temperatures. -/
theorem satw_ok_iff {t : ℝ} : (∃ v, satw t = .ok v) ↔ 0 < t := by
  unfold satw
  constructor
  · rintro ⟨v, h⟩
    split at h
    · cases h
    · rename_i h0
      obtain ⟨b, hb, _⟩ := bind_eq_ok.mp h
      rw [pdiv_eq_ok] at hb
      exact lt_of_le_of_ne (not_lt.mp h0) (Ne.symm hb.1)
  · intro h
    exact ⟨_, satw_pos_eq h⟩

theorem sati_cold_eq {t : ℝ} (h : 0 < t) (h' : t ≤ FREEZE) :
    sati t = .ok (100 * (10 : ℝ) ^ satiExp t (FREEZE / t) (Real.log (FREEZE / t))) := by
  unfold sati
  rw [if_neg (not_lt.mpr h.le), if_neg (not_lt.mpr h'), pdiv_of_ne h.ne', bind_ok,
    plog_of_pos (div_pos freeze_pos h), bind_ok]
  rfl

theorem sati_warm_eq {t : ℝ} (h : FREEZE < t) : sati t = satw t := by
  unfold sati
  rw [if_neg (not_lt.mpr (freeze_pos.trans h).le), if_pos h]

theorem sati_ok_iff {t : ℝ} : (∃ v, sati t = .ok v) ↔ 0 < t := by
  constructor
  · rintro ⟨v, h⟩
    by_contra hc
    rcases lt_or_eq_of_le (not_lt.mp hc) with h1 | h1
    · simp [sati, h1] at h
    · subst h1
      simp [sati, pdiv, freeze_pos.not_gt] at h
  · intro h
    by_cases h1 : t ≤ FREEZE
    · exact ⟨_, sati_cold_eq h h1⟩
    · rw [sati_warm_eq (not_le.mp h1)]
      exact satw_ok_iff.mpr h

theorem satw_value_pos {t v : ℝ} (h : satw t = .ok v) : 0 < v := by
  have ht := satw_ok_iff.mp ⟨v, h⟩
  rw [satw_pos_eq ht] at h
  cases h
  positivity

theorem sati_value_pos {t v : ℝ} (h : sati t = .ok v) : 0 < v := by
  have ht := sati_ok_iff.mp ⟨v, h⟩
  by_cases h1 : t ≤ FREEZE
  · rw [sati_cold_eq ht h1] at h
    cases h
    positivity
  · rw [sati_warm_eq (not_le.mp h1)] at h
    exact satw_value_pos h

/-- `sati(FREEZE)` is 610.71 exactly. -/
theorem sati_freeze : sati FREEZE = .ok 610.71 := by
  rw [sati_cold_eq freeze_pos (le_refl _)]
  have h1 : FREEZE / FREEZE = 1 := div_self freeze_pos.ne'
  have h2 : satiExp FREEZE 1 (Real.log 1) = Real.log 6.1071 / LOG_10 := by
    simp [satiExp, h1]
  rw [h1, h2]
  congr 1
  have h10 : LOG_10 ≠ 0 := by
    unfold LOG_10
    exact (Real.log_pos (by norm_num)).ne'
  rw [Real.rpow_def_of_pos (by norm_num)]
  have : Real.log 10 * (Real.log 6.1071 / LOG_10) = Real.log 6.1071 := by
    change LOG_10 * _ = _
    field_simp
  rw [this, Real.exp_log (by norm_num)]
  norm_num

theorem spec_hum_of {e P : ℝ} (he : 0 < e) (hP : e < P) :
    ∃ q, spec_hum e P = .ok q ∧ q = e * MOL_H2O / (MOL_AIR * P + e * (MOL_H2O - MOL_AIR)) ∧
      0 < MOL_AIR * P + e * (MOL_H2O - MOL_AIR) := by
  have : 0 < MOL_AIR * P + e * (MOL_H2O - MOL_AIR) := by
    have h1 := molair_pos
    have h2 := molh2o_pos
    nlinarith [mul_pos h1 (sub_pos.mpr hP), mul_pos he h2]
  exact ⟨_, pdiv_of_ne this.ne', rfl, this⟩

/-- Specific humidity is strictly increasing in the vapour pressure. -/
theorem spec_hum_lt {e f P q r : ℝ} (he : 0 < e) (hef : e < f) (hP : f < P)
    (h1 : spec_hum e P = .ok q) (h2 : spec_hum f P = .ok r) : q < r := by
  obtain ⟨q', e1, e2, e3⟩ := spec_hum_of he (hef.trans hP)
  obtain ⟨r', f1, f2, f3⟩ := spec_hum_of (he.trans hef) hP
  rw [h1] at e1; cases e1
  rw [h2] at f1; cases f1
  rw [e2, f2, div_lt_div_iff₀ e3 f3]
  have : 0 < MOL_H2O * MOL_AIR * P * (f - e) :=
    mul_pos (mul_pos (mul_pos molh2o_pos molair_pos) (by linarith)) (by linarith)
  nlinarith

/-- Displacement-corrected height ratio, the argument of the logarithms of `hle1`. -/
def profileArg (z z0 : ℝ) : ℝ := (z - 2 * PAESCHKE * z0 / 3) / z0

theorem profileArg_pos {z z0 : ℝ} (h0 : 0 < z0) : 0 < profileArg z z0 ↔ 4.9 * z0 < z := by
  unfold profileArg PAESCHKE
  rw [div_pos_iff_of_pos_right h0]
  constructor <;> intro h <;> linarith

theorem profileArg_gt_one {z z0 : ℝ} (h0 : 0 < z0) : 1 < profileArg z z0 ↔ 5.9 * z0 < z := by
  unfold profileArg PAESCHKE
  rw [one_lt_div h0]
  constructor <;> intro h <;> linarith

theorem profileArg_eq_one {z z0 : ℝ} (h0 : 0 < z0) : profileArg z z0 = 1 ↔ z = 5.9 * z0 := by
  unfold profileArg PAESCHKE
  rw [div_eq_one_iff_eq h0.ne']
  constructor <;> intro h <;> linarith

/-- Inputs that pass every check of `hle1` (with the documented ranges). -/
structure HleValid (a : HleIn) : Prop where
  z0 : 0 < a.z0
  zu : 4.9 * a.z0 < a.zu
  zq : 4.9 * a.z0 < a.zq
  za : 4.9 * a.z0 < a.za
  air : 0 < a.air_temp
  surf : 0 < a.surface_temp
  ea : 0 < a.ea
  es : 0 < a.es
  eaP : a.ea < a.press
  esP : a.es < a.press
  sat : ∀ w, satw a.air_temp = .ok w → a.ea - 25 ≤ w

theorem hleCheck_of {a : HleIn} (v : HleValid a) :
    ∃ w, satw a.air_temp = .ok w ∧ hleCheck a = .ok (min a.ea w) := by
  obtain ⟨w, hw⟩ := satw_ok_iff.mpr v.air
  refine ⟨w, hw, ?_⟩
  have hz := v.z0
  have h1 : ¬ (a.z0 ≤ 0 ∨ a.zq ≤ a.z0 ∨ a.zu ≤ a.z0 ∨ a.za ≤ a.z0) := by
    have := v.zu; have := v.zq; have := v.za
    push Not
    refine ⟨hz, ?_, ?_, ?_⟩ <;> linarith
  have h2 : ¬ (a.air_temp ≤ 0 ∨ a.surface_temp ≤ 0) := by
    push Not; exact ⟨v.air, v.surf⟩
  have h3 : ¬ (a.ea ≤ 0 ∨ a.es ≤ 0 ∨ a.press ≤ 0 ∨ a.ea ≥ a.press ∨ a.es ≥ a.press) := by
    have := v.ea; have := v.eaP
    push Not
    exact ⟨v.ea, v.es, by linarith, v.eaP, v.esP⟩
  unfold hleCheck
  rw [if_neg h1, if_neg h2, if_neg h3, hw, bind_ok]
  have h4 : ¬ (a.ea - 25 > w) := not_lt.mpr (v.sat w hw)
  simp only [h4, if_false, pure_ok]
  congr 1
  split
  · rename_i h; rw [min_eq_right h.le]
  · rename_i h; rw [min_eq_left (not_lt.mp h)]

theorem virtual_of {t e P : ℝ} (ht : 0 < t) (he : 0 < e) (hP : e < P) :
    ∃ v, virtual_temperature t e P = .ok v ∧ 0 < v := by
  have hP0 : 0 < P := he.trans hP
  unfold virtual_temperature
  rw [pdiv_of_ne hP0.ne', bind_ok]
  have h1 : e / P < 1 := (div_lt_one hP0).mpr hP
  have h2 : 0 < e / P := div_pos he hP0
  have h3 : 0 < MOL_H2O / MOL_AIR := div_pos molh2o_pos molair_pos
  have h5 : MOL_H2O / MOL_AIR < 1 := (div_lt_one molair_pos).mpr molh2o_lt
  have h4 : 0 < 1 - (1 - MOL_H2O / MOL_AIR) * (e / P) := by nlinarith
  exact ⟨_, pdiv_of_ne h4.ne', div_pos ht h4⟩

/-- The part of `hle1` before the loop succeeds for valid inputs, with positive air density. -/
theorem hleConst_of {a : HleIn} (v : HleValid a) {ea : ℝ} (h : hleCheck a = .ok ea) :
    ∃ k, hleConst a ea = .ok k ∧ 0 < k.dens ∧ 0 < ea ∧ ea ≤ a.ea := by
  obtain ⟨w, hw, hc⟩ := hleCheck_of v
  rw [h] at hc; cases hc
  have hea : 0 < min a.ea w := lt_min v.ea (satw_value_pos hw)
  have hle : min a.ea w ≤ a.ea := min_le_left _ _
  have heaP : min a.ea w < a.press := lt_of_le_of_lt hle v.eaP
  have hza : 0 < a.za := by have := v.za; have := v.z0; linarith
  have hta : 0 < a.air_temp + DALR * a.za := by
    have := v.air; have := mul_pos dalr_pos hza; linarith
  obtain ⟨qa, h4, _⟩ := spec_hum_of hea heaP
  obtain ⟨qs, h5, _⟩ := spec_hum_of v.es v.esP
  have hgt : 0 < (a.air_temp + DALR * a.za) * a.surface_temp := mul_pos hta v.surf
  have hge : 0 < min a.ea w * a.es := mul_pos hea v.es
  have hgeP : Real.sqrt (min a.ea w * a.es) < a.press := by
    have hP0 : 0 < a.press := hea.trans heaP
    rw [Real.sqrt_lt' hP0]
    have h1 := mul_lt_mul'' heaP v.esP hea.le v.es.le
    nlinarith
  obtain ⟨vt, h8, hvt⟩ := virtual_of (Real.sqrt_pos.mpr hgt) (Real.sqrt_pos.mpr hge) hgeP
  have hd : RGAS * vt ≠ 0 := (mul_pos rgas_pos hvt).ne'
  have h1 := (profileArg_pos v.z0).mpr v.zu
  have h2 := (profileArg_pos v.z0).mpr v.za
  have h3 := (profileArg_pos v.z0).mpr v.zq
  unfold profileArg at h1 h2 h3
  unfold hleConst
  simp only [plog_of_pos h1, plog_of_pos h2, plog_of_pos h3, bind_ok, h4, h5, psqrt_of_nonneg hgt.le,
    psqrt_of_nonneg hge.le, h8, gas_density, pdiv_of_ne hd, pure_ok]
  refine ⟨_, rfl, ?_, hea, hle⟩
  exact div_pos (mul_pos (hea.trans heaP) molair_pos) (mul_pos rgas_pos hvt)

end

end Pysnobal
