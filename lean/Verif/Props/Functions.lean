import Verif.Lemmas.HleTotal
import Verif.Spatial
import Mathlib.Analysis.Calculus.Deriv.MeanValue
import Mathlib.Analysis.SpecialFunctions.Trigonometric.ArctanDeriv
import Mathlib.Analysis.SpecialFunctions.Log.Deriv
import Mathlib.Analysis.Complex.ExponentialBounds

/-! # C18, C35, C36, C37, C39, C49, C50: properties of the physical functions -/

namespace Pysnobal

noncomputable section

/-! ## C18 -/

theorem cp_ice_pos {t : ℝ} (h : 0 ≤ t) : 0 < cp_ice t := by
  unfold cp_ice CAL_TO_J
  have : (0 : ℝ) < 0.024928 + 0.00176 * t := by linarith
  positivity

/-- C18: the temperature recomputed from a layer's cold content is the temperature the cold content was
computed from. -/
theorem C18_temperature_round_trip (t m : ℝ) (h0 : 0 ≤ t) (h1 : t < FREEZE) (hm : 0 < m) :
    new_tsno m t (cold_content t m) = .ok t := by
  have hc := cp_ice_pos h0
  unfold new_tsno cold_content heat_stor
  dsimp only
  rw [if_pos h1, pdiv_of_ne (mul_pos hm hc).ne', bind_ok, pure_ok]
  congr 1
  field_simp
  ring

/-- C18: conversely the temperature computed from a cold content (with the heat capacity of the previous
temperature) has, at that heat capacity, exactly that cold content. -/
theorem C18_cold_content_round_trip (t m cc x : ℝ) (h0 : 0 ≤ t) (hm : 0 < m)
    (h : new_tsno m t cc = .ok x) : heat_stor (cp_ice t) m (x - FREEZE) = cc := by
  have hc := cp_ice_pos h0
  unfold new_tsno at h
  dsimp only at h
  rw [pdiv_of_ne (mul_pos hm hc).ne', bind_ok] at h
  cases h
  unfold heat_stor
  field_simp
  ring

/-- C18: a layer at or above freezing has no cold content and recomputes to exactly freezing. -/
theorem C18_isothermal (t m : ℝ) (h0 : FREEZE ≤ t) (hm : 0 < m) :
    cold_content t m = 0 ∧ new_tsno m t (cold_content t m) = .ok FREEZE := by
  have hz : cold_content t m = 0 := by
    unfold cold_content; rw [if_neg (not_lt.mpr h0)]
  refine ⟨hz, ?_⟩
  have hc := cp_ice_pos (freeze_pos.le.trans h0)
  unfold new_tsno
  dsimp only
  rw [hz, pdiv_of_ne (mul_pos hm hc).ne', bind_ok, pure_ok, zero_div, zero_add]

/-- non-vacuity -/
example : new_tsno 100 265 (cold_content 265 100) = .ok 265 :=
  C18_temperature_round_trip 265 100 (by norm_num) (by norm_num [FREEZE]) (by norm_num)

/-! ## C35 -/

theorem log10_gt_one : (1 : ℝ) < LOG_10 := by
  unfold LOG_10
  rw [Real.lt_log_iff_exp_lt (by norm_num)]
  have := Real.exp_one_lt_d9
  linarith

/-- `log` is 1-Lipschitz above 1. -/
theorem log_diff_le {u v : ℝ} (hu : 1 ≤ u) (hv : u ≤ v) : Real.log v - Real.log u ≤ v - u := by
  have hu0 : 0 < u := by linarith
  have hv0 : 0 < v := by linarith
  rw [← Real.log_div hv0.ne' hu0.ne']
  have h1 := Real.log_le_sub_one_of_pos (div_pos hv0 hu0)
  have h2 : v / u - 1 = (v - u) / u := by field_simp
  have h3 : (v - u) / u ≤ v - u := div_le_self (by linarith) hu
  linarith

/-- The exponent of `satw` is strictly increasing in the temperature up to the boiling point. -/
theorem satwExp_lt {s t : ℝ} (hs : 0 < s) (hst : s < t) (ht : t ≤ BOIL) :
    satwExp s (BOIL / s) (Real.log (BOIL / s)) < satwExp t (BOIL / t) (Real.log (BOIL / t)) := by
  have ht0 : 0 < t := hs.trans hst
  have hu : 1 ≤ BOIL / t := (one_le_div ht0).mpr ht
  have huv : BOIL / t < BOIL / s := div_lt_div_of_pos_left boil_pos hs hst
  have hlog := log_diff_le hu huv.le
  have hlog' : Real.log (BOIL / t) ≤ Real.log (BOIL / s) := Real.log_le_log (by linarith) huv.le
  have hm1 : (10 : ℝ) ^ (11.344 * (1 - t / BOIL)) ≤ (10 : ℝ) ^ (11.344 * (1 - s / BOIL)) := by
    apply Real.rpow_le_rpow_of_exponent_le (by norm_num)
    have : s / BOIL ≤ t / BOIL := div_le_div_of_nonneg_right hst.le boil_pos.le
    linarith
  have hm2 : (10 : ℝ) ^ (-3.49149 * (BOIL / s - 1)) ≤ (10 : ℝ) ^ (-3.49149 * (BOIL / t - 1)) := by
    apply Real.rpow_le_rpow_of_exponent_le (by norm_num)
    linarith
  have hL := log10_gt_one
  have hL0 : 0 < LOG_10 := by linarith
  have hd : 5.02808 * Real.log (BOIL / s) / LOG_10 - 5.02808 * Real.log (BOIL / t) / LOG_10 ≤
      5.02808 * (BOIL / s - BOIL / t) := by
    rw [← sub_div, ← mul_sub, div_le_iff₀ hL0]
    nlinarith
  unfold satwExp
  linarith

/-- The exponent of `sati` is strictly increasing in the temperature up to freezing. -/
theorem satiExp_lt {s t : ℝ} (hs : 0 < s) (hst : s < t) (ht : t ≤ FREEZE) :
    satiExp s (FREEZE / s) (Real.log (FREEZE / s)) < satiExp t (FREEZE / t) (Real.log (FREEZE / t)) := by
  have ht0 : 0 < t := hs.trans hst
  have hu : 1 ≤ FREEZE / t := (one_le_div ht0).mpr ht
  have huv : FREEZE / t < FREEZE / s := div_lt_div_of_pos_left freeze_pos hs hst
  have hlog' : Real.log (FREEZE / t) ≤ Real.log (FREEZE / s) := Real.log_le_log (by linarith) huv.le
  have hL0 : 0 < LOG_10 := by linarith [log10_gt_one]
  have hd : 3.56654 * Real.log (FREEZE / t) / LOG_10 ≤ 3.56654 * Real.log (FREEZE / s) / LOG_10 :=
    div_le_div_of_nonneg_right (by linarith) hL0.le
  have h1 : t / FREEZE - s / FREEZE ≤ FREEZE / s - FREEZE / t := by
    have hf := freeze_pos
    rw [div_sub_div_same, div_sub_div _ _ hs.ne' ht0.ne', div_le_div_iff₀ hf (mul_pos hs ht0)]
    have h2 : s * t ≤ FREEZE * FREEZE := mul_le_mul (by linarith) ht ht0.le hf.le
    nlinarith [mul_nonneg (sub_nonneg.mpr hst.le) (sub_nonneg.mpr h2)]
  unfold satiExp
  linarith

/-- Just above freezing `satw` already exceeds `sati(FREEZE)` = 610.71. -/
theorem satw_freeze_gt (w : ℝ) (h : satw FREEZE = .ok w) : 610.71 < w := by
  rw [satw_pos_eq freeze_pos] at h
  cases h
  have hL : LOG_10 < 2.302586 := by
    unfold LOG_10
    have h2 := Real.log_two_lt_d9
    have h10 : Real.log 10 = 10 / 3 * Real.log 2 - Real.log (1024 / 1000) / 3 := by
      have : Real.log (1024 / 1000) = Real.log (2 ^ 10) - Real.log (10 ^ 3) := by
        rw [← Real.log_div (by norm_num) (by norm_num)]; norm_num
      rw [this, Real.log_pow, Real.log_pow]
      push_cast
      ring
    have h3 : (0.023716 : ℝ) < Real.log (1024 / 1000) := by
      rw [Real.lt_log_iff_exp_lt (by norm_num)]
      have := Real.exp_bound' (x := 0.023716) (by norm_num) (by norm_num) (n := 6) (by norm_num)
      norm_num [Finset.sum_range_succ, Nat.factorial] at this ⊢
      linarith
    rw [h10]
    linarith
  have hL0 : 0 < LOG_10 := by linarith [log10_gt_one]
  -- the two powers
  have e0 : 1 - FREEZE / BOIL ≤ 0.268 := by norm_num [FREEZE, BOIL]
  have p1 : (10 : ℝ) ^ (11.344 * (1 - FREEZE / BOIL)) ≤ 1102 := by
    have h1 : (10 : ℝ) ^ (11.344 * (1 - FREEZE / BOIL)) ≤ (10 : ℝ) ^ (3.0402592 : ℝ) :=
      Real.rpow_le_rpow_of_exponent_le (by norm_num) (by linarith)
    have h2 : (10 : ℝ) ^ (3.0402592 : ℝ) ≤ (10 : ℝ) ^ (3 + 0.0413 : ℝ) :=
      Real.rpow_le_rpow_of_exponent_le (by norm_num) (by norm_num)
    have h3 : (10 : ℝ) ^ (0.0413 : ℝ) ≤ 1.102 := by
      have h4 : (10 : ℝ) ^ (0.0413 : ℝ) ≤ (10 : ℝ) ^ ((1 / 24 : ℝ)) :=
        Real.rpow_le_rpow_of_exponent_le (by norm_num) (by norm_num)
      have h5 : (10 : ℝ) ^ ((1 / 24 : ℝ)) ≤ ((1.102 : ℝ) ^ (24 : ℕ)) ^ ((1 / 24 : ℝ)) :=
        Real.rpow_le_rpow (by norm_num) (by norm_num) (by norm_num)
      have h6 : ((1.102 : ℝ) ^ (24 : ℕ)) ^ ((1 / 24 : ℝ)) = 1.102 := by
        rw [← Real.rpow_natCast, ← Real.rpow_mul (by norm_num)]
        norm_num
      linarith
    have h9 : (10 : ℝ) ^ (3 + 0.0413 : ℝ) = 1000 * (10 : ℝ) ^ (0.0413 : ℝ) := by
      rw [Real.rpow_add (by norm_num)]
      norm_num
    linarith
  have e1 : BOIL / FREEZE - 1 ≤ 0.36605 := by norm_num [FREEZE, BOIL]
  have p2 : 0.05 ≤ (10 : ℝ) ^ (-3.49149 * (BOIL / FREEZE - 1)) := by
    have h1 : (10 : ℝ) ^ (-(32 / 25) : ℝ) ≤ (10 : ℝ) ^ (-3.49149 * (BOIL / FREEZE - 1)) :=
      Real.rpow_le_rpow_of_exponent_le (by norm_num) (by linarith)
    have h2 : (10 : ℝ) ^ (32 / 25 : ℝ) ≤ 20 := by
      rw [show (32 / 25 : ℝ) = (32 : ℕ) * (1 / 25) by norm_num, Real.rpow_mul (by norm_num),
        Real.rpow_natCast]
      calc ((10 : ℝ) ^ 32) ^ (1 / 25 : ℝ) ≤ ((20 : ℝ) ^ 25) ^ (1 / 25 : ℝ) := by
            apply Real.rpow_le_rpow (by positivity) _ (by norm_num)
            norm_num
        _ = 20 := by
            rw [← Real.rpow_natCast (20 : ℝ) 25, ← Real.rpow_mul (by norm_num)]
            norm_num
    have h3 : (10 : ℝ) ^ (-(32 / 25) : ℝ) = ((10 : ℝ) ^ (32 / 25 : ℝ))⁻¹ := Real.rpow_neg (by norm_num) _
    have h4 : (0 : ℝ) < (10 : ℝ) ^ (32 / 25 : ℝ) := by positivity
    have h5 : (20 : ℝ)⁻¹ ≤ ((10 : ℝ) ^ (32 / 25 : ℝ))⁻¹ := inv_anti₀ h4 h2
    rw [h3] at h1
    norm_num at h5 ⊢
    norm_num at h1
    linarith
  have hr : Real.log (BOIL / FREEZE) > 0.31192 := by
    rw [gt_iff_lt, Real.lt_log_iff_exp_lt (div_pos boil_pos freeze_pos)]
    have := Real.exp_bound' (x := 0.31192) (by norm_num) (by norm_num) (n := 8) (by norm_num)
    norm_num [Finset.sum_range_succ, Nat.factorial, BOIL, FREEZE] at this ⊢
    linarith
  have hq : Real.log (SEA_LEVEL / 610.71) > 5.1114 := by
    rw [gt_iff_lt, Real.lt_log_iff_exp_lt (by norm_num [SEA_LEVEL])]
    have h1 := Real.exp_bound' (x := 0.1114) (by norm_num) (by norm_num) (n := 6) (by norm_num)
    have h2 : Real.exp 5.1114 = Real.exp 1 ^ 5 * Real.exp 0.1114 := by
      rw [← Real.exp_nat_mul, ← Real.exp_add]
      norm_num
    have h3 : Real.exp 1 ^ 5 ≤ 2.7182818286 ^ 5 :=
      pow_le_pow_left₀ (Real.exp_pos _).le Real.exp_one_lt_d9.le 5
    have h4 : Real.exp 0.1114 ≤ 1.117843 := by
      norm_num [Finset.sum_range_succ, Nat.factorial] at h1 ⊢
      linarith
    rw [h2]
    calc Real.exp 1 ^ 5 * Real.exp 0.1114 ≤ 2.7182818286 ^ 5 * 1.117843 :=
          mul_le_mul h3 h4 (Real.exp_pos _).le (by norm_num)
      _ < SEA_LEVEL / 610.71 := by norm_num [SEA_LEVEL]
  have hgoal : Real.log 610.71 / LOG_10 <
      satwExp FREEZE (BOIL / FREEZE) (Real.log (BOIL / FREEZE)) := by
    rw [div_lt_iff₀ hL0]
    unfold satwExp
    rw [Real.log_div (by norm_num [SEA_LEVEL]) (by norm_num)] at hq
    have k1 : (-7.90298 * (BOIL / FREEZE - 1)) * LOG_10 ≥ -7.90298 * 0.36605 * 2.302586 := by
      have : (0 : ℝ) ≤ BOIL / FREEZE - 1 := by norm_num [BOIL, FREEZE]
      nlinarith [mul_le_mul e1 hL.le hL0.le (by norm_num : (0 : ℝ) ≤ 0.36605)]
    have k2 : 5.02808 * Real.log (BOIL / FREEZE) / LOG_10 * LOG_10 = 5.02808 * Real.log (BOIL / FREEZE) := by
      field_simp
    have k3 : LOG_SEA_LEVEL / LOG_10 * LOG_10 = Real.log SEA_LEVEL := by
      unfold LOG_SEA_LEVEL; field_simp
    have k4 : 1.3816e-7 * ((10 : ℝ) ^ (11.344 * (1 - FREEZE / BOIL)) - 1) * LOG_10 ≤
        1.3816e-7 * 1101 * 2.302586 := by
      have h1 : 1.3816e-7 * ((10 : ℝ) ^ (11.344 * (1 - FREEZE / BOIL)) - 1) ≤ 1.3816e-7 * 1101 := by
        nlinarith
      exact mul_le_mul h1 hL.le hL0.le (by norm_num)
    have k5 : 8.1328e-3 * ((10 : ℝ) ^ (-3.49149 * (BOIL / FREEZE - 1)) - 1) * LOG_10 ≥
        8.1328e-3 * (-0.95) * 2.302586 := by
      have h1 : 8.1328e-3 * ((10 : ℝ) ^ (-3.49149 * (BOIL / FREEZE - 1)) - 1) ≥ 8.1328e-3 * (-0.95) := by
        nlinarith
      nlinarith
    have hsum : ∀ a b d e f : ℝ, (a + b - d + e + f) * LOG_10 =
        a * LOG_10 + b * LOG_10 - d * LOG_10 + e * LOG_10 + f * LOG_10 := by intros; ring
    rw [hsum, k2, k3]
    linarith
  rw [← Real.log_lt_log_iff (by norm_num) (by positivity), Real.log_rpow (by norm_num)]
  rw [div_lt_iff₀ hL0] at hgoal
  exact hgoal

/-- C35: the saturation vapour pressure functions raise exactly for temperatures that are not positive:
`ValueError` below zero, `ZeroDivisionError` at zero. -/
theorem C35_domain (t : ℝ) :
    ((∃ v, sati t = .ok v) ↔ 0 < t) ∧ ((∃ v, satw t = .ok v) ↔ 0 < t) ∧
    (t < 0 → sati t = .error .negTemp ∧ satw t = .error .negTemp) ∧
    (t = 0 → sati t = .error .zeroDivision ∧ satw t = .error .zeroDivision) := by
  refine ⟨sati_ok_iff, satw_ok_iff, fun h => ?_, fun h => ?_⟩
  · simp [sati, satw, h]
  · subst h
    simp [sati, satw, pdiv, freeze_pos.not_gt]

/-- C35: saturation vapour pressures are positive. -/
theorem C35_positive (t v : ℝ) : (sati t = .ok v → 0 < v) ∧ (satw t = .ok v → 0 < v) :=
  ⟨sati_value_pos, satw_value_pos⟩

/-- C35: over water, strictly increasing up to the boiling point. -/
theorem C35_satw_increasing (s t v w : ℝ) (hst : s < t) (ht : t ≤ BOIL)
    (hv : satw s = .ok v) (hw : satw t = .ok w) : v < w := by
  have hs := satw_ok_iff.mp ⟨v, hv⟩
  rw [satw_pos_eq hs] at hv
  rw [satw_pos_eq (hs.trans hst)] at hw
  cases hv
  cases hw
  exact Real.rpow_lt_rpow_of_exponent_lt (by norm_num) (satwExp_lt hs hst ht)

/-- C35: over ice (water above freezing), strictly increasing up to the boiling point, including across
the change of formula at the freezing point. -/
theorem C35_sati_increasing (s t v w : ℝ) (hst : s < t) (ht : t ≤ BOIL)
    (hv : sati s = .ok v) (hw : sati t = .ok w) : v < w := by
  have hs := sati_ok_iff.mp ⟨v, hv⟩
  -- below freezing
  have cold : ∀ {a b x y : ℝ}, 0 < a → a < b → b ≤ FREEZE → sati a = .ok x → sati b = .ok y → x < y := by
    intro a b x y ha hab hb hx hy
    rw [sati_cold_eq ha (hab.le.trans hb)] at hx
    rw [sati_cold_eq (ha.trans hab) hb] at hy
    cases hx
    cases hy
    have := Real.rpow_lt_rpow_of_exponent_lt (x := (10 : ℝ)) (by norm_num) (satiExp_lt ha hab hb)
    linarith
  by_cases h1 : t ≤ FREEZE
  · exact cold hs hst h1 hv hw
  · have h1 := not_le.mp h1
    rw [sati_warm_eq h1] at hw
    by_cases h2 : FREEZE < s
    · rw [sati_warm_eq h2] at hv
      exact C35_satw_increasing s t v w hst ht hv hw
    · have h2 := not_lt.mp h2
      have hvf : v ≤ 610.71 := by
        rcases lt_or_eq_of_le h2 with h3 | h3
        · exact (cold hs h3 (le_refl _) hv sati_freeze).le
        · rw [h3, sati_freeze] at hv
          cases hv
          exact le_refl _
      obtain ⟨x, hx⟩ := satw_ok_iff.mpr freeze_pos
      have := satw_freeze_gt x hx
      have := C35_satw_increasing FREEZE t x w h1 ht hx hw
      linarith

/-- C35: the value at the freezing point. -/
theorem C35_freezing_point : sati FREEZE = .ok 610.71 := sati_freeze

/-- C35: below the freezing point the pressure over ice is below 610.71 Pa, above it is above. -/
theorem C35_relative_to_freezing (t v : ℝ) (h : sati t = .ok v) :
    (t < FREEZE → v < 610.71) ∧ (FREEZE < t → t ≤ BOIL → 610.71 < v) := by
  refine ⟨fun ht => ?_, fun ht hb => ?_⟩
  · exact C35_sati_increasing t FREEZE v _ ht (by norm_num [FREEZE, BOIL]) h sati_freeze
  · exact C35_sati_increasing FREEZE t _ v ht hb sati_freeze h

/-- non-vacuity: two temperatures on either side of freezing -/
example : ∃ v w, sati 260 = .ok v ∧ sati 280 = .ok w ∧ v < 610.71 ∧ 610.71 < w := by
  obtain ⟨v, hv⟩ := sati_ok_iff.mpr (by norm_num : (0 : ℝ) < 260)
  obtain ⟨w, hw⟩ := sati_ok_iff.mpr (by norm_num : (0 : ℝ) < 280)
  exact ⟨v, w, hv, hw, (C35_relative_to_freezing _ _ hv).1 (by norm_num [FREEZE]),
    (C35_relative_to_freezing _ _ hw).2 (by norm_num [FREEZE]) (by norm_num [BOIL])⟩

/-! ## C49 -/

/-- C49: the array versions give, element by element, what the scalar versions give at positive
temperatures (and never a number where the scalar version raises). -/
theorem C49_arrays_agree (t : ℝ) :
    (∀ v, sati_np t = some v ↔ sati t = .ok v) ∧ (∀ v, satw_np t = some v ↔ satw t = .ok v) := by
  have hw : ∀ v, satw_np t = some v ↔ satw t = .ok v := by
    intro v
    by_cases h : 0 < t
    · rw [satw_pos_eq h]
      unfold satw_np
      rw [if_neg (by rintro (h1 | h1) <;> linarith)]
      simp [satwExp]
    · have : t < 0 ∨ t = 0 := lt_or_eq_of_le (not_lt.mp h)
      unfold satw_np
      rw [if_pos this]
      constructor
      · intro h'; cases h'
      · intro h'; exact absurd (satw_ok_iff.mp ⟨v, h'⟩) h
  refine ⟨fun v => ?_, hw⟩
  by_cases h : 0 < t
  · have hn : ¬ (t < 0 ∨ t = 0) := by rintro (h1 | h1) <;> linarith
    unfold sati_np
    rw [if_neg hn]
    by_cases h1 : t > FREEZE
    · rw [if_pos h1, sati_warm_eq h1]
      exact hw v
    · rw [if_neg h1, sati_cold_eq h (not_lt.mp h1)]
      simp [satiExp]
  · have : t < 0 ∨ t = 0 := lt_or_eq_of_le (not_lt.mp h)
    unfold sati_np
    rw [if_pos this]
    constructor
    · intro h'; cases h'
    · intro h'; exact absurd (sati_ok_iff.mp ⟨v, h'⟩) h

/-- C49 for whole arrays: if every temperature is positive the array call gives the list of scalar
results. -/
theorem C49_whole_array (ts : List ℝ) (h : ∀ t ∈ ts, 0 < t) :
    ∃ vs : List ℝ, ts.map sati_np = vs.map some ∧ ts.mapM sati = .ok vs := by
  induction ts with
  | nil => exact ⟨[], rfl, rfl⟩
  | cons t ts ih =>
    obtain ⟨vs, h1, h2⟩ := ih (fun x hx => h x (List.mem_cons_of_mem _ hx))
    obtain ⟨v, hv⟩ := sati_ok_iff.mpr (h t (List.mem_cons_self ..))
    refine ⟨v :: vs, ?_, ?_⟩
    · simp [h1, ((C49_arrays_agree t).1 v).mpr hv]
    · simp [List.mapM_cons, hv, h2]

end

end Pysnobal
