import Verif.Props.Functions

/-! # C35: saturation over ice and over water -/

namespace Pysnobal

noncomputable section

theorem log10_lt : LOG_10 < 2.302586 := by
  unfold LOG_10
  have h2 := Real.log_two_lt_d9
  have h10 : Real.log 10 = 10 / 3 * Real.log 2 - Real.log (1024 / 1000) / 3 := by
    have : Real.log (1024 / 1000) = Real.log (2 ^ 10) - Real.log (10 ^ 3) := by
      rw [← Real.log_div (by norm_num) (by norm_num)]; norm_num
    rw [this, Real.log_pow, Real.log_pow]
    push_cast
    ring
  have h3 : (0.023716 : ℝ) < Real.log (1024 / 1000) := by
    rw [Real.lt_log_iff_exp_lt (by norm_num)]
    have := Real.exp_bound' (x := 0.023716) (by norm_num) (by norm_num) (n := 6) (by norm_num)
    norm_num [Finset.sum_range_succ, Nat.factorial] at this ⊢
    linarith
  rw [h10]
  linarith

/-- A decrease of the exponent by `y` lowers the power by at most `y log 10` times the larger power. -/
theorem pow10_sub_le (a : ℝ) {y : ℝ} (_hy : 0 ≤ y) :
    (10 : ℝ) ^ a - (10 : ℝ) ^ (a - y) ≤ (10 : ℝ) ^ a * (LOG_10 * y) := by
  have h0 : (0 : ℝ) < (10 : ℝ) ^ a := by positivity
  have h1 : (10 : ℝ) ^ (a - y) = (10 : ℝ) ^ a * Real.exp (-(LOG_10 * y)) := by
    rw [Real.rpow_def_of_pos (by norm_num), Real.rpow_def_of_pos (by norm_num), ← Real.exp_add]
    unfold LOG_10
    congr 1
    ring
  have h2 := Real.add_one_le_exp (-(LOG_10 * y))
  rw [h1]
  nlinarith

/-- Between 210 K and freezing the exponents differ by at least what they differ by at freezing. -/
theorem exp_gap {t : ℝ} (h0 : 210 ≤ t) (h1 : t ≤ FREEZE) :
    satwExp FREEZE (BOIL / FREEZE) (Real.log (BOIL / FREEZE)) - satiExp FREEZE (FREEZE / FREEZE) (Real.log (FREEZE / FREEZE)) ≤
      satwExp t (BOIL / t) (Real.log (BOIL / t)) - satiExp t (FREEZE / t) (Real.log (FREEZE / t)) := by
  have ht : 0 < t := by linarith
  have hL := log10_lt
  have hL1 := log10_gt_one
  have hL0 : 0 < LOG_10 := by linarith
  obtain ⟨x, hx⟩ : ∃ x, x = FREEZE / t := ⟨_, rfl⟩
  obtain ⟨v, hv⟩ : ∃ v, v = 1 - t / FREEZE := ⟨_, rfl⟩
  have hx1 : 1 ≤ x := by rw [hx]; exact (one_le_div ht).mpr h1
  have hx2 : x ≤ 1.3008 := by
    rw [hx, div_le_iff₀ ht]
    norm_num [FREEZE]
    linarith
  have hx0 : 0 < x := by linarith
  have hvx : v * x = x - 1 := by
    rw [hv, hx]
    have := freeze_pos
    field_simp
  have hv0 : 0 ≤ v := by
    rw [hv]
    have : t / FREEZE ≤ 1 := (div_le_one freeze_pos).mpr h1
    linarith
  -- logarithms
  have lg : v ≤ Real.log x := by
    have := Real.one_sub_inv_le_log_of_pos hx0
    have e : v = 1 - x⁻¹ := by
      field_simp
      linarith
    rw [e]; exact this
  have lb : Real.log (BOIL / t) = Real.log (BOIL / FREEZE) + Real.log x := by
    rw [← Real.log_mul (div_pos boil_pos freeze_pos).ne' hx0.ne', hx]
    congr 1
    have := freeze_pos
    field_simp
  have lf : Real.log (FREEZE / FREEZE) = 0 := by rw [div_self freeze_pos.ne']; exact Real.log_one
  have bt : BOIL / t = BOIL / FREEZE * x := by
    rw [hx]
    have := freeze_pos
    field_simp
  have tb : t / BOIL = FREEZE / BOIL - FREEZE / BOIL * v := by
    rw [hv]
    have := freeze_pos
    have := boil_pos
    field_simp
    ring
  -- the two powers
  have p1 : (10 : ℝ) ^ (11.344 * (1 - t / BOIL)) - (10 : ℝ) ^ (11.344 * (1 - FREEZE / BOIL)) ≤ 1912200 * v := by
    have q := pow10_sub_le (11.344 * (1 - t / BOIL)) (y := 11.344 * (FREEZE / BOIL) * v) (by
      have := div_pos freeze_pos boil_pos
      positivity)
    have e : 11.344 * (1 - t / BOIL) - 11.344 * (FREEZE / BOIL) * v = 11.344 * (1 - FREEZE / BOIL) := by
      rw [tb]; ring
    rw [e] at q
    have b : (10 : ℝ) ^ (11.344 * (1 - t / BOIL)) ≤ 100000 := by
      have : (10 : ℝ) ^ (11.344 * (1 - t / BOIL)) ≤ (10 : ℝ) ^ (5 : ℝ) := by
        apply Real.rpow_le_rpow_of_exponent_le (by norm_num)
        have : 210 / BOIL ≤ t / BOIL := div_le_div_of_nonneg_right h0 boil_pos.le
        have h3 : (0.56277 : ℝ) ≤ 210 / BOIL := by norm_num [BOIL]
        linarith
      refine this.trans (le_of_eq ?_)
      norm_num
    have b0 : (0 : ℝ) < (10 : ℝ) ^ (11.344 * (1 - t / BOIL)) := by positivity
    have hr : LOG_10 * (11.344 * (FREEZE / BOIL) * v) ≤ 19.122 * v := by
      have h3 : 11.344 * (FREEZE / BOIL) ≤ 8.3043 := by norm_num [FREEZE, BOIL]
      have h4 : 0 ≤ 11.344 * (FREEZE / BOIL) := by norm_num [FREEZE, BOIL]
      have h5 : LOG_10 * (11.344 * (FREEZE / BOIL)) ≤ 2.302586 * 8.3043 := mul_le_mul hL.le h3 h4 (by norm_num)
      have h6 : LOG_10 * (11.344 * (FREEZE / BOIL)) ≤ 19.122 := h5.trans (by norm_num)
      nlinarith
    have hr0 : 0 ≤ 19.122 * v := by positivity
    have : (10 : ℝ) ^ (11.344 * (1 - t / BOIL)) * (LOG_10 * (11.344 * (FREEZE / BOIL) * v)) ≤ 100000 * (19.122 * v) := by
      have h3 : 0 ≤ LOG_10 * (11.344 * (FREEZE / BOIL) * v) := by
        have := div_pos freeze_pos boil_pos
        positivity
      exact mul_le_mul b hr h3 (by norm_num)
    linarith
  have p2 : (10 : ℝ) ^ (-3.49149 * (BOIL / FREEZE - 1)) - (10 : ℝ) ^ (-3.49149 * (BOIL / t - 1)) ≤ 10.983 * (x - 1) := by
    have hu : 0 ≤ x - 1 := by linarith
    have q := pow10_sub_le (-3.49149 * (BOIL / FREEZE - 1)) (y := 3.49149 * (BOIL / FREEZE) * (x - 1)) (by
      have := div_pos boil_pos freeze_pos
      positivity)
    have e : -3.49149 * (BOIL / FREEZE - 1) - 3.49149 * (BOIL / FREEZE) * (x - 1) = -3.49149 * (BOIL / t - 1) := by
      rw [bt]; ring
    rw [e] at q
    have b : (10 : ℝ) ^ (-3.49149 * (BOIL / FREEZE - 1)) ≤ 1 := by
      apply Real.rpow_le_one_of_one_le_of_nonpos (by norm_num)
      norm_num [BOIL, FREEZE]
    have hr : LOG_10 * (3.49149 * (BOIL / FREEZE) * (x - 1)) ≤ 10.983 * (x - 1) := by
      have h3 : 3.49149 * (BOIL / FREEZE) ≤ 4.7697 := by norm_num [FREEZE, BOIL]
      have h4 : 0 ≤ 3.49149 * (BOIL / FREEZE) := by norm_num [FREEZE, BOIL]
      have h5 : LOG_10 * (3.49149 * (BOIL / FREEZE)) ≤ 2.302586 * 4.7697 := mul_le_mul hL.le h3 h4 (by norm_num)
      have h6 : LOG_10 * (3.49149 * (BOIL / FREEZE)) ≤ 10.983 := h5.trans (by norm_num)
      nlinarith
    have h3 : 0 ≤ LOG_10 * (3.49149 * (BOIL / FREEZE) * (x - 1)) := by
      have := div_pos boil_pos freeze_pos
      positivity
    have : (10 : ℝ) ^ (-3.49149 * (BOIL / FREEZE - 1)) * (LOG_10 * (3.49149 * (BOIL / FREEZE) * (x - 1))) ≤
        1 * (10.983 * (x - 1)) := mul_le_mul b hr h3 (by norm_num)
    linarith
  have lgv : 3.7325 * v ≤ 8.59462 * Real.log x / LOG_10 := by
    rw [le_div_iff₀ hL0]
    have h3 : 3.7325 * v * LOG_10 ≤ 3.7325 * v * 2.302586 := mul_le_mul_of_nonneg_left hL.le (by positivity)
    linarith
  have bf : BOIL / FREEZE ≤ 1.36605 := by norm_num [BOIL, FREEZE]
  have hbx : BOIL / FREEZE * (x - 1) ≤ 1.36605 * (x - 1) := mul_le_mul_of_nonneg_right bf (by linarith)
  have vx : x - 1 ≤ 1.3008 * v := by rw [← hvx]; nlinarith
  unfold satwExp satiExp
  rw [lb, lf, bt, ← hx, show t / FREEZE = 1 - v by rw [hv]; ring, div_self freeze_pos.ne'] at *
  have e1 : 5.02808 * (Real.log (BOIL / FREEZE) + Real.log x) / LOG_10 =
      5.02808 * Real.log (BOIL / FREEZE) / LOG_10 + 5.02808 * Real.log x / LOG_10 := by ring
  have e2 : 8.59462 * Real.log x / LOG_10 = 5.02808 * Real.log x / LOG_10 + 3.56654 * Real.log x / LOG_10 := by ring
  rw [e2] at lgv
  rw [e1]
  have e3 : (3.56654 : ℝ) * 0 / LOG_10 = 0 := by simp
  rw [e3]
  linarith

/-- C35: at air temperatures from 210 K up to the freezing point the saturation pressure over ice is below that over
(supercooled) water. -/
theorem C35_ice_below_water (t v w : ℝ) (h0 : 210 ≤ t) (h1 : t ≤ FREEZE) (hv : sati t = .ok v) (hw : satw t = .ok w) :
    v < w := by
  have ht : 0 < t := by linarith
  rw [sati_cold_eq ht h1] at hv
  rw [satw_pos_eq ht] at hw
  cases hv
  cases hw
  have hf := sati_freeze
  rw [sati_cold_eq freeze_pos (le_refl _)] at hf
  have hf' := Except.ok.inj hf
  have hg := satw_freeze_gt _ (satw_pos_eq freeze_pos)
  rw [← hf'] at hg
  have h100 : (100 : ℝ) = (10 : ℝ) ^ (2 : ℝ) := by norm_num
  have hgap := exp_gap h0 h1
  rw [h100, ← Real.rpow_add (by norm_num)] at hg ⊢
  have := (Real.rpow_lt_rpow_left_iff (x := (10:ℝ)) (by norm_num)).mp hg
  exact (Real.rpow_lt_rpow_left_iff (by norm_num)).mpr (by linarith)

/-- C35: at no temperature does the saturation pressure over ice exceed that over water by more than 25 Pa, the excess
that `hle1` tolerates. -/
theorem C35_ice_within_tolerance (t v w : ℝ) (hv : sati t = .ok v) (hw : satw t = .ok w) : v - 25 ≤ w := by
  have ht := sati_ok_iff.mp ⟨v, hv⟩
  have hwp := satw_value_pos hw
  by_cases h1 : FREEZE < t
  · rw [sati_warm_eq h1, hw] at hv
    cases hv
    linarith
  · have h1 := not_lt.mp h1
    by_cases h0 : 210 ≤ t
    · have := C35_ice_below_water t v w h0 h1 hv hw
      linarith
    · have h0 := not_le.mp h0
      obtain ⟨y, hy⟩ := sati_ok_iff.mpr (by norm_num : (0:ℝ) < 210)
      have hlt := C35_sati_increasing t 210 v y h0 (by norm_num [BOIL]) hv hy
      rw [sati_cold_eq (by norm_num) (by norm_num [FREEZE])] at hy
      have hy' := Except.ok.inj hy
      have hL0 : 0 < LOG_10 := by linarith [log10_gt_one]
      have hlog : 0 ≤ Real.log (FREEZE / 210) := Real.log_nonneg (by norm_num [FREEZE])
      have hle : satiExp 210 (FREEZE / 210) (Real.log (FREEZE / 210)) ≤ -2 + Real.log 6.1071 / LOG_10 := by
        unfold satiExp
        have h2 : 0 ≤ 3.56654 * Real.log (FREEZE / 210) / LOG_10 := by positivity
        have h3 : (0.3 : ℝ) ≤ FREEZE / 210 - 1 := by norm_num [FREEZE]
        have h4 : 1 - 210 / FREEZE ≤ (0.24 : ℝ) := by norm_num [FREEZE]
        linarith
      have hp : (10 : ℝ) ^ satiExp 210 (FREEZE / 210) (Real.log (FREEZE / 210)) ≤ (10 : ℝ) ^ (-2 + Real.log 6.1071 / LOG_10 : ℝ) :=
        Real.rpow_le_rpow_of_exponent_le (by norm_num) hle
      have he : (10 : ℝ) ^ (Real.log 6.1071 / LOG_10) = 6.1071 := by
        rw [Real.rpow_def_of_pos (by norm_num)]
        unfold LOG_10 at hL0 ⊢
        rw [mul_div_cancel₀ _ hL0.ne', Real.exp_log (by norm_num)]
      rw [Real.rpow_add (by norm_num), he] at hp
      have h2 : (10 : ℝ) ^ (-2 : ℝ) = 1 / 100 := by
        rw [Real.rpow_neg (by norm_num)]; norm_num
      rw [h2] at hp
      linarith

/-- non-vacuity: 260 K -/
example : ∃ v w, sati 260 = .ok v ∧ satw 260 = .ok w ∧ v < w := by
  obtain ⟨v, hv⟩ := sati_ok_iff.mpr (by norm_num : (0:ℝ) < 260)
  obtain ⟨w, hw⟩ := satw_ok_iff.mpr (by norm_num : (0:ℝ) < 260)
  exact ⟨v, w, hv, hw, C35_ice_below_water 260 v w (by norm_num) (by norm_num [FREEZE]) hv hw⟩

end

end Pysnobal
