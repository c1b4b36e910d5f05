import Verif.Props.Ground
import Mathlib.Analysis.SpecialFunctions.Pow.Continuity

/-! # C86: the drop at the freezing point -/

namespace Pysnobal

noncomputable section

open Filter Topology

/-- At the freezing point the saturation vapour pressure over water is below 640 Pa. -/
theorem satw_freeze_lt (w : ℝ) (h : satw FREEZE = .ok w) : w < 640 := by
  rw [satw_pos_eq freeze_pos] at h
  cases h
  have hL : 2.30258 < LOG_10 := by
    unfold LOG_10
    have h2 := Real.log_two_gt_d9
    have h10 : Real.log 10 = 10 / 3 * Real.log 2 - Real.log (1024 / 1000) / 3 := by
      have : Real.log (1024 / 1000) = Real.log (2 ^ 10) - Real.log (10 ^ 3) := by
        rw [← Real.log_div (by norm_num) (by norm_num)]; norm_num
      rw [this, Real.log_pow, Real.log_pow]
      push_cast
      ring
    have h3 : Real.log (1024 / 1000) < (0.02372 : ℝ) := by
      rw [Real.log_lt_iff_lt_exp (by norm_num)]
      have := Real.sum_le_exp_of_nonneg (x := 0.02372) (by norm_num) 6
      norm_num [Finset.sum_range_succ, Nat.factorial] at this ⊢
      linarith
    rw [h10]
    linarith
  have hL0 : 0 < LOG_10 := by linarith
  have p1 : 1 ≤ (10 : ℝ) ^ (11.344 * (1 - FREEZE / BOIL)) :=
    Real.one_le_rpow (by norm_num) (by norm_num [FREEZE, BOIL])
  have p2 : (10 : ℝ) ^ (-3.49149 * (BOIL / FREEZE - 1)) ≤ 1 :=
    Real.rpow_le_one_of_one_le_of_nonpos (by norm_num) (by norm_num [FREEZE, BOIL])
  have hr : Real.log (BOIL / FREEZE) < 0.31193 := by
    rw [Real.log_lt_iff_lt_exp (div_pos boil_pos freeze_pos)]
    have := Real.sum_le_exp_of_nonneg (x := 0.31193) (by norm_num) 8
    norm_num [Finset.sum_range_succ, Nat.factorial, BOIL, FREEZE] at this ⊢
    linarith
  have hq : Real.log (SEA_LEVEL / 640) < 5.07 := by
    rw [Real.log_lt_iff_lt_exp (by norm_num [SEA_LEVEL])]
    have h1 := Real.sum_le_exp_of_nonneg (x := 0.07) (by norm_num) 5
    have h2 : Real.exp 5.07 = Real.exp 1 ^ 5 * Real.exp 0.07 := by
      rw [← Real.exp_nat_mul, ← Real.exp_add]
      norm_num
    have h3 : 2.7182818283 ^ 5 ≤ Real.exp 1 ^ 5 :=
      pow_le_pow_left₀ (by norm_num) Real.exp_one_gt_d9.le 5
    have h4 : 1.0725 ≤ Real.exp 0.07 := by
      norm_num [Finset.sum_range_succ, Nat.factorial] at h1 ⊢
      linarith
    rw [h2]
    calc SEA_LEVEL / 640 < 2.7182818283 ^ 5 * 1.0725 := by norm_num [SEA_LEVEL]
      _ ≤ _ := mul_le_mul h3 h4 (by norm_num) (by positivity)
  have hgoal : satwExp FREEZE (BOIL / FREEZE) (Real.log (BOIL / FREEZE)) * LOG_10 < Real.log 640 := by
    unfold satwExp
    rw [Real.log_div (by norm_num [SEA_LEVEL]) (by norm_num)] at hq
    have e1 : 0.36604 ≤ BOIL / FREEZE - 1 := by norm_num [BOIL, FREEZE]
    have k1 : (-7.90298 * (BOIL / FREEZE - 1)) * LOG_10 ≤ -7.90298 * 0.36604 * 2.30258 := by
      have := mul_le_mul e1 hL.le (by norm_num) (by linarith)
      nlinarith
    have k2 : 5.02808 * Real.log (BOIL / FREEZE) / LOG_10 * LOG_10 = 5.02808 * Real.log (BOIL / FREEZE) := by
      field_simp
    have k3 : LOG_SEA_LEVEL / LOG_10 * LOG_10 = Real.log SEA_LEVEL := by
      unfold LOG_SEA_LEVEL; field_simp
    have k4 : 0 ≤ 1.3816e-7 * ((10 : ℝ) ^ (11.344 * (1 - FREEZE / BOIL)) - 1) * LOG_10 :=
      mul_nonneg (mul_nonneg (by norm_num) (by linarith)) hL0.le
    have k5 : 8.1328e-3 * ((10 : ℝ) ^ (-3.49149 * (BOIL / FREEZE - 1)) - 1) * LOG_10 ≤ 0 :=
      mul_nonpos_of_nonpos_of_nonneg (mul_nonpos_of_nonneg_of_nonpos (by norm_num) (by linarith)) hL0.le
    have hsum : ∀ a b d e f : ℝ, (a + b - d + e + f) * LOG_10 =
        a * LOG_10 + b * LOG_10 - d * LOG_10 + e * LOG_10 + f * LOG_10 := by intros; ring
    rw [hsum, k2, k3]
    linarith
  rw [← Real.log_lt_log_iff (by positivity) (by norm_num), Real.log_rpow (by norm_num)]
  exact hgoal

/-- The conductivity of the ground at temperature `t`, with latent heat `l` and vapour pressure `e`. -/
def condG (P l t e : ℝ) : ℝ :=
  KT_MOISTSAND + l * (0.65 * (SEA_LEVEL / P) * (t / FREEZE) ^ 14 * (0.01 * 0.01)) * ((MOL_H2O / MOL_AIR) * e / (P - e))

def heatG (ks k T t d z : ℝ) : ℝ := 2 * (ks * k * (t - T)) / (k * d + ks * z)

def satwV (t : ℝ) : ℝ := (10 : ℝ) ^ satwExp t (BOIL / t) (Real.log (BOIL / t))
def satiV (t : ℝ) : ℝ := 100 * (10 : ℝ) ^ satiExp t (FREEZE / t) (Real.log (FREEZE / t))

theorem satwV_cont : ContinuousAt satwV FREEZE := by
  have h0 := freeze_pos.ne'
  have h1 : BOIL / FREEZE ≠ 0 := (div_pos boil_pos freeze_pos).ne'
  unfold satwV satwExp
  refine ContinuousAt.rpow continuousAt_const ?_ (.inl (by norm_num))
  have c1 : ContinuousAt (fun t : ℝ => BOIL / t) FREEZE := continuousAt_const.div continuousAt_id h0
  have c2 : ContinuousAt (fun t : ℝ => Real.log (BOIL / t)) FREEZE := c1.log h1
  have c3 : ContinuousAt (fun t : ℝ => (10:ℝ) ^ (11.344 * (1 - t / BOIL))) FREEZE :=
    ContinuousAt.rpow continuousAt_const (by fun_prop) (.inl (by norm_num))
  have c4 : ContinuousAt (fun t : ℝ => (10:ℝ) ^ (-3.49149 * (BOIL / t - 1))) FREEZE :=
    ContinuousAt.rpow continuousAt_const (continuousAt_const.mul (c1.sub continuousAt_const)) (.inl (by norm_num))
  exact ((((continuousAt_const.mul (c1.sub continuousAt_const)).add ((continuousAt_const.mul c2).div_const _)).sub
    (continuousAt_const.mul (c3.sub continuousAt_const))).add (continuousAt_const.mul (c4.sub continuousAt_const))).add continuousAt_const

theorem satiV_cont : ContinuousAt satiV FREEZE := by
  have h0 := freeze_pos.ne'
  have h1 : FREEZE / FREEZE ≠ 0 := (div_pos freeze_pos freeze_pos).ne'
  unfold satiV satiExp
  refine continuousAt_const.mul (ContinuousAt.rpow continuousAt_const ?_ (.inl (by norm_num)))
  have c1 : ContinuousAt (fun t : ℝ => FREEZE / t) FREEZE := continuousAt_const.div continuousAt_id h0
  have c2 : ContinuousAt (fun t : ℝ => Real.log (FREEZE / t)) FREEZE := c1.log h1
  have c3 : ContinuousAt (fun t : ℝ => 0.876793 * (1 - t / FREEZE)) FREEZE := by fun_prop
  exact (((continuousAt_const.mul (c1.sub continuousAt_const)).sub ((continuousAt_const.mul c2).div_const _)).add c3).add continuousAt_const

theorem heatG_cont {P ks T d z : ℝ} {l e : ℝ → ℝ} (hl : ContinuousAt l FREEZE) (he : ContinuousAt e FREEZE)
    (hP : P - e FREEZE ≠ 0) (hk : condG P (l FREEZE) FREEZE (e FREEZE) * d + ks * z ≠ 0) :
    ContinuousAt (fun t => heatG ks (condG P (l t) t (e t)) T t d z) FREEZE := by
  have c1 : ContinuousAt (fun t => condG P (l t) t (e t)) FREEZE := by
    unfold condG
    refine continuousAt_const.add ((hl.mul (by fun_prop)).mul ?_)
    exact (continuousAt_const.mul he).div (continuousAt_const.sub he) hP
  unfold heatG
  refine (continuousAt_const.mul ((continuousAt_const.mul c1).mul (by fun_prop))).div ?_ hk
  exact (c1.mul continuousAt_const).add continuousAt_const

theorem heatG_lt {ks k k' T t d z : ℝ} (hks : 0 < ks) (hk : 0 < k) (hkk : k < k') (hd : 0 < d) (hz : 0 < z) (ht : T < t) :
    heatG ks k T t d z < heatG ks k' T t d z := by
  unfold heatG
  have hk' := hk.trans hkk
  rw [div_lt_div_iff₀ (by positivity) (by positivity)]
  have a1 : k * (k' * d + ks * z) < k' * (k * d + ks * z) := by
    nlinarith [mul_lt_mul_of_pos_right hkk (mul_pos hks hz)]
  have a2 := mul_lt_mul_of_pos_right a1 (mul_pos hks (sub_pos.mpr ht))
  nlinarith

/-- The conduction from the ground, as long as nothing divides by zero. -/
theorem g_soil_heatG {c : Env} {i : InputData} {b : Bool} {s : Snow} {T d es ks e : ℝ}
    (hT : T = if b then s.t_s_0 else s.t_s_l) (hd : d = if b then s.z_s_0 else s.z_s_l) (hT1 : T ≤ FREEZE)
    (hes : sati T = .ok es) (hks : efcon s.kts T c.P_a (some es) = .ok ks) (ks0 : 0 < ks) (hd0 : 0 < d) (hz : 0 < c.z_g)
    (ht : 0 < i.t_g) (hb : i.t_g ≤ BOIL) (he : sati i.t_g = .ok e) (hP : e < c.P_a) :
    g_soil c i b s = .ok (heatG ks (condG c.P_a (diffLat i.t_g) i.t_g e) T i.t_g d c.z_g) := by
  have key : g_soil c i b s = (do
      let es ← sati T
      let e_g ← i.e_g
      let k_g ← efcon KT_MOISTSAND i.t_g c.P_a (some e_g)
      let k_s ← efcon s.kts T c.P_a (some es)
      ssxfr k_s k_g T i.t_g d c.z_g) := by
    subst hT hd
    cases b
    · simp only [Bool.false_eq_true, if_false] at hT1
      unfold g_soil Snow.e_s_l
      simp only [Bool.false_eq_true, if_false, gt_iff_lt, not_lt.mpr hT1]
    · simp only [if_true] at hT1
      unfold g_soil Snow.e_s_0
      simp only [if_true, gt_iff_lt, not_lt.mpr hT1, if_false]
  obtain ⟨kg, k1, k2⟩ := efcon_prog (k := KT_MOISTSAND) (by norm_num [KT_MOISTSAND]) ht hb (sati_value_pos he) hP
  have k3 := efcon_eq k1
  rw [key, hes, bind_ok]
  unfold InputData.e_g
  rw [he, bind_ok, k1, bind_ok, hks, bind_ok]
  unfold ssxfr
  have hne : kg * d + ks * c.z_g ≠ 0 := by positivity
  rw [pdiv_of_ne hne]
  unfold heatG condG
  rw [k3]

theorem drop_core {P ks T d z : ℝ} (hP : 1100 < P) (hks : 0 < ks) (hT : T < FREEZE) (hd : 0 < d) (hz : 0 < z) :
    ∃ ε > 0, ε < 50 ∧ ∀ t t', FREEZE - ε < t → t < FREEZE → FREEZE < t' → t' < FREEZE + ε →
      heatG ks (condG P (lh_vap t') t' (satwV t')) T t' d z < heatG ks (condG P (lh_sub t) t (satiV t)) T t d z ∧ satwV t' < P := by
  have hw : satwV FREEZE < 640 := satw_freeze_lt _ (satw_pos_eq freeze_pos)
  have hw0 : 0 < satwV FREEZE := by unfold satwV; positivity
  have hi : satiV FREEZE = 610.71 := by
    have := sati_freeze
    rw [sati_cold_eq freeze_pos (le_refl _)] at this
    exact Except.ok.inj this
  have hf := freeze_pos
  have lv : lh_vap FREEZE = 2500000 := by unfold lh_vap; norm_num
  have ls : lh_sub FREEZE = 2833600 := by unfold lh_sub lh_vap lh_fus; norm_num
  have hS : (0:ℝ) < SEA_LEVEL := by norm_num [SEA_LEVEL]
  have hm1 := molh2o_pos
  have hm2 := molair_pos
  have c1 : 0 < condG P (lh_vap FREEZE) FREEZE (satwV FREEZE) := by
    unfold condG
    have : 0 < P - satwV FREEZE := by linarith
    have : (0:ℝ) < KT_MOISTSAND := by norm_num [KT_MOISTSAND]
    have hP0 : 0 < P := by linarith
    rw [lv]; positivity
  have c2 : condG P (lh_vap FREEZE) FREEZE (satwV FREEZE) < condG P (lh_sub FREEZE) FREEZE (satiV FREEZE) := by
    unfold condG
    rw [lv, ls, hi]
    obtain ⟨D, hD⟩ : ∃ D, D = 0.65 * (SEA_LEVEL / P) * (FREEZE / FREEZE) ^ 14 * (0.01 * 0.01) := ⟨_, rfl⟩
    have hD0 : 0 < D := by rw [hD]; have : 0 < P := by linarith
                           positivity
    rw [← hD]
    obtain ⟨q, hq⟩ : ∃ q, q = MOL_H2O / MOL_AIR := ⟨_, rfl⟩
    have hq0 : 0 < q := by rw [hq]; positivity
    rw [← hq]
    have key : 2500000 * (satwV FREEZE / (P - satwV FREEZE)) < 2833600 * (610.71 / (P - 610.71)) := by
      rw [← mul_div_assoc, ← mul_div_assoc, div_lt_div_iff₀ (by linarith) (by linarith)]
      nlinarith
    have := mul_lt_mul_of_pos_left key (mul_pos hD0 hq0)
    have e1 : ∀ l e : ℝ, l * D * (q * e / (P - e)) = D * q * (l * (e / (P - e))) := by intro l e; ring
    rw [e1, e1]
    linarith
  have hlt := heatG_lt (t := FREEZE) hks c1 c2 hd hz hT
  obtain ⟨mid, h1, h2⟩ := exists_between hlt
  have cv : ContinuousAt lh_vap FREEZE := by unfold lh_vap; fun_prop
  have cs : ContinuousAt lh_sub FREEZE := by unfold lh_sub lh_vap lh_fus; fun_prop
  have k1 := (heatG_cont (P := P) (ks := ks) (T := T) (d := d) (z := z) cv satwV_cont (by linarith) (by positivity)).eventually_lt_const h1
  have k2 := (heatG_cont (P := P) (ks := ks) (T := T) (d := d) (z := z) cs satiV_cont (by rw [hi]; linarith)
    (by have := c1.trans c2; positivity)).eventually_const_lt h2
  have k3 := satwV_cont.eventually_lt_const (show satwV FREEZE < P by linarith)
  obtain ⟨ε, he, hball⟩ := Metric.eventually_nhds_iff.mp (k1.and (k2.and k3))
  refine ⟨min ε 49, lt_min he (by norm_num), lt_of_le_of_lt (min_le_right _ _) (by norm_num), fun t t' a1 a2 a3 a4 => ?_⟩
  have m1 := min_le_left ε 49
  have b1 := hball (y := t) (by rw [Real.dist_eq, abs_lt]; constructor <;> linarith)
  have b2 := hball (y := t') (by rw [Real.dist_eq, abs_lt]; constructor <;> linarith)
  exact ⟨b2.1.trans b1.2.1, b2.2.2⟩

/-- C86, the exception: under a pack whose base is colder than freezing, ground just above the freezing point gives off LESS heat than
ground just below it (the latent heat of the vapour in the soil changes from that of sublimation to that of vaporisation); every other
flux is the same, so the energy balance of the pack is lower on the warmer ground. -/
theorem C86_freezing_point_drop (c : Env) (dt : ℝ) (p : Phys) (hP : 1100 < c.P_a) (hz : 0 < c.z_g) (hm : 0 < c.max_z_s_0) (hi : Inv c p.snow)
    (hl : p.snow.layer_count > 0) (hms : 0 < p.snow.m_s) (h0 : 0 < p.snow.baseTemp) (h1 : p.snow.baseTemp < 273.16) :
    ∃ ε > 0, ∀ t t', 273.16 - ε < t → t < 273.16 → 273.16 < t' → t' < 273.16 + ε → ∀ q q',
      energy_balance c dt { p with input1 := { p.input1 with t_g := t } } = .ok q →
      energy_balance c dt { p with input1 := { p.input1 with t_g := t' } } = .ok q' →
      q'.snow.en.G < q.snow.en.G ∧ q'.snow.en.delta_Q < q.snow.en.delta_Q ∧
      q'.snow.en.R_n = q.snow.en.R_n ∧ q'.snow.en.H = q.snow.en.H ∧ q'.snow.en.L_v_E = q.snow.en.L_v_E ∧ q'.snow.en.M = q.snow.en.M := by
  obtain ⟨b, hb⟩ : ∃ b, b = decide (p.snow.layer_count = 1) := ⟨_, rfl⟩
  obtain ⟨T, hT⟩ : ∃ T, T = if b then p.snow.t_s_0 else p.snow.t_s_l := ⟨_, rfl⟩
  obtain ⟨d, hd⟩ : ∃ d, d = if b then p.snow.z_s_0 else p.snow.z_s_l := ⟨_, rfl⟩
  have hbT : p.snow.baseTemp = T := by rw [hT, hb]; unfold Snow.baseTemp; simp
  rw [hbT] at h0 h1
  have hz0 := (hi.lc_pos_iff hm).mp hl
  have hr : 0 < p.snow.rho := by rw [hi.dens hz0]; exact div_pos hms (hi.z_pos hz0)
  have hd0 : 0 < d := by
    rw [hd, hb]
    by_cases h1 : p.snow.layer_count = 1
    · simp only [h1, decide_true, if_true]; exact hz0
    · simp only [h1, decide_false, Bool.false_eq_true, if_false]
      have h2 : p.snow.layer_count = 2 := by
        have := lc_le_two p.snow
        omega
      exact (lc_eq_two.mp h2).2
  have hTF : T < FREEZE := h1
  obtain ⟨es, hes⟩ := sati_ok_iff.mpr h0
  obtain ⟨ks, hks, ks0⟩ := efcon_prog (kts_pos hr) h0 (hTF.le.trans boil_gt.le) (sati_value_pos hes)
    (lt_of_le_of_lt (sati_le_freeze hTF.le hes) (by linarith : (610.71:ℝ) < c.P_a))
  obtain ⟨ε, he, he1, hcore⟩ := drop_core hP ks0 hTF hd0 hz
  refine ⟨ε, he, fun t t' a1 a2 a3 a4 q q' hq hq' => ?_⟩
  have a2 : t < FREEZE := a2
  have a3 : FREEZE < t' := a3
  obtain ⟨b1, b2⟩ := hcore t t' a1 a2 a3 a4
  have ht0 : 0 < t := by linarith
  have ht1 : t' ≤ BOIL := by norm_num [BOIL]; linarith
  obtain ⟨hin, e, hs, hcase⟩ := energy_balance_ground (t := t') (p := { p with input1 := { p.input1 with t_g := t } }) hq hq'
  rcases hcase with ⟨h, _⟩ | ⟨_, htg, g1, g2, r1, r2, r3, r4, r5, r6, r7⟩
  · have h : p.snow.layer_count = 0 := h
    omega
  have en : q'.snow.en = e := by rw [hs]; rfl
  have htg : q.input1.t_g = t := htg
  have s1 : sati t = .ok (satiV t) := sati_cold_eq ht0 a2.le
  have s2 : sati t' = .ok (satwV t') := by rw [sati_warm_eq a3]; exact satw_pos_eq (freeze_pos.trans a3)
  have v1 : satiV t < c.P_a := lt_of_le_of_lt (sati_le_freeze a2.le s1) (by linarith)
  have G1 := g_soil_heatG (i := q.input1) (s := p.snow) hT hd hTF.le hes hks ks0 hd0 hz (by rw [htg]; exact ht0) (by rw [htg]; linarith)
    (by rw [htg]; exact s1) v1
  have G2 := g_soil_heatG (i := q.input1.ground t') (s := p.snow) hT hd hTF.le hes hks ks0 hd0 hz (freeze_pos.trans a3) ht1 s2 b2
  have g1 : g_soil c q.input1 b p.snow = .ok q.snow.en.G := by rw [hb]; exact g1
  have g2 : g_soil c (q.input1.ground t') b p.snow = .ok e.G := by rw [hb]; exact g2
  rw [G1] at g1
  rw [G2] at g2
  have g1 := Except.ok.inj g1
  have g2 := Except.ok.inj g2
  have d1 : diffLat t = lh_sub t := by unfold diffLat; rw [if_neg (not_lt.mpr a2.le), if_neg a2.ne]
  have d2 : diffLat t' = lh_vap t' := by unfold diffLat; rw [if_pos a3]
  rw [htg, d1] at g1
  have g2' : heatG ks (condG c.P_a (diffLat t') t' (satwV t')) T t' d c.z_g = e.G := g2
  rw [d2] at g2'
  rw [g1, g2'] at b1
  rw [en]
  exact ⟨b1, by linarith, r1, r2, r3, r4⟩

end

end Pysnobal
