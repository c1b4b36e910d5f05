import Verif.Props.Radiation
import Verif.Props.Vapour

/-! # C86: warmer ground never means less melt, except through the freezing point -/

namespace Pysnobal

noncomputable section

/-! ## The heat conducted from the ground -/

/-- The latent heat `efcon` uses at a temperature. -/
def diffLat (t : ℝ) : ℝ :=
  if t > FREEZE then lh_vap t else if t = FREEZE then (lh_vap t + lh_sub t) / 2 else lh_sub t

theorem efcon_eq {k t P e x : ℝ} (h : efcon k t P (some e) = .ok x) :
    x = k + diffLat t * (0.65 * (SEA_LEVEL / P) * (t / FREEZE) ^ 14 * (0.01 * 0.01)) * ((MOL_H2O / MOL_AIR) * e / (P - e)) := by
  unfold efcon diffusion_coef mix_ratio at h
  obtain ⟨D, hD, h⟩ := bind_eq_ok.mp h
  obtain ⟨q, hq, hD⟩ := bind_eq_ok.mp hD
  dsimp only at h
  rw [pure_ok, bind_ok] at h
  obtain ⟨r, hr, h⟩ := bind_eq_ok.mp h
  simp only [pure_ok, Except.ok.injEq] at h hD
  rw [pdiv_eq_ok] at hq hr
  rw [← h, ← hD, hr.2, hq.2]
  rfl

/-- On either side of the freezing point the latent heat times the temperature grows with the temperature. -/
theorem diffLat_mul_mono {t t' : ℝ} (h0 : 0 < t) (h : t ≤ t') (hb : t' ≤ BOIL) (side : t' < FREEZE ∨ FREEZE < t) :
    0 ≤ diffLat t ∧ diffLat t * t ≤ diffLat t' * t' := by
  unfold BOIL at hb
  rcases side with s | s
  · have s1 : t < FREEZE := lt_of_le_of_lt h s
    unfold diffLat
    rw [if_neg (not_lt.mpr s.le), if_neg s.ne, if_neg (not_lt.mpr s1.le), if_neg s1.ne]
    unfold lh_sub lh_vap lh_fus
    unfold FREEZE at *
    constructor
    · nlinarith
    · nlinarith
  · have s1 : FREEZE < t' := lt_of_lt_of_le s h
    unfold diffLat
    rw [if_pos s, if_pos s1]
    unfold lh_vap
    unfold FREEZE at *
    constructor
    · norm_num at hb ⊢; linarith
    · nlinarith

theorem efcon_mono {k t t' P e e' x x' : ℝ} (h0 : 0 < t) (h : t ≤ t') (hb : t' ≤ BOIL) (side : t' < FREEZE ∨ FREEZE < t)
    (he : 0 ≤ e) (hee : e ≤ e') (hP : e' < P)
    (hx : efcon k t P (some e) = .ok x) (hx' : efcon k t' P (some e') = .ok x') : x ≤ x' := by
  rw [efcon_eq hx, efcon_eq hx']
  have hP0 : 0 < P := by linarith
  obtain ⟨l0, l1⟩ := diffLat_mul_mono h0 h hb side
  have hf := freeze_pos
  have hS : (0:ℝ) < SEA_LEVEL := by norm_num [SEA_LEVEL]
  have q0 : 0 ≤ (MOL_H2O / MOL_AIR) * e / (P - e) := by
    have := molh2o_pos; have := molair_pos
    have : 0 < P - e := by linarith
    positivity
  have q1 : (MOL_H2O / MOL_AIR) * e / (P - e) ≤ (MOL_H2O / MOL_AIR) * e' / (P - e') := by
    have := molh2o_pos; have := molair_pos
    have : 0 < MOL_H2O / MOL_AIR := by positivity
    rw [div_le_div_iff₀ (by linarith) (by linarith)]
    nlinarith [mul_nonneg this.le (mul_nonneg hP0.le (sub_nonneg.mpr hee))]
  have m1 : diffLat t * t ^ 14 ≤ diffLat t' * t' ^ 14 := by
    have a : t ^ 13 ≤ t' ^ 13 := pow_le_pow_left₀ h0.le h 13
    have b : (diffLat t * t) * t ^ 13 ≤ (diffLat t' * t') * t' ^ 13 :=
      mul_le_mul l1 a (by positivity) ((mul_nonneg l0 h0.le).trans l1)
    calc diffLat t * t ^ 14 = (diffLat t * t) * t ^ 13 := by ring
      _ ≤ _ := b
      _ = _ := by ring
  have m2 : diffLat t * (0.65 * (SEA_LEVEL / P) * (t / FREEZE) ^ 14 * (0.01 * 0.01)) ≤
      diffLat t' * (0.65 * (SEA_LEVEL / P) * (t' / FREEZE) ^ 14 * (0.01 * 0.01)) := by
    have e1 : ∀ u, diffLat u * (0.65 * (SEA_LEVEL / P) * (u / FREEZE) ^ 14 * (0.01 * 0.01)) =
        (diffLat u * u ^ 14) * (0.65 * (SEA_LEVEL / P) * (0.01 * 0.01) / FREEZE ^ 14) := by
      intro u; rw [div_pow]; ring
    rw [e1, e1]
    exact mul_le_mul_of_nonneg_right m1 (by positivity)
  have m0 : 0 ≤ diffLat t * (0.65 * (SEA_LEVEL / P) * (t / FREEZE) ^ 14 * (0.01 * 0.01)) := mul_nonneg l0 (by positivity)
  have := mul_le_mul m2 q1 q0 (m0.trans m2)
  linarith

theorem ssxfr_mono {ks k k' T t t' d z q q' : ℝ} (hks : 0 < ks) (hk : 0 < k) (hk' : 0 < k') (hd : 0 < d) (hz : 0 < z)
    (ht : t ≤ t') (hT : T ≤ t') (hkk : T < t → k ≤ k') (h : ssxfr ks k T t d z = .ok q) (h' : ssxfr ks k' T t' d z = .ok q') :
    q ≤ q' := by
  unfold ssxfr at h h'
  rw [pdiv_eq_ok] at h h'
  rw [h.2, h'.2]
  have p1 : 0 < k * d + ks * z := by positivity
  have p2 : 0 < k' * d + ks * z := by positivity
  rcases le_or_gt t T with hc | hc
  · have a : 2 * (ks * k * (t - T)) / (k * d + ks * z) ≤ 0 := by
      refine div_nonpos_of_nonpos_of_nonneg ?_ p1.le
      have : ks * k * (t - T) ≤ 0 := mul_nonpos_of_nonneg_of_nonpos (by positivity) (by linarith)
      linarith
    have b : 0 ≤ 2 * (ks * k' * (t' - T)) / (k' * d + ks * z) := by
      have : 0 ≤ t' - T := by linarith
      positivity
    linarith
  · have hk2 := hkk hc
    rw [div_le_div_iff₀ p1 p2]
    have a1 : k * (k' * d + ks * z) ≤ k' * (k * d + ks * z) := by
      nlinarith [mul_le_mul_of_nonneg_right hk2 (mul_pos hks hz).le]
    have a2 : (k * (k' * d + ks * z)) * (t - T) ≤ (k' * (k * d + ks * z)) * (t' - T) :=
      mul_le_mul a1 (by linarith) (by linarith) (by positivity)
    nlinarith [mul_le_mul_of_nonneg_left a2 hks.le]

/-- The forcing with another ground temperature. -/
def InputData.ground (t : ℝ) (i : InputData) : InputData := { i with t_g := t }

/-- Ground temperatures between which the effective conductivity of the ground does not drop: on the same side of the
freezing point, or on different sides of the snow temperature `T`. -/
def GroundStep (T t t' : ℝ) : Prop := t ≤ t' ∧ T ≤ t' ∧ (t' < 273.16 ∨ 273.16 < t ∨ t ≤ T ∨ t = t')

/-- Ground whose vapour pressure can be computed and is below the air pressure, between the temperatures `t` and `t'`. -/
structure GroundOK (c : Env) (t t' : ℝ) : Prop where
  press : 610.71 < c.P_a
  warm : 0 < t
  cool : t' ≤ BOIL
  vapour : ∀ e, sati t' = .ok e → e < c.P_a

theorem GroundOK.lower {c : Env} {i : InputData} {t' : ℝ} (h : GroundOK c i.t_g t') (hz : 0 < c.z_g) (ht : i.t_g ≤ t') : SoilOK c i := by
  refine ⟨hz.ne', h.press, h.warm, fun e he => ?_⟩
  obtain ⟨e', he'⟩ := sati_ok_iff.mpr (h.warm.trans_le ht)
  rcases ht.lt_or_eq with hlt | heq
  · exact (C35_sati_increasing _ _ _ _ hlt h.cool he he').trans (h.vapour e' he')
  · rw [heq] at he; exact h.vapour e he

theorem GroundOK.upper {c : Env} {i : InputData} {t' : ℝ} (h : GroundOK c i.t_g t') (hz : 0 < c.z_g) (ht : i.t_g ≤ t') :
    SoilOK c (i.ground t') := ⟨hz.ne', h.press, h.warm.trans_le ht, h.vapour⟩

theorem g_soil_mono {c : Env} {i : InputData} {t' : ℝ} (h : SoilOK c i) (h' : SoilOK c (i.ground t')) (hz : 0 < c.z_g) (hb : t' ≤ BOIL)
    {s : Snow} (hr : 0 < s.rho) {b : Bool} (hd : 0 < if b then s.z_s_0 else s.z_s_l)
    (hT : (if b then s.t_s_0 else s.t_s_l) ≤ FREEZE) (hs : GroundStep (if b then s.t_s_0 else s.t_s_l) i.t_g t')
    {g g' : ℝ} (hg : g_soil c i b s = .ok g) (hg' : g_soil c (i.ground t') b s = .ok g') : g ≤ g' := by
  obtain ⟨T, d, hT', hd', key⟩ : ∃ T d, T = (if b then s.t_s_0 else s.t_s_l) ∧ 0 < d ∧ ∀ i, g_soil c i b s = (do
      let es ← sati T
      let e_g ← i.e_g
      let k_g ← efcon KT_MOISTSAND i.t_g c.P_a (some e_g)
      let k_s ← efcon s.kts T c.P_a (some es)
      ssxfr k_s k_g T i.t_g d c.z_g) := by
    cases b
    · simp only [Bool.false_eq_true, if_false] at hT
      refine ⟨s.t_s_l, s.z_s_l, by simp, hd, fun i => ?_⟩
      unfold g_soil Snow.e_s_l
      simp only [Bool.false_eq_true, if_false, gt_iff_lt, not_lt.mpr hT]
    · simp only [if_true] at hT
      refine ⟨s.t_s_0, s.z_s_0, by simp, hd, fun i => ?_⟩
      unfold g_soil Snow.e_s_0
      simp only [if_true, gt_iff_lt, not_lt.mpr hT, if_false]
  rw [← hT'] at hT hs
  rw [key] at hg hg'
  unfold InputData.e_g at hg hg'
  obtain ⟨es, hes, hg⟩ := bind_eq_ok.mp hg
  obtain ⟨eg, heg, hg⟩ := bind_eq_ok.mp hg
  obtain ⟨kg, hkg, hg⟩ := bind_eq_ok.mp hg
  obtain ⟨ks, hks, hg⟩ := bind_eq_ok.mp hg
  obtain ⟨es', hes', hg'⟩ := bind_eq_ok.mp hg'
  obtain ⟨eg', heg', hg'⟩ := bind_eq_ok.mp hg'
  obtain ⟨kg', hkg', hg'⟩ := bind_eq_ok.mp hg'
  obtain ⟨ks', hks', hg'⟩ := bind_eq_ok.mp hg'
  rw [hes] at hes'; cases hes'
  rw [hks] at hks'; cases hks'
  have hb0 : i.t_g ≤ BOIL := hs.1.trans hb
  obtain ⟨k1, a1, a2⟩ := efcon_prog (k := KT_MOISTSAND) (by norm_num [KT_MOISTSAND]) h.warm hb0
    (sati_value_pos heg) (h.vapour eg heg)
  obtain ⟨k2, b1, b2⟩ := efcon_prog (k := KT_MOISTSAND) (by norm_num [KT_MOISTSAND]) h'.warm hb
    (sati_value_pos heg') (h'.vapour eg' heg')
  obtain ⟨k3, c1, c2⟩ := efcon_prog (kts_pos hr) (sati_pos hes) (hT.trans boil_gt.le) (sati_value_pos hes)
    (lt_of_le_of_lt (sati_le_freeze hT hes) h.press)
  rw [hkg] at a1; cases a1
  rw [hkg'] at b1; cases b1
  rw [hks] at c1; cases c1
  have htt : i.t_g ≤ t' := hs.1
  have hee : eg ≤ eg' := by
    rcases htt.lt_or_eq with hlt | heq
    · exact (C35_sati_increasing i.t_g t' eg eg' hlt hb heg heg').le
    · have heg'' : sati t' = .ok eg' := heg'
      rw [← heq, heg] at heg''; cases heg''; exact le_refl _
  refine ssxfr_mono c2 a2 b2 hd' hz htt hs.2.1 (fun hlt => ?_) hg hg'
  rcases hs.2.2 with h1 | h1 | h1 | h1
  · exact efcon_mono h.warm htt hb (.inl h1) (sati_value_pos heg).le hee (h'.vapour eg' heg') hkg hkg'
  · exact efcon_mono h.warm htt hb (.inr h1) (sati_value_pos heg).le hee (h'.vapour eg' heg') hkg hkg'
  · linarith
  · have hx : efcon KT_MOISTSAND t' c.P_a (some eg') = .ok kg' := hkg'
    have heg'' : sati t' = .ok eg' := heg'
    rw [← h1, heg] at heg''
    cases heg''
    rw [← h1, hkg] at hx
    cases hx
    exact le_refl _

/-! ## The melt stage -/

theorem law_min {q B y : ℝ} (hB : 0 ≤ B) (h : y - min 0 q = min (max 0 (-q)) B) : y = min 0 (q + B) := by
  have : y = min 0 q + min (max 0 (-q)) B := by linarith
  rw [this]
  rcases le_or_gt q 0 with hq | hq
  · rw [min_eq_right hq, max_eq_right (by linarith)]
    rcases le_or_gt (-q) B with h1 | h1
    · rw [min_eq_left h1, min_eq_left (by linarith)]; ring
    · rw [min_eq_right h1.le, min_eq_right (by linarith)]
  · rw [min_eq_left hq.le, max_eq_left (by linarith), min_eq_left hB, min_eq_left (by linarith)]; ring

theorem max_shift {q δ : ℝ} (hδ : 0 ≤ δ) : max 0 q ≤ max 0 (q + δ) ∧ max 0 (q + δ) ≤ max 0 q + δ :=
  ⟨max_le_max (le_refl _) (by linarith),
    max_le (by have := le_max_left 0 q; linarith) (by have := le_max_right 0 q; linarith)⟩

/-- More energy for either layer: no less melt, and no colder. -/
theorem melt_mono2 {dt δ₀ δₗ r r' : ℝ} {e : Energy} {s t t' : Snow} (hm : MeltRes dt s t r) (hm' : MeltRes dt (s.setEn e) t' r')
    (h0 : 0 ≤ δ₀) (hl : 0 ≤ δₗ) (hG : (e.G - e.G_0) * dt = (s.en.G - s.en.G_0) * dt + δₗ)
    (hQ : e.delta_Q_0 * dt = s.en.delta_Q_0 * dt + δ₀) :
    t.melt ≤ t'.melt ∧ lh_fus FREEZE * (t'.melt - t.melt) ≤ δ₀ + δₗ ∧
    (0 < s.z_s → 0 ≤ s.z_s_0 → 0 ≤ s.h2o_total → t.cc_s_0 ≤ t'.cc_s_0) := by
  have q0 : meltQ0 dt (s.setEn e) = meltQ0 dt s + δ₀ := by
    show e.delta_Q_0 * dt + s.cc_s_0 = s.en.delta_Q_0 * dt + s.cc_s_0 + δ₀
    rw [hQ]; ring
  obtain ⟨δ', hδ', ql⟩ : ∃ δ', (0 ≤ δ' ∧ δ' ≤ δₗ) ∧ meltQl dt (s.setEn e) = meltQl dt s + δ' := by
    show ∃ δ', _ ∧ (if s.layer_count = 2 then (e.G - e.G_0) * dt + s.cc_s_l else 0) =
      (if s.layer_count = 2 then (s.en.G - s.en.G_0) * dt + s.cc_s_l else 0) + δ'
    split
    · exact ⟨δₗ, ⟨hl, le_refl _⟩, by rw [hG]; ring⟩
    · exact ⟨0, ⟨le_refl _, hl⟩, by ring⟩
  have lf := lf_pos
  have low : ∀ q, (if s.layer_count = 2 ∧ q > 0 then melt q else 0) = if s.layer_count = 2 then max 0 q / lh_fus FREEZE else 0 := by
    intro q
    by_cases h2 : s.layer_count = 2
    · simp only [h2, true_and, if_true]; exact melt_if q
    · simp only [h2, false_and, if_false]
  have em : t.melt = max 0 (meltQ0 dt s) / lh_fus FREEZE + if s.layer_count = 2 then max 0 (meltQl dt s) / lh_fus FREEZE else 0 := by
    rw [hm.melt_eq, melt_if, low]
  have em' : t'.melt = max 0 (meltQ0 dt s + δ₀) / lh_fus FREEZE +
      if s.layer_count = 2 then max 0 (meltQl dt s + δ') / lh_fus FREEZE else 0 := by
    rw [hm'.melt_eq, melt_if, q0, ql]
    exact congrArg _ (low _)
  obtain ⟨a1, a2⟩ := max_shift (q := meltQ0 dt s) h0
  obtain ⟨b1, b2⟩ := max_shift (q := meltQl dt s) hδ'.1
  have mm : t.melt ≤ t'.melt := by
    rw [em, em']
    refine add_le_add (div_le_div_of_nonneg_right a1 lf.le) ?_
    split
    · exact div_le_div_of_nonneg_right b1 lf.le
    · exact le_refl _
  refine ⟨mm, ?_, fun hz hz0 hw => ?_⟩
  · have d1 : lh_fus FREEZE * t.melt = max 0 (meltQ0 dt s) + if s.layer_count = 2 then max 0 (meltQl dt s) else 0 := by
      rw [em]; split <;> [field_simp; (field_simp; ring)]
    have d2 : lh_fus FREEZE * t'.melt = max 0 (meltQ0 dt s + δ₀) + if s.layer_count = 2 then max 0 (meltQl dt s + δ') else 0 := by
      rw [em']; split <;> [field_simp; (field_simp; ring)]
    rw [mul_sub, d1, d2]
    split <;> linarith [hδ'.2]
  · have f0 : 0 ≤ s.z_s_0 / s.z_s := div_nonneg hz0 hz.le
    have mn := hm.melt_nonneg
    have mn' := hm'.melt_nonneg
    have l1 := hm.surf_law (by linarith) f0
    have l1' : t'.cc_s_0 - min 0 (meltQ0 dt (s.setEn e)) = min (max 0 (-meltQ0 dt (s.setEn e)))
        (lh_fus FREEZE * ((s.h2o_total + t'.melt) * (s.z_s_0 / s.z_s))) := hm'.surf_law (by show 0 ≤ s.h2o_total + _; linarith) f0
    rw [q0] at l1'
    have B : lh_fus FREEZE * ((s.h2o_total + t.melt) * (s.z_s_0 / s.z_s)) ≤ lh_fus FREEZE * ((s.h2o_total + t'.melt) * (s.z_s_0 / s.z_s)) :=
      mul_le_mul_of_nonneg_left (mul_le_mul_of_nonneg_right (by linarith) f0) lf.le
    rw [law_min (mul_nonneg lf.le (mul_nonneg (by linarith) f0)) l1, law_min (mul_nonneg lf.le (mul_nonneg (by linarith) f0)) l1']
    exact min_le_min (le_refl _) (by linarith)

/-! ## The energy balance -/

theorem h_le_ground (c : Env) (t : ℝ) (p : Phys) :
    h_le c { p with input1 := p.input1.ground t } =
      (h_le c p).map fun q => (q.1, { q.2 with input1 := q.2.input1.ground t }) := by
  unfold h_le
  rw [map_bind_err]
  refine bind_ext_err (x := p.input1.sat_vp) fun sv => ?_
  have e1 : ∀ i' : InputData, i' = (if p.input1.e_a > sv then { p.input1 with e_a := sv } else p.input1) →
      (if (p.input1.ground t).e_a > sv then { p.input1.ground t with e_a := sv } else p.input1.ground t) = i'.ground t := by
    intro i' h
    rw [h]
    show (if p.input1.e_a > sv then _ else _) = _
    split <;> rfl
  dsimp only
  rw [e1 _ rfl, map_bind_err]
  refine bind_ext_err fun es => ?_
  rw [map_bind_err]
  refine bind_ext_err fun r => ?_
  dsimp only
  split <;> rfl

theorem applied_ground (dl : InputData) (t : ℝ) (i : InputData) : applied dl (i.ground t) = (applied dl i).ground t := by
  unfold applied
  show (if i.precip_now then _ else _) = _
  split <;> rfl

/-- What other ground does to the energy balance of a snow cover: only the conduction from the ground changes, and the balances by as much. -/
theorem energy_balance_ground {c : Env} {dt t : ℝ} {p q q' : Phys} (h : energy_balance c dt p = .ok q)
    (h' : energy_balance c dt { p with input1 := p.input1.ground t } = .ok q') :
    q'.input1 = q.input1.ground t ∧ ∃ e, q'.snow = q.snow.setEn e ∧
      ((p.snow.layer_count = 0 ∧ e = q.snow.en) ∨
       (p.snow.layer_count > 0 ∧ q.input1.t_g = p.input1.t_g ∧ g_soil c q.input1 (decide (p.snow.layer_count = 1)) p.snow = .ok q.snow.en.G ∧
        g_soil c (q.input1.ground t) (decide (p.snow.layer_count = 1)) p.snow = .ok e.G ∧
        e.R_n = q.snow.en.R_n ∧ e.H = q.snow.en.H ∧ e.L_v_E = q.snow.en.L_v_E ∧ e.M = q.snow.en.M ∧
        e.G_0 = q.snow.en.G_0 + (if p.snow.layer_count = 1 then e.G - q.snow.en.G else 0) ∧
        e.delta_Q_0 = q.snow.en.delta_Q_0 + (if p.snow.layer_count = 1 then e.G - q.snow.en.G else 0) ∧
        e.delta_Q = q.snow.en.delta_Q + (e.G - q.snow.en.G))) := by
  unfold energy_balance at h h'
  by_cases hl : p.snow.layer_count > 0
  · rw [if_pos hl] at h
    replace h' := (if_pos (show ({ p with input1 := p.input1.ground t } : Phys).snow.layer_count > 0 from hl)).symm.trans h'
    rw [h_le_ground] at h'
    dsimp only at h h'
    obtain ⟨⟨r, p1⟩, h1, h⟩ := bind_eq_ok.mp h
    have hp1 : p1.snow = p.snow ∧ p1.input1.t_g = p.input1.t_g := by
      unfold h_le at h1
      obtain ⟨_, _, h1⟩ := bind_eq_ok.mp h1
      obtain ⟨_, _, h1⟩ := bind_eq_ok.mp h1
      obtain ⟨_, _, h1⟩ := bind_eq_ok.mp h1
      dsimp only at h1
      split at h1
      · cases h1
      · simp only [pure_ok, bind_ok, Except.ok.injEq, Prod.mk.injEq] at h1
        rw [← h1.2]
        dsimp only
        refine ⟨rfl, ?_⟩
        split <;> rfl
    rw [h1] at h'
    have hn : net_radiation (p.input1.ground t) p.snow = net_radiation p.input1 p.snow := rfl
    rw [hn] at h'
    replace h' : (heat_transfer c (p1.input1.ground t) p1.snow >>= fun a => (advec p1.input1 dt p1.snow >>= _)) = _ := h'
    dsimp only at h
    obtain ⟨⟨G, G0⟩, h2, h⟩ := bind_eq_ok.mp h
    obtain ⟨⟨G', G0'⟩, h2', h'⟩ := bind_eq_ok.mp h'
    obtain ⟨M, h3, h⟩ := bind_eq_ok.mp h
    obtain ⟨M', h3', h'⟩ := bind_eq_ok.mp h'
    rw [h3] at h3'; cases h3'
    simp only [pure_ok, Except.ok.injEq] at h h'
    subst h h'
    rw [hp1.1] at h2 h2'
    dsimp only
    refine ⟨rfl, _, rfl, .inr ⟨hl, hp1.2, ?_⟩⟩
    unfold heat_transfer at h2 h2'
    by_cases h1 : p.snow.layer_count = 1
    · rw [if_pos h1] at h2 h2'
      obtain ⟨y, hy, h2⟩ := bind_eq_ok.mp h2
      obtain ⟨y', hy', h2'⟩ := bind_eq_ok.mp h2'
      simp only [pure_ok, Except.ok.injEq, Prod.mk.injEq] at h2 h2'
      obtain ⟨rfl, rfl⟩ := h2
      obtain ⟨rfl, rfl⟩ := h2'
      simp only [h1, decide_true, if_true]
      refine ⟨hy, hy', trivial, trivial, trivial, trivial, ?_, ?_, ?_⟩ <;> ring
    · rw [if_neg h1] at h2 h2'
      obtain ⟨y, hy, h2⟩ := bind_eq_ok.mp h2
      obtain ⟨y', hy', h2'⟩ := bind_eq_ok.mp h2'
      obtain ⟨z, hz, h2⟩ := bind_eq_ok.mp h2
      obtain ⟨z', hz', h2'⟩ := bind_eq_ok.mp h2'
      rw [hz] at hz'; cases hz'
      simp only [pure_ok, Except.ok.injEq, Prod.mk.injEq] at h2 h2'
      obtain ⟨rfl, rfl⟩ := h2
      obtain ⟨rfl, rfl⟩ := h2'
      simp only [h1, decide_false, if_false]
      refine ⟨hy, hy', trivial, trivial, trivial, trivial, ?_, ?_, ?_⟩ <;> ring
  · have h0 : p.snow.layer_count = 0 := by omega
    rw [if_neg hl] at h
    replace h' := (if_neg (show ¬ ({ p with input1 := p.input1.ground t } : Phys).snow.layer_count > 0 from hl)).symm.trans h'
    simp only [Except.ok.injEq] at h h'
    subst h h'
    exact ⟨rfl, _, rfl, .inl ⟨h0, rfl⟩⟩

/-! ## Specification -/

/-- The temperature of the layer that lies on the ground. -/
def Snow.baseTemp (s : Snow) : ℝ := if s.layer_count = 1 then s.t_s_0 else s.t_s_l

/-- What a run step of length `dt` leaves (`s`), and what it would have left (`s'`) on warmer ground; `n` is the number of layers at its
start. -/
structure WarmerGround (dt : ℝ) (n : ℕ) (s s' : Snow) : Prop where
  /-- no less heat comes from the ground, and no other flux changes -/
  ground : s.en.G ≤ s'.en.G
  fluxes : s'.en.R_n = s.en.R_n ∧ s'.en.H = s.en.H ∧ s'.en.L_v_E = s.en.L_v_E ∧ s'.en.M = s.en.M ∧ s'.E = s.E
  /-- the difference reaches the surface layer in the same step only if it is the only layer -/
  surface : s'.en.G_0 = s.en.G_0 + (if n = 1 then s'.en.G - s.en.G else 0) ∧
    s'.en.delta_Q_0 = s.en.delta_Q_0 + (if n = 1 then s'.en.G - s.en.G else 0)
  balance : s'.en.delta_Q = s.en.delta_Q + (s'.en.G - s.en.G)
  /-- no less melts, and no more than the additional heat can melt -/
  melt : s.melt ≤ s'.melt
  melt_bound : 333600 * (s'.melt - s.melt) ≤ (s'.en.G - s.en.G) * dt
  /-- the surface layer is left no colder -/
  cold : s.snowcover = true → s'.snowcover = true → s.cc_s_0 ≤ s'.cc_s_0

/-! ## The step -/

theorem warmer_step {g : Config} {c : Env} {dt : ℝ} {d : InputData} {lv : Level} {p p1 p2 : Phys} {t : ℝ} (hc : c.OK)
    (hv : c.max_h2o_vol = g.max_h2o) (hdt : 0 < dt) (hi : Inv c p.snow) (hh : 0 ≤ p.snow.h2o)
    (h1 : stepPhys c dt d p = .ok p1) (hf : p1.input1.precip_now = true → StepForcing p1.input1)
    (hz : 0 < c.z_g) (hs : p.snow.layer_count > 0 → 0 < p.snow.m_s ∧ p.snow.baseTemp ≤ FREEZE ∧ GroundOK c p.input1.t_g t ∧
      GroundStep p.snow.baseTemp p.input1.t_g t)
    (h2 : stepPhys c dt d { p with input1 := p.input1.ground t } = .ok p2) :
    WarmerGround dt p.snow.layer_count p1.snow p2.snow := by
  have hmax := hc.max_z
  obtain ⟨s0, s1, s2, s3, s4, s5, s6, k⟩ := step_chain hmax hi h1
  obtain ⟨s0', s1', s2', s3', s4', s5', s6', k'⟩ := step_chain (p := { p with input1 := p.input1.ground t }) hmax hi h2
  -- the fluxes
  have ke := k.eb
  have ke' := k'.eb
  dsimp only at ke ke'
  rw [applied_ground] at ke'
  obtain ⟨hin, e', hs0, hcase⟩ := energy_balance_ground (t := t)
    (p := ⟨{ p.snow with h2o_total := 0, snowcover := decide (p.snow.layer_count > 0) }, applied d p.input1, p.init_ustar, p.init_factor⟩) ke ke'
  dsimp only at hin hs0
  obtain ⟨Δ, hΔ, hG0, hfx, hz1, hz2, hz3⟩ : ∃ Δ, Δ = e'.G - s0.en.G ∧ 0 ≤ Δ ∧
      (e'.R_n = s0.en.R_n ∧ e'.H = s0.en.H ∧ e'.L_v_E = s0.en.L_v_E ∧ e'.M = s0.en.M) ∧
      e'.G_0 = s0.en.G_0 + (if p.snow.layer_count = 1 then Δ else 0) ∧
      e'.delta_Q_0 = s0.en.delta_Q_0 + (if p.snow.layer_count = 1 then Δ else 0) ∧ e'.delta_Q = s0.en.delta_Q + Δ := by
    refine ⟨_, rfl, ?_⟩
    rcases hcase with ⟨h0, e⟩ | ⟨hl, htg, g1, g2, r1, r2, r3, r4, r5, r6, r7⟩
    · rw [e]; simp
    · refine ⟨?_, ⟨r1, r2, r3, r4⟩, r5, r6, r7⟩
      have hl : p.snow.layer_count > 0 := hl
      obtain ⟨a1, a2, a3, a6⟩ := hs hl
      have h0 := (hi.lc_pos_iff hmax).mp hl
      have hzp := hi.z_pos h0
      have hr : 0 < p.snow.rho := by rw [hi.dens h0]; exact div_pos a1 hzp
      have htg' : p1.input1.t_g = p.input1.t_g := by
        have : (applied d p.input1).t_g = p.input1.t_g := by unfold applied; split <;> rfl
        exact htg.trans this
      rw [sub_nonneg]
      have hb : (if decide (p.snow.layer_count = 1) = true then p.snow.t_s_0 else p.snow.t_s_l) = p.snow.baseTemp := by
        unfold Snow.baseTemp; simp
      have hd : 0 < if decide (p.snow.layer_count = 1) = true then p.snow.z_s_0 else p.snow.z_s_l := by
        by_cases h1 : p.snow.layer_count = 1
        · simp only [h1, decide_true, if_true]; exact h0
        · simp only [h1, decide_false, Bool.false_eq_true, if_false]
          have h2 : p.snow.layer_count = 2 := by
            have := lc_le_two p.snow
            omega
          exact (lc_eq_two.mp h2).2
      have htt := a6.1
      rw [← htg'] at a3 htt
      exact g_soil_mono (s := p.snow) (b := decide (p.snow.layer_count = 1)) (a3.lower hz htt) (a3.upper hz htt) hz a3.cool hr hd (by rw [hb]; exact a2) (by rw [hb, htg']; exact a6) g1 g2
  have lift : ∀ {f : Snow → Except Err Snow} (_ : ∀ e s, f (s.setEn e) = (f s).map (Snow.setEn e)) {a a' b b' : Snow},
      f a = .ok b → f a' = .ok b' → a' = a.setEn e' → b' = b.setEn e' ∧ b.en = a.en := by
    intro f hf a a' b b' h h' ea
    have q1 := hf e' a
    rw [← ea, h', h] at q1
    have q2 := hf a.en a
    have e0 : a.setEn a.en = a := rfl
    rw [e0] at q2
    have q3 : Except.ok b = (Except.ok b : Except Err Snow).map (Snow.setEn a.en) := by
      have q4 := q2
      rw [h] at q4
      exact q4
    have q5 : b = b.setEn a.en := Except.ok.inj q3
    have q6 : b.en = (b.setEn a.en).en := congrArg Snow.en q5
    exact ⟨Except.ok.inj q1, q6⟩
  obtain ⟨hs1, en1⟩ := lift (fun e s => time_compact_setEn c e dt s) k.tc k'.tc hs0
  have hpe' : precip_event c p1.input1 s1' = .ok s2' := by
    have := k'.pe
    rw [hin] at this
    exact this
  obtain ⟨hs2, en2⟩ := lift (fun e s => precip_event_setEn c e p1.input1 s) k.pe hpe' hs1
  have en20 : s2.en = s0.en := by rw [en2, en1]
  have en2' : s2'.en = e' := by rw [hs2]; rfl
  -- the melt stage
  obtain ⟨m1, n1, o1, _⟩ := k.melt_en hmax
  obtain ⟨m2, n2, o2, _⟩ := k'.melt_en hmax
  have hmelt : ∀ {a b : Snow}, Inv c a → snowmelt c dt a = .ok b → b.en = a.en ∧ b.E = a.E ∧
      ((a.snowcover = false ∧ b.melt = 0) ∨ (a.snowcover = true ∧ ∃ t r, MeltRes dt a t r ∧ b.melt = t.melt)) := by
    intro a b hi h
    rcases snowmelt_out hmax hi h with ⟨hf, e⟩ | ⟨hf, t, r, hm, _, h3⟩
    · rw [e]; exact ⟨rfl, rfl, .inl ⟨hf, rfl⟩⟩
    · have ht : t.en = a.en ∧ t.E = a.E := by rw [hm.frame]; exact ⟨rfl, rfl⟩
      rcases h3 with ⟨st, _⟩ | hg
      · exact ⟨st.en.trans ht.1, st.E.trans ht.2, .inr ⟨hf, t, r, hm, st.melt⟩⟩
      · exact ⟨hg.en.trans ht.1, hg.E.trans ht.2, .inr ⟨hf, t, r, hm, hg.melt⟩⟩
  obtain ⟨en3, E3, c3⟩ := hmelt k.i2 k.sm
  obtain ⟨en3', E3', c3'⟩ := hmelt k'.i2 k'.sm
  have ena : p1.snow.en = s0.en := by rw [n1, en3, en20]
  have enb : p2.snow.en = e' := by rw [n2, en3', en2']
  obtain ⟨δ₀, δₗ, hδ₀, hδₗ, hsum, hq, hql⟩ : ∃ δ₀ δₗ, 0 ≤ δ₀ ∧ 0 ≤ δₗ ∧ δ₀ + δₗ = Δ * dt ∧ e'.delta_Q_0 * dt = s2.en.delta_Q_0 * dt + δ₀ ∧
      (e'.G - e'.G_0) * dt = (s2.en.G - s2.en.G_0) * dt + δₗ := by
    have hΔt := mul_nonneg hG0 hdt.le
    have eG : e'.G = s0.en.G + Δ := by linarith
    rw [en20, hz1, hz2, eG]
    split
    · exact ⟨Δ * dt, 0, hΔt, le_refl _, by ring, by ring, by ring⟩
    · exact ⟨0, Δ * dt, le_refl _, hΔt, by ring, by ring, by ring⟩
  have hE : p2.snow.E = p1.snow.E := by
    rw [o1, o2, E3, E3', hs2]; rfl
  have hcov : s2'.snowcover = s2.snowcover := by rw [hs2]; rfl
  have hmm : p1.snow.melt ≤ p2.snow.melt ∧ 333600 * (p2.snow.melt - p1.snow.melt) ≤ Δ * dt := by
    rw [m1, m2]
    rcases c3 with ⟨f, e⟩ | ⟨f, t, r, hm, e⟩ <;> rcases c3' with ⟨f', e''⟩ | ⟨f', t', r', hm', e''⟩
    · rw [e, e'', sub_self, mul_zero]
      exact ⟨le_refl _, mul_nonneg hG0 hdt.le⟩
    · rw [hcov, f] at f'; cases f'
    · rw [hcov, f] at f'; cases f'
    · rw [hs2] at hm'
      obtain ⟨a1, a2, _⟩ := melt_mono2 hm hm' hδ₀ hδₗ hql hq
      rw [e, e'']
      rw [lf_eq, hsum] at a2
      exact ⟨a1, a2⟩
  have fin : ∀ {q q' : Phys} {a0 a1 a2 a3 a4 a5 a6 t : Snow}, StepChain c dt d q q' a0 a1 a2 a3 a4 a5 a6 → Stay c t a2.m_s a3 →
      q'.snow.snowcover = true → q'.snow.cc_s_0 = t.cc_s_0 := by
    intro q q' a0 a1 a2 a3 a4 a5 a6 t k st hs
    obtain ⟨f6, f5, f4, f3, _⟩ := k.persist hmax hs
    obtain ⟨_, _, el, w, _, hw, hE, st4, _⟩ := k.flag4 hmax f4
    obtain ⟨_, st5, _⟩ := k.flag5 hmax f5
    obtain ⟨_, _, _, d4, d5, d6, _, _, _, den, dcc, _⟩ := k.drained hmax f5
    rw [k.frame7]
    show a6.cc_s_0 = _
    rw [dcc, st5.cc0, st4.cc0]; exact st.cc0
  have hf2 : p2.input1.precip_now = true → StepForcing p2.input1 := by
    rw [hin]
    intro h
    obtain ⟨b1, b2, b3, b4, b5, b6, b7, b8⟩ := hf h
    exact ⟨b1, b2, b3, b4, b5, b6, b7, b8⟩
  refine ⟨?_, ?_, ?_, ?_, hmm.1, ?_, fun c1 c2 => ?_⟩
  · rw [ena, enb]; linarith
  · rw [ena, enb]; exact ⟨hfx.1, hfx.2.1, hfx.2.2.1, hfx.2.2.2, hE⟩
  · rw [ena, enb, ← hΔ]; exact ⟨hz1, hz2⟩
  · rw [ena, enb, ← hΔ]; exact hz3
  · rw [ena, enb, ← hΔ]; exact hmm.2
  · obtain ⟨r0, rl, w, wb, _, t1, hm, st, _⟩ := k.ledgers (g := g) (x := ⟨lv, p, p1⟩) hc hv hdt hh hf c1
    obtain ⟨r0', rl', w', wb', _, t1', hm', st', _⟩ :=
      k'.ledgers (g := g) (x := ⟨lv, { p with input1 := p.input1.ground t }, p2⟩) hc hv hdt hh hf2 c2
    obtain ⟨_, _, _, _, f2, _⟩ := k.persist hmax c1
    have h02 := k.i2.flag f2
    have hz2 := k.i2.z_pos h02
    have b2 := k.books2 hc hh hf
    rw [fin k st c1, fin k' st' c2]
    rw [hs2] at hm'
    exact (melt_mono2 hm hm' hδ₀ hδₗ hql hq).2.2 hz2 h02.le b2.total

/-- C86, run steps: in every run step of every simulation with admissible data, if the ground had been warmer (`t'` instead of the
temperature of the forcing), not through the freezing point from a temperature above that of the base of the pack, and the step had been
completed as well: no less heat would have come from the ground, no other flux would have changed, no less snow would have melted, and
the surface layer would have been left no colder. -/
theorem C86_warmer_ground_step (g : Config) (hg : g.Tiled) (ha : g.AdmissibleStart) (hz : 0 < g.z_g) (rows : List Rec)
    (hr : ∀ r ∈ rows, r.Admissible) (ls : List (List (RStep Phys))) (m : Model)
    (h : RunTrace g rows ls m) : ∃ c ts, mkEnv g = .ok c ∧ parse_time_steps g = .ok ts ∧
      ∀ l ∈ ls, ∀ x ∈ l, ∃ d, stepPhys c (ts x.lv).time_step d x.pre = .ok x.post ∧
        ∀ t' y,
          (x.pre.snow.layer_count > 0 → 0 < x.pre.snow.m_s ∧ x.pre.snow.baseTemp ≤ FREEZE ∧
            GroundOK c x.pre.input1.t_g t' ∧ GroundStep x.pre.snow.baseTemp x.pre.input1.t_g t') →
          stepPhys c (ts x.lv).time_step d { x.pre with input1 := { x.pre.input1 with t_g := t' } } = .ok y →
          WarmerGround (ts x.lv).time_step x.pre.snow.layer_count x.post.snow y.snow := by
  obtain ⟨c, ts, hc, hts, ho, ht, hx⟩ := trace_closed hg ha hr h
  refine ⟨c, ts, hc, hts, fun l hl x hxl => ?_⟩
  obtain ⟨d, ⟨h1, h1'⟩, _, hf, h3, _⟩ := hx l hl x hxl
  have hzg : 0 < c.z_g := by
    have : c.z_g = g.z_g := (mkEnv_ok hc).2.2.2.2.2.2.2.1
    rw [this]; exact hz
  exact ⟨d, h3, fun t' y hs h2 =>
    warmer_step (g := g) (lv := x.lv) ho (mkEnv_ok hc).2.2.1 (ht.step_pos x.lv) h1 h1' h3 hf hzg hs h2⟩

/-! ## Records -/

/-- What two output records of the same data step say, the second of a run on warmer ground during that step (of length `dt`); `n` is the
number of layers at its start.  `covered`: there is snow at its end, in both runs. -/
structure WarmerGroundRecord (dt : ℝ) (n : ℕ) (covered : Prop) (o o' : OutRec) : Prop where
  stamp : o'.date_time = o.date_time
  ground : o.G_bar ≤ o'.G_bar
  fluxes : o'.R_n_bar = o.R_n_bar ∧ o'.H_bar = o.H_bar ∧ o'.L_v_E_bar = o.L_v_E_bar ∧ o'.M_bar = o.M_bar
  surface : o'.G_0_bar = o.G_0_bar + (if n = 1 then o'.G_bar - o.G_bar else 0) ∧
    o'.delta_Q_0_bar = o.delta_Q_0_bar + (if n = 1 then o'.G_bar - o.G_bar else 0)
  balance : o'.delta_Q_bar = o.delta_Q_bar + (o'.G_bar - o.G_bar)
  melt : o.melt_sum ≤ o'.melt_sum
  melt_bound : 333600 * (o'.melt_sum - o.melt_sum) ≤ (o'.G_bar - o.G_bar) * dt
  cold : covered → o.cc_s_0 ≤ o'.cc_s_0

/-- C86, records: two runs with the same records up to `a`, for which the second has a greater ground temperature `t'`, not through the
freezing point from above the temperature of the base of the pack; each run completes one more data step, with any further record.  If
neither this nor the preceding data step is divided (no layer is lighter than the normal threshold when it starts), the records of both
runs are the same except for the last, which shows, for the run on warmer ground, as much or more heat from the ground and melt, and a
surface layer no colder. -/
theorem C86_warmer_ground_record (g : Config) (hg : g.Tiled) (ha : g.AdmissibleStart) (hz : 0 < g.z_g) (L : List Rec) (a b b' : Rec) (t' : ℝ)
    (hr : ∀ r ∈ L ++ [a, b], r.Admissible) (c : Env) (hcc : mkEnv g = .ok c)
    (before : L = [] ∨ ∃ m0, simulate g L = .ok m0 ∧ m0.phys.snow.NoThinLayer g.norm_threshold)
    (m1 : Model) (h1 : simulate g (L ++ [a]) = .ok m1) (now : m1.phys.snow.NoThinLayer g.norm_threshold)
    (soil : m1.phys.snow.layer_count > 0 → 0 < m1.phys.snow.m_s ∧ m1.phys.snow.baseTemp ≤ FREEZE ∧ GroundOK c a.t_g t' ∧
      GroundStep m1.phys.snow.baseTemp a.t_g t')
    (m m' : Model) (h : simulate g (L ++ [a, b]) = .ok m) (h' : simulate g (L ++ [{ a with t_g := t' }, b']) = .ok m') :
    ∃ out o o', m.output_list = out ++ [o] ∧ m'.output_list = out ++ [o'] ∧
      WarmerGroundRecord (g.norm_time_step * 60) m1.phys.snow.layer_count
        (m.phys.snow.snowcover = true ∧ m'.phys.snow.snowcover = true) o o' := by
  obtain ⟨c_, ts, ia, ib, m1_, ls, l, hc, hts, na, nb, e1, hd, htr, hex⟩ := simulate_last h
  rw [hcc] at hc; cases hc
  have hc := hcc
  rw [h1] at e1
  cases e1
  obtain ⟨c', ts', ia', ib', m1', ls', l', hc', hts', na', nb', e1', hd', _, _⟩ := simulate_last h'
  rw [hc] at hc'; cases hc'
  rw [hts] at hts'; cases hts'
  have ht := parse_tile hg hts
  have hthr : (ts .normal).threshold = g.norm_threshold := by
    unfold parse_time_steps at hts
    obtain ⟨a, _, hts⟩ := bind_eq_ok.mp hts
    obtain ⟨b, _, hts⟩ := bind_eq_ok.mp hts
    obtain ⟨d, _, hts⟩ := bind_eq_ok.mp hts
    simp only [pure_ok, Except.ok.injEq] at hts
    rw [← hts]
  -- the runs agree up to here
  have same : m1'.setIn ia = m1.setIn ia := by
    rcases before with rfl | ⟨m0, h0, hb0⟩
    · obtain ⟨_, i1, _, mm, a1, a2, a3, a4, a5⟩ := simulate_ok (r := a) (rs := []) h1
      obtain ⟨_, i1', _, mm', b1, b2, b3, b4, b5⟩ := simulate_ok (r := { a with t_g := t' }) (rs := []) e1'
      rw [a3] at b3; cases b3
      simp only [runSteps, Except.ok.injEq] at a5 b5
      subst a5 b5
      unfold mkModel at a4 b4
      obtain ⟨s, hs, a4⟩ := bind_eq_ok.mp a4
      obtain ⟨s', hs', b4⟩ := bind_eq_ok.mp b4
      rw [hs] at hs'; cases hs'
      simp only [pure_ok, Except.ok.injEq] at a4 b4
      rw [← a4, ← b4]; rfl
    · obtain ⟨K, z, rfl⟩ : ∃ K z, L = K ++ [z] := by
        rcases List.eq_nil_or_concat L with rfl | ⟨K, z, e⟩
        · simp [simulate] at h0
        · exact ⟨K, z, by rw [e, List.concat_eq_append]⟩
      rw [List.append_assoc] at h1 e1'
      obtain ⟨c2, ts2, iz, i2, n1, _, _, a1, a2, a3, a4, a5, a6, _, _⟩ := simulate_last h1
      obtain ⟨c3, ts3, iz', i3, n1', _, _, b1, b2, b3, b4, b5, b6, _, _⟩ := simulate_last e1'
      rw [hc] at a1 b1; cases a1; cases b1
      rw [hts] at a2 b2; cases a2; cases b2
      rw [a3] at b3; cases b3
      rw [h0] at a5 b5; cases a5; cases b5
      have := data_normal_setIn (c := c) (all := g.output_all) ht a3 i2 i3 ia (m := m0) (by rw [hthr]; exact below_of_noThin hb0)
      rw [a6, b6] at this
      exact (Except.ok.inj this).symm
  have hd2 : do_data_tstep c ts g.output_all ia' ib' m1 = .ok m' := by
    have q1 : do_data_tstep c ts g.output_all ia' ib' m1' = do_data_tstep c ts g.output_all ia' ib' (m1'.setIn ia) := rfl
    have q2 : do_data_tstep c ts g.output_all ia' ib' (m1.setIn ia) = do_data_tstep c ts g.output_all ia' ib' m1 := rfl
    rw [← q2, ← same, ← q1]; exact hd'
  have hb : below_thold (ts .normal).threshold m1.phys.snow = false := by rw [hthr]; exact below_of_noThin now
  obtain ⟨p1, s1⟩ := do_data_normal_inv ht na hb hd
  obtain ⟨p2, s2⟩ := do_data_normal_inv ht na' hb hd2
  have h0 := C10_nothing_pending g hg _ _ h1
  have f1 := do_data_normal (all := g.output_all) ht na h0 hb s1
  have f2 := do_data_normal (all := g.output_all) ht na' h0 hb s2
  rw [hd] at f1
  rw [hd2] at f2
  have f1 := Except.ok.inj f1
  have f2 := Except.ok.inj f2
  have hia : ia' = ia.ground t' := by
    rw [(new_ok na).1, (new_ok na').1]; rfl
  rw [stepPhys_precip c _ _ (show ia'.update_precip_deltas _ = ia'.update_precip_deltas (deltaRec ia ib 1).toInput by rw [hia]; rfl)] at s2
  obtain ⟨_, w1, w2, _⟩ := executed_normal (all := g.output_all) ht na h0 hb s1
  have hll := (Executed.unique hex w2).1
  obtain ⟨c4, ts4, d1, d2, ho, _, hx⟩ := trace_closed hg ha hr htr
  rw [hc] at d1; cases d1
  rw [hts] at d2; cases d2
  obtain ⟨_, ⟨i1, i2⟩, _, hf, _, _⟩ := hx l (by simp) (⟨.normal, { m1.phys with input1 := ia }, p1⟩ : RStep Phys) (by rw [hll]; simp)
  have hS : ia.t_g = a.t_g := by rw [(new_ok na).1]; rfl
  have hzg : 0 < c.z_g := by
    have : c.z_g = g.z_g := (mkEnv_ok hc).2.2.2.2.2.2.2.1
    rw [this]; exact hz
  have key := warmer_step (g := g) (lv := .normal) (p := { m1.phys with input1 := ia }) (t := t') ho (mkEnv_ok hc).2.2.1 (ht.step_pos .normal) i1 i2 s1 hf
    hzg (by dsimp only; rw [hS]; exact soil) (by rw [hia] at s2; exact s2)
  have hdt : (ts .normal).time_step = g.norm_time_step * 60 := by
    obtain ⟨_, _, en, _, _⟩ := parse_ok hts
    rw [en]
    push_cast
    ring
  rw [hdt] at key
  have k1 : m.phys.snow = p1.snow := by rw [f1]
  have k2 : m'.phys.snow = p2.snow := by rw [f2]
  refine ⟨m1.output_list, _, _, by rw [f1], by rw [f2], ?_⟩
  rw [k1, k2]
  exact ⟨rfl, key.ground, ⟨key.fluxes.1, key.fluxes.2.1, key.fluxes.2.2.1, key.fluxes.2.2.2.1⟩,
    key.surface, key.balance, key.melt, key.melt_bound, fun h => key.cold h.1 h.2⟩

end

end Pysnobal
