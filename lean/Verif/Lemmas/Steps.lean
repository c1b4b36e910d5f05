import Verif.Lemmas.Invariant

/-! # Each routine of the run step as an explicit case distinction -/

namespace Pysnobal

noncomputable section

theorem time_compact_ok {c : Env} {dt : ℝ} {s s' : Snow} (h : time_compact c dt s = .ok s') :
    ((s.snowcover = false ∨ s.rho ≥ 550) ∧ s' = s) ∨
    (s.snowcover = true ∧ s.rho < 550 ∧ ∃ rate d1 d2, compactRate dt s = .ok rate ∧ rate ≠ 0 ∧
      d1 = 0.01 * (if s.rho < 100 then 1 else Real.exp (-0.046 * (s.rho - 100))) *
        Real.exp (-0.04 * (FREEZE - s.t_s)) / rate ∧
      d2 = 0.026 * Real.exp (-0.08 * (FREEZE - s.t_s)) * s.m_s * Real.exp (-21 * (s.rho / RHO_W0)) / rate ∧
      s.rho + (d1 + d2) * s.rho ≠ 0 ∧
      s' = adj_layers c { s with rho := s.rho + (d1 + d2) * s.rho,
                                 z_s := s.m_s / (s.rho + (d1 + d2) * s.rho) }) := by
  unfold time_compact at h
  by_cases h1 : s.snowcover = false ∨ s.rho ≥ RHO_MAX
  · rw [if_pos h1] at h
    left
    simp only [Except.ok.injEq] at h
    exact ⟨h1, h.symm⟩
  · rw [if_neg h1] at h
    right
    unfold RHO_MAX at h1
    push Not at h1
    obtain ⟨rate, hr, h⟩ := bind_eq_ok.mp h
    obtain ⟨d1, hd1, h⟩ := bind_eq_ok.mp h
    obtain ⟨d2, hd2, h⟩ := bind_eq_ok.mp h
    obtain ⟨z, hz, h⟩ := bind_eq_ok.mp h
    rw [pdiv_eq_ok] at hd1 hd2 hz
    simp only [pure_ok, Except.ok.injEq] at h
    refine ⟨by simpa using h1.1, h1.2, rate, d1, d2, hr, hd1.1, hd1.2, hd2.2, hz.1, ?_⟩
    rw [← h, hz.2]

/-- Liquid water that a wet snowfall brings along (snobal.py:617–618). -/
def wetWater (c : Env) (i : InputData) : ℝ :=
  h2o_left i.z_snow i.rho_snow (i.h2o_sat_snow * c.max_h2o_vol)

/-- The state handed to `init_snow` by `precip_event` (snobal.py:624–630). -/
def freshSnow (i : InputData) (s : Snow) : Snow :=
  { s with z_s := i.z_snow, rho := i.rho_snow, t_s := i.t_snow, t_s_0 := i.t_snow,
           t_s_l := i.t_snow, h2o_sat := i.h2o_sat_snow }

theorem precip_event_ok {c : Env} {i : InputData} {s s' : Snow} (h : precip_event c i s = .ok s') :
    (i.precip_now = false ∧ s' = { s with h2o_total := s.h2o_total + s.h2o }) ∨
    (i.precip_now = true ∧ s.snowcover = true ∧ ∃ s1, s1 = adj_snow c i.z_snow i.m_pp s ∧
      s' = { s1 with h2o := s1.h2o + wetWater c i,
                     h2o_total := s1.h2o_total + (s1.h2o + wetWater c i + i.m_rain) }) ∨
    (i.precip_now = true ∧ s.snowcover = false ∧ i.m_snow > 0 ∧ ∃ s1,
      init_snow c (freshSnow i s) = .ok s1 ∧
      s' = { s1 with h2o_total := s1.h2o_total + (s1.h2o + i.m_rain) }) ∨
    (i.precip_now = true ∧ s.snowcover = false ∧ ¬ i.m_snow > 0 ∧
      s' = { s with h2o_total := s.h2o_total + (s.h2o + i.m_rain) }) := by
  unfold precip_event at h
  cases hp : i.precip_now
  · left
    simp [hp] at h
    exact ⟨rfl, h.symm⟩
  · right
    simp only [hp, if_true] at h
    by_cases hs : s.snowcover = true
    · left
      rw [if_pos hs] at h
      simp only [pure_ok, bind_ok, Except.ok.injEq] at h
      exact ⟨rfl, hs, _, rfl, h.symm⟩
    · right
      rw [if_neg hs] at h
      have hs' : s.snowcover = false := by simpa using hs
      by_cases hm : i.m_snow > 0
      · left
        rw [if_pos hm] at h
        obtain ⟨s1, h1, h⟩ := bind_eq_ok.mp h
        simp only [pure_ok, Except.ok.injEq] at h
        exact ⟨rfl, hs', hm, s1, h1, h.symm⟩
      · right
        rw [if_neg hm] at h
        simp only [pure_ok, bind_ok, Except.ok.injEq] at h
        exact ⟨rfl, hs', hm, h.symm⟩

/-- The state before the final depth adjustment of `snowmelt`. -/
structure MeltRes (dt : ℝ) (s s1 : Snow) (r : ℝ) : Prop where
  frame : s1 = { s with melt := s1.melt, cc_s_0 := s1.cc_s_0, cc_s_l := s1.cc_s_l,
                        h2o_total := s1.h2o_total }
  melt_eq : s1.melt = (if meltQ0 dt s > 0 then melt (meltQ0 dt s) else 0) +
    (if s.layer_count = 2 ∧ meltQl dt s > 0 then melt (meltQl dt s) else 0)
  one : s.layer_count ≠ 2 → s1.cc_s_l = s.cc_s_l
  cc0 : s1.cc_s_0 ≤ 0
  ccl : s.layer_count = 2 → s1.cc_s_l ≤ 0
  surf : s1.cc_s_0 = min 0 (meltQ0 dt s) ∨ ∃ f, s.z_s ≠ 0 ∧ f = s.z_s_0 / s.z_s ∧
    meltQ0 dt s < 0 ∧ 0 < s.h2o_total + s1.melt ∧
    s1.cc_s_0 = min 0 (meltQ0 dt s + (s.h2o_total + s1.melt) * f * lh_fus FREEZE)
  water : s1.h2o_total = (if |s.h2o_total + s1.melt - r| ≤ 1e-8 then 0 else s.h2o_total + s1.melt - r)
  /-- no more water refreezes than there is -/
  bound : s.z_s = s.z_s_0 + s.z_s_l → 0 < s.z_s_0 → 0 ≤ s.z_s_l → (0 < s.z_s_l ↔ s.layer_count = 2) →
    0 ≤ s.h2o_total + s1.melt → 0 ≤ r ∧ r ≤ s.h2o_total + s1.melt
  /-- refreezing only removes cold content of the lower layer -/
  ccl_ge : 0 ≤ s.z_s_l / s.z_s → 0 ≤ s.h2o_total + s1.melt → s.layer_count = 2 →
    min 0 (meltQl dt s) ≤ s1.cc_s_l
  /-- refrozen water accounts for the cold content it removes -/
  energy : lh_fus FREEZE * r = (s1.cc_s_0 - min 0 (meltQ0 dt s)) +
    (if s.layer_count = 2 then s1.cc_s_l - min 0 (meltQl dt s) else 0)
  /-- the surface layer refreezes all the water its cold content can, up to its share -/
  surf_law : 0 ≤ s.h2o_total + s1.melt → 0 ≤ s.z_s_0 / s.z_s →
    s1.cc_s_0 - min 0 (meltQ0 dt s) =
      min (max 0 (-meltQ0 dt s)) (lh_fus FREEZE * ((s.h2o_total + s1.melt) * (s.z_s_0 / s.z_s)))
  /-- and so does the lower layer -/
  lower_law : s.layer_count = 2 → 0 ≤ s.h2o_total + s1.melt → 0 ≤ s.z_s_l / s.z_s →
    s1.cc_s_l - min 0 (meltQl dt s) =
      min (max 0 (-meltQl dt s)) (lh_fus FREEZE * ((s.h2o_total + s1.melt) * (s.z_s_l / s.z_s)))

theorem lf_eq : lh_fus FREEZE = 333600 := by simp [lh_fus]

theorem melt_nonneg {Q : ℝ} (h : 0 ≤ Q) : 0 ≤ melt Q := by
  unfold melt; rw [lf_eq]; positivity

theorem lf_melt (Q : ℝ) : lh_fus FREEZE * melt Q = Q := by
  unfold melt; rw [lf_eq]; field_simp

theorem sign_cases (q : ℝ) :
    ((q > 0) = False ∧ (q = 0) = False ∧ min 0 q = q) ∨
    ((q > 0) = False ∧ (q = 0) = True ∧ min 0 q = 0) ∨
    ((q > 0) = True ∧ (q = 0) = False ∧ min 0 q = 0) := by
  rcases lt_trichotomy q 0 with h | h | h
  · left; exact ⟨by simp [h.le], by simp [h.ne], min_eq_right h.le⟩
  · right; left; subst h; simp
  · right; right; exact ⟨by simp [h], by simp [h.ne'], min_eq_left h.le⟩

theorem meltLayers_eq (dt : ℝ) (s : Snow) :
    meltLayers dt s = { s with
      melt := (if meltQ0 dt s > 0 then melt (meltQ0 dt s) else 0) +
        (if s.layer_count = 2 ∧ meltQl dt s > 0 then melt (meltQl dt s) else 0)
      cc_s_0 := min 0 (meltQ0 dt s)
      cc_s_l := if s.layer_count = 2 then min 0 (meltQl dt s) else s.cc_s_l
      h2o_total := s.h2o_total + ((if meltQ0 dt s > 0 then melt (meltQ0 dt s) else 0) +
        (if s.layer_count = 2 ∧ meltQl dt s > 0 then melt (meltQl dt s) else 0)) } := by
  unfold meltLayers
  generalize meltQ0 dt s = q0
  generalize meltQl dt s = ql
  by_cases hl : s.layer_count = 2
  all_goals
    have hl1 : ∀ a b : ℝ, Snow.layer_count { s with melt := a, cc_s_0 := b } = s.layer_count :=
      fun _ _ => rfl
    rcases sign_cases q0 with ⟨a1, a2, a3⟩ | ⟨a1, a2, a3⟩ | ⟨a1, a2, a3⟩
  all_goals
    rcases sign_cases ql with ⟨b1, b2, b3⟩ | ⟨b1, b2, b3⟩ | ⟨b1, b2, b3⟩
  all_goals
    simp only [a1, a2, a3, b1, b2, b3, if_true, if_false, hl1, hl, and_true, and_false, add_zero]

/-- Nothing refreezes in a layer that is not cold, or when there is no water. -/
theorem refreeze_none {Q w f : ℝ} (hc : ¬ (min 0 Q < 0 ∧ w > 0)) (hw : 0 ≤ w) (hf : 0 ≤ f) :
    min 0 Q - min 0 Q = min (max 0 (-Q)) (lh_fus FREEZE * (w * f)) := by
  rw [sub_self, lf_eq]
  by_cases hq : Q < 0
  · have hw0 : w = 0 := by
      by_contra hn
      exact hc ⟨by rw [min_eq_right hq.le]; exact hq, lt_of_le_of_ne hw (Ne.symm hn)⟩
    rw [hw0, zero_mul, mul_zero]
    exact (min_eq_right (le_max_left _ _)).symm
  · rw [max_eq_left (by linarith)]
    exact (min_eq_left (by positivity)).symm

theorem refreezeSurf_ok {Q : ℝ} {s s' : Snow} {r : ℝ} (hQ : s.cc_s_0 = min 0 Q)
    (h : refreezeSurf Q s = .ok (s', r)) :
    ∃ x, s' = { s with cc_s_0 := x } ∧ x ≤ 0 ∧ lh_fus FREEZE * r = x - min 0 Q ∧
      (x = min 0 Q ∨ ∃ f, s.z_s ≠ 0 ∧ f = s.z_s_0 / s.z_s ∧ Q < 0 ∧ 0 < s.h2o_total ∧
        x = min 0 (Q + s.h2o_total * f * lh_fus FREEZE)) ∧
      (0 ≤ s.h2o_total → 0 ≤ s.z_s_0 / s.z_s → 0 ≤ r ∧ r ≤ s.h2o_total * (s.z_s_0 / s.z_s)) ∧
      (0 ≤ s.h2o_total → 0 ≤ s.z_s_0 / s.z_s →
        x - min 0 Q = min (max 0 (-Q)) (lh_fus FREEZE * (s.h2o_total * (s.z_s_0 / s.z_s)))) := by
  unfold refreezeSurf at h
  by_cases hc : s.cc_s_0 < 0 ∧ s.h2o_total > 0
  · rw [if_pos hc] at h
    have hq : Q < 0 := by
      by_contra hn
      rw [min_eq_left (not_lt.mp hn)] at hQ
      linarith [hc.1]
    obtain ⟨f, hf, h⟩ := bind_eq_ok.mp h
    rw [pdiv_eq_ok] at hf
    simp only at h
    by_cases hl : Q + s.h2o_total * f * lh_fus FREEZE ≤ 0
    · rw [if_pos hl] at h
      simp only [pure_ok, Except.ok.injEq, Prod.mk.injEq] at h
      refine ⟨_, h.1.symm, hl, ?_, .inr ⟨f, hf.1, hf.2, hq, hc.2, (min_eq_right hl).symm⟩, ?_, ?_⟩
      · rw [min_eq_right hq.le, ← h.2]; ring
      · intro ha hb
        rw [← h.2, hf.2]
        exact ⟨by positivity, le_refl _⟩
      · intro _ _
        rw [← hf.2, min_eq_right hq.le, max_eq_right (by linarith), min_eq_right (by linarith)]
        ring
    · rw [if_neg hl] at h
      simp only [pure_ok, Except.ok.injEq, Prod.mk.injEq] at h
      refine ⟨_, h.1.symm, le_refl _, ?_,
        .inr ⟨f, hf.1, hf.2, hq, hc.2, (min_eq_left (not_le.mp hl).le).symm⟩, ?_, ?_⟩
      · rw [min_eq_right hq.le, ← h.2, mul_sub, lf_melt]; ring
      · intro ha hb
        have h3 := lf_melt (Q + s.h2o_total * f * lh_fus FREEZE)
        have h4 := melt_nonneg (not_le.mp hl).le
        rw [lf_eq] at h3 hl h4
        rw [← h.2, ← hf.2, lf_eq]
        constructor
        · nlinarith
        · linarith
      · intro _ _
        rw [← hf.2, min_eq_right hq.le, max_eq_right (by linarith), min_eq_left (by linarith)]
        ring
  · rw [if_neg hc] at h
    simp only [Except.ok.injEq, Prod.mk.injEq] at h
    refine ⟨min 0 Q, ?_, min_le_left _ _, ?_, .inl rfl, ?_, ?_⟩
    · rw [← h.1, ← hQ]
    · rw [← h.2]; ring
    · intro ha hb
      rw [← h.2]
      exact ⟨le_refl _, by positivity⟩
    · intro ha hb
      exact refreeze_none (hQ ▸ hc) ha hb

theorem refreezeLower_ok {Q : ℝ} {s s' : Snow} {r0 r : ℝ}
    (hQ : s.layer_count = 2 → s.cc_s_l = min 0 Q) (h : refreezeLower Q s r0 = .ok (s', r)) :
    ∃ x, s' = { s with cc_s_l := x } ∧ (s.layer_count = 2 → x ≤ 0) ∧
      (s.layer_count ≠ 2 → x = s.cc_s_l) ∧
      (lh_fus FREEZE * (r - r0) = if s.layer_count = 2 then x - min 0 Q else 0) ∧
      (0 ≤ s.h2o_total → 0 ≤ s.z_s_l / s.z_s →
        0 ≤ r - r0 ∧ r - r0 ≤ s.h2o_total * (s.z_s_l / s.z_s)) ∧
      (s.layer_count = 2 → 0 ≤ s.h2o_total → 0 ≤ s.z_s_l / s.z_s →
        x - min 0 Q = min (max 0 (-Q)) (lh_fus FREEZE * (s.h2o_total * (s.z_s_l / s.z_s)))) := by
  unfold refreezeLower at h
  by_cases hc : (s.layer_count = 2 ∧ s.cc_s_l < 0) ∧ s.h2o_total > 0
  · rw [if_pos hc] at h
    have hq : Q < 0 := by
      by_contra hn
      have := hQ hc.1.1
      rw [min_eq_left (not_lt.mp hn)] at this
      linarith [hc.1.2]
    obtain ⟨f, hf, h⟩ := bind_eq_ok.mp h
    rw [pdiv_eq_ok] at hf
    simp only at h
    by_cases hl : Q + s.h2o_total * f * lh_fus FREEZE ≤ 0
    · rw [if_pos hl] at h
      simp only [pure_ok, Except.ok.injEq, Prod.mk.injEq] at h
      refine ⟨_, h.1.symm, fun _ => hl, fun h' => absurd hc.1.1 h', ?_, ?_, ?_⟩
      · rw [if_pos hc.1.1, min_eq_right hq.le, ← h.2]; ring
      · intro ha hb
        rw [← h.2, hf.2, add_sub_cancel_left]
        exact ⟨by positivity, le_refl _⟩
      · intro _ _ _
        rw [← hf.2, min_eq_right hq.le, max_eq_right (by linarith), min_eq_right (by linarith)]
        ring
    · rw [if_neg hl] at h
      simp only [pure_ok, Except.ok.injEq, Prod.mk.injEq] at h
      refine ⟨_, h.1.symm, fun _ => le_refl _, fun h' => absurd hc.1.1 h', ?_, ?_, ?_⟩
      · rw [if_pos hc.1.1, min_eq_right hq.le, ← h.2, add_sub_cancel_left, mul_sub, lf_melt]; ring
      · intro ha hb
        have h3 := lf_melt (Q + s.h2o_total * f * lh_fus FREEZE)
        have h4 := melt_nonneg (not_le.mp hl).le
        rw [lf_eq] at h3 hl h4
        rw [← h.2, ← hf.2, lf_eq, add_sub_cancel_left]
        constructor
        · nlinarith
        · linarith
      · intro _ _ _
        rw [← hf.2, min_eq_right hq.le, max_eq_right (by linarith), min_eq_left (by linarith)]
        ring
  · rw [if_neg hc] at h
    simp only [Except.ok.injEq, Prod.mk.injEq] at h
    refine ⟨s.cc_s_l, h.1.symm, ?_, fun _ => rfl, ?_, ?_, ?_⟩
    · intro h2; rw [hQ h2]; exact min_le_left _ _
    · rw [← h.2]
      split
      · rename_i h2; rw [hQ h2]; ring
      · ring
    · intro ha hb
      rw [← h.2, sub_self]
      exact ⟨le_refl _, by positivity⟩
    · intro h2 ha hb
      rw [hQ h2]
      refine refreeze_none (fun hn => hc ⟨⟨h2, ?_⟩, hn.2⟩) ha hb
      rw [hQ h2]; exact hn.1

set_option maxHeartbeats 800000 in
theorem snowmelt_ok {c : Env} {dt : ℝ} {s s' : Snow} (h : snowmelt c dt s = .ok s') :
    (s.snowcover = false ∧ s' = { s with melt := 0 }) ∨
    (s.snowcover = true ∧ ∃ s1 r, MeltRes dt s s1 r ∧
      ((s1.melt > 0 ∧ s1.rho ≠ 0 ∧ s' = adj_snow c ((-1) * s1.melt / s1.rho) 0 s1) ∨
       (¬ s1.melt > 0 ∧ s' = s1))) := by
  unfold snowmelt at h
  by_cases hs : s.snowcover = false
  · left
    rw [if_pos hs] at h
    simp only [Except.ok.injEq] at h
    exact ⟨hs, h.symm⟩
  · right
    rw [if_neg hs] at h
    refine ⟨by simpa using hs, ?_⟩
    obtain ⟨⟨s2, r2⟩, h2, h⟩ := bind_eq_ok.mp h
    obtain ⟨⟨s3, r3⟩, h3, h⟩ := bind_eq_ok.mp h
    refine ⟨refreezeSnap s3 r3, r3, ?_, ?_⟩
    · clear h
      rw [meltLayers_eq] at h2
      obtain ⟨x, e2, hx, hr, hsurf, hb1, hl1⟩ := refreezeSurf_ok rfl h2
      obtain ⟨y, e3, hy, hy', hr', hb2, hl2⟩ := refreezeLower_ok (Q := meltQl dt s) (by
        intro hl
        rw [e2] at hl ⊢
        have hl2 : s.layer_count = 2 := hl
        simp [hl2]) h3
      have hlc : s2.layer_count = s.layer_count := by rw [e2]; rfl
      rw [hlc] at hy hy' hr'
      have e4 : s2.h2o_total = s.h2o_total +
          ((if meltQ0 dt s > 0 then melt (meltQ0 dt s) else 0) +
          (if s.layer_count = 2 ∧ meltQl dt s > 0 then melt (meltQl dt s) else 0)) := by rw [e2]
      have e5 : s2.z_s = s.z_s ∧ s2.z_s_l = s.z_s_l := by rw [e2]; exact ⟨rfl, rfl⟩
      rw [e4, e5.1, e5.2] at hb2 hl2
      rw [hlc] at hl2
      simp only at hb1 hl1
      have hsn : ∀ (t : Snow) (q : ℝ), refreezeSnap t q =
          { t with h2o_total := if |t.h2o_total - q| ≤ 1e-8 then 0 else t.h2o_total - q } := by
        intro t q; unfold refreezeSnap; split <;> rfl
      rw [hsn, e3, e2]
      constructor
      · rfl
      · rfl
      · intro h'
        have := hy' h'
        rw [e2] at this
        simpa [h'] using this
      · exact hx
      · exact hy
      · exact hsurf
      · rfl
      · intro q1 q2 q3 q4 q5
        have hzp : 0 < s.z_s := by linarith
        have f1 : 0 ≤ s.z_s_0 / s.z_s := by positivity
        have f2 : 0 ≤ s.z_s_l / s.z_s := by positivity
        have f3 : s.z_s_0 / s.z_s + s.z_s_l / s.z_s = 1 := by
          rw [← add_div, ← q1]; field_simp
        obtain ⟨g1, g2⟩ := hb1 q5 f1
        obtain ⟨g3, g4⟩ := hb2 q5 f2
        refine ⟨by linarith, ?_⟩
        have : r3 ≤ (s.h2o_total + ((if meltQ0 dt s > 0 then melt (meltQ0 dt s) else 0) +
          (if s.layer_count = 2 ∧ meltQl dt s > 0 then melt (meltQl dt s) else 0))) *
            (s.z_s_0 / s.z_s + s.z_s_l / s.z_s) := by linarith
        rw [f3, mul_one] at this
        exact this
      · intro q1 q2 q3
        obtain ⟨g3, _⟩ := hb2 q2 q1
        rw [if_pos q3] at hr'
        have := mul_nonneg (show (0:ℝ) ≤ lh_fus FREEZE by rw [lf_eq]; norm_num) g3
        show min 0 (meltQl dt s) ≤ y
        linarith
      · have : lh_fus FREEZE * r3 = lh_fus FREEZE * r2 + lh_fus FREEZE * (r3 - r2) := by ring
        rw [this, hr, hr']
      · exact hl1
      · exact hl2
    · simp only at h
      split at h
      · rename_i hm
        obtain ⟨q, hq, h⟩ := bind_eq_ok.mp h
        rw [pdiv_eq_ok] at hq
        simp only [pure_ok, Except.ok.injEq] at h
        left
        exact ⟨hm, hq.1, by rw [← h, hq.2]⟩
      · rename_i hm
        right
        simp only [pure_ok, Except.ok.injEq] at h
        exact ⟨hm, h.symm⟩

theorem evap_cond_ok {c : Env} {i : InputData} {dt : ℝ} {s s' : Snow}
    (h : evap_cond c i dt s = .ok s') :
    (s.snowcover = false ∧ s' = { s with E_s := 0 }) ∨
    (s.snowcover = true ∧ s.layer_count = 0 ∧
      s' = { s with h2o_total := evapH2o s.h2o_total (s.E * dt), E_s := s.E * dt + 0 }) ∨
    (s.snowcover = true ∧ 0 < s.layer_count ∧ ∃ el w,
      soilEvap c i dt { s with h2o_total := evapH2o s.h2o_total (s.E * dt) } = .ok el ∧
      w = evapH2o (evapH2o s.h2o_total (s.E * dt)) el ∧ s.rho ≠ 0 ∧
      s' = adj_snow c ((s.E * dt + el + s.h2o_total - w) / s.rho / 2) (s.E * dt + el)
        { s with h2o_total := w, E_s := s.E * dt + el }) := by
  unfold evap_cond at h
  by_cases hs : s.snowcover = false
  · rw [if_pos hs] at h
    simp only [Except.ok.injEq] at h
    exact .inl ⟨hs, h.symm⟩
  · right
    rw [if_neg hs] at h
    have hs' : s.snowcover = true := by simpa using hs
    by_cases hl : s.layer_count = 0
    · left
      have hl1 : ∀ (a : ℝ), Snow.layer_count { s with h2o_total := a } = 0 := fun _ => hl
      have hl2 : ∀ (a b : ℝ), Snow.layer_count { s with h2o_total := a, E_s := b } = 0 := fun _ _ => hl
      simp only [hl1, if_true, pure_ok, bind_ok, hl2, gt_iff_lt, lt_irrefl, if_false,
        Except.ok.injEq] at h
      exact ⟨hs', hl, h.symm⟩
    · right
      have hl1 : ∀ (a : ℝ), Snow.layer_count { s with h2o_total := a } = s.layer_count := fun _ => rfl
      have hl2 : ∀ (a b : ℝ), Snow.layer_count { s with h2o_total := a, E_s := b } = s.layer_count :=
        fun _ _ => rfl
      have hlp : 0 < s.layer_count := Nat.pos_of_ne_zero hl
      simp only [hl1, hl, if_false, gt_iff_lt, hl2, hlp, if_true] at h
      obtain ⟨el, hel, h⟩ := bind_eq_ok.mp h
      simp only [pure_ok, bind_ok] at h
      simp only [hl2, hlp, if_true] at h
      obtain ⟨q, hq, h⟩ := bind_eq_ok.mp h
      rw [pdiv_eq_ok] at hq
      simp only [Except.ok.injEq] at h
      refine ⟨hs', hlp, el, _, hel, rfl, hq.1, ?_⟩
      rw [← h, hq.2]

theorem h2o_compact_ok {c : Env} {i : InputData} {s s' : Snow} (h : h2o_compact c i s = .ok s') :
    ((s.snowcover = false ∨ s.rho > 550) ∧ s' = s) ∨
    (s.snowcover = true ∧ s.rho ≤ 550 ∧ ∃ w, h2oAdded i s = .ok w ∧
      ((¬ w > 0.000001 ∧ s' = s) ∨
       (w > 0.000001 ∧ ∃ r, r = s.rho + (550 - s.rho) / (1 + 0.4 / w) ∧ r ≠ 0 ∧
          s' = adj_layers c { s with rho := r, z_s := s.m_s / r }))) := by
  unfold h2o_compact at h
  by_cases h1 : s.snowcover = false ∨ s.rho > 550
  · rw [if_pos h1] at h
    simp only [Except.ok.injEq] at h
    exact .inl ⟨h1, h.symm⟩
  · rw [if_neg h1] at h
    right
    push Not at h1
    obtain ⟨w, hw, h⟩ := bind_eq_ok.mp h
    refine ⟨by simpa using h1.1, h1.2, w, hw, ?_⟩
    by_cases h2 : w > 0.000001
    · right
      rw [if_pos h2] at h
      obtain ⟨b, hb, h⟩ := bind_eq_ok.mp h
      obtain ⟨q, hq, h⟩ := bind_eq_ok.mp h
      obtain ⟨z, hz, h⟩ := bind_eq_ok.mp h
      rw [pdiv_eq_ok] at hb hq hz
      simp only [pure_ok, Except.ok.injEq] at h
      refine ⟨h2, s.rho + q, by rw [hq.2, hb.2], hz.1, ?_⟩
      rw [← h, hz.2]
    · left
      rw [if_neg h2] at h
      simp only [pure_ok, Except.ok.injEq] at h
      exact ⟨h2, h.symm⟩

/-- Water the pack can hold against gravity, computed by `runoff` (snobal.py:324–329). -/
def capacity (c : Env) (s : Snow) : ℝ :=
  h2o_left s.z_s ((s.m_s - s.h2o_total) / s.z_s) c.max_h2o_vol

theorem runoff_ok {c : Env} {s s' : Snow} (h : runoff c s = .ok s') :
    ((s.snowcover = false ∨ s.layer_count = 0) ∧ s' = { s with swi := s.h2o_total }) ∨
    (s.snowcover = true ∧ 0 < s.layer_count ∧ s.z_s ≠ 0 ∧ s.h2o_total > capacity c s ∧
      s' = adj_snow c 0 (-(s.h2o_total - capacity c s))
        { s with h2o_max := capacity c s, swi := s.h2o_total - capacity c s, h2o := capacity c s,
                 h2o_sat := 1, h2o_vol := c.max_h2o_vol }) ∨
    (s.snowcover = true ∧ 0 < s.layer_count ∧ s.z_s ≠ 0 ∧ s.h2o_total ≤ capacity c s ∧
      capacity c s ≠ 0 ∧
      s' = { s with h2o_max := capacity c s, swi := 0, h2o := s.h2o_total,
                    h2o_sat := s.h2o_total / capacity c s,
                    h2o_vol := s.h2o_total / capacity c s * c.max_h2o_vol }) := by
  unfold runoff at h
  by_cases h1 : s.snowcover = false ∨ s.layer_count = 0
  · rw [if_pos h1] at h
    simp only [Except.ok.injEq] at h
    exact .inl ⟨h1, h.symm⟩
  · rw [if_neg h1] at h
    right
    push Not at h1
    have hs : s.snowcover = true := by simpa using h1.1
    have hl : 0 < s.layer_count := Nat.pos_of_ne_zero h1.2
    obtain ⟨d, hd, h⟩ := bind_eq_ok.mp h
    rw [pdiv_eq_ok] at hd
    have hcap : h2o_left s.z_s d c.max_h2o_vol = capacity c s := by unfold capacity; rw [hd.2]
    simp only [hcap] at h
    by_cases h2 : s.h2o_total > capacity c s
    · left
      rw [if_pos h2] at h
      simp only [pure_ok, Except.ok.injEq] at h
      exact ⟨hs, hl, hd.1, h2, h.symm⟩
    · right
      rw [if_neg h2] at h
      obtain ⟨q, hq, h⟩ := bind_eq_ok.mp h
      rw [pdiv_eq_ok] at hq
      simp only [pure_ok, Except.ok.injEq] at h
      refine ⟨hs, hl, hd.1, not_lt.mp h2, hq.1, ?_⟩
      rw [← h, hq.2]

theorem new_tsno_ok {m t cc x : ℝ} (h : new_tsno m t cc = .ok x) :
    m * cp_ice t ≠ 0 ∧ x = cc / (m * cp_ice t) + FREEZE := by
  unfold new_tsno at h
  obtain ⟨q, hq, h⟩ := bind_eq_ok.mp h
  rw [pdiv_eq_ok] at hq
  simp only [pure_ok, Except.ok.injEq] at h
  exact ⟨hq.1, by rw [← h, hq.2]⟩

/-- What `adjust_layer_temps` does (snow_state.py:159–187). -/
theorem adjust_ok {s s' : Snow} (h : s.adjust_layer_temps = .ok s') :
    (s.layer_count = 1 ∧ ∃ t, new_tsno s.m_s_0 s.t_s_0 s.cc_s_0 = .ok t ∧
      s' = { s with t_s_0 := t, t_s := t }) ∨
    (s.layer_count = 2 ∧ s.cc_s_0 + s.cc_s_l = 0 ∧
      s' = { s with t_s := FREEZE, t_s_l := FREEZE, t_s_0 := FREEZE }) ∨
    (s.layer_count = 2 ∧ s.cc_s_0 + s.cc_s_l ≠ 0 ∧ ∃ t0 tl t,
      new_tsno s.m_s_0 s.t_s_0 s.cc_s_0 = .ok t0 ∧ new_tsno s.m_s_l s.t_s_l s.cc_s_l = .ok tl ∧
      new_tsno s.m_s s.t_s (s.cc_s_0 + s.cc_s_l) = .ok t ∧
      s' = { s with t_s_0 := t0, t_s_l := tl, t_s := t }) ∨
    (s.layer_count = 0 ∧ s' = s) := by
  unfold Snow.adjust_layer_temps at h
  by_cases h1 : s.layer_count = 1
  · rw [if_pos h1] at h
    obtain ⟨t, ht, h⟩ := bind_eq_ok.mp h
    simp only [pure_ok, Except.ok.injEq] at h
    exact .inl ⟨h1, t, ht, h.symm⟩
  · rw [if_neg h1] at h
    right
    by_cases h2 : s.layer_count = 2
    · rw [if_pos h2] at h
      by_cases h3 : s.isothermal
      · rw [if_pos h3] at h
        simp only [pure_ok, Except.ok.injEq] at h
        exact .inl ⟨h2, h3, h.symm⟩
      · rw [if_neg h3] at h
        right; left
        obtain ⟨t0, e0, h⟩ := bind_eq_ok.mp h
        obtain ⟨tl, el, h⟩ := bind_eq_ok.mp h
        obtain ⟨t, e, h⟩ := bind_eq_ok.mp h
        simp only [pure_ok, Except.ok.injEq] at h
        exact ⟨h2, h3, t0, tl, t, e0, el, e, h.symm⟩
    · rw [if_neg h2] at h
      simp only [Except.ok.injEq] at h
      have := lc_le_two s
      exact .inr (.inr ⟨by omega, h.symm⟩)

theorem mass_balance_ok {c : Env} {i : InputData} {dt : ℝ} {s s' : Snow}
    (h : mass_balance c i dt s = .ok s') :
    ∃ s1 s2 s3 s4 s5 s6, time_compact c dt s = .ok s1 ∧ precip_event c i s1 = .ok s2 ∧
      snowmelt c dt s2 = .ok s3 ∧ evap_cond c i dt s3 = .ok s4 ∧ h2o_compact c i s4 = .ok s5 ∧
      runoff c s5 = .ok s6 ∧
      ((s6.snowcover = true ∧ s6.adjust_layer_temps = .ok s') ∨ (s6.snowcover = false ∧ s' = s6)) := by
  unfold mass_balance at h
  obtain ⟨s1, h1, h⟩ := bind_eq_ok.mp h
  obtain ⟨s2, h2, h⟩ := bind_eq_ok.mp h
  obtain ⟨s3, h3, h⟩ := bind_eq_ok.mp h
  obtain ⟨s4, h4, h⟩ := bind_eq_ok.mp h
  obtain ⟨s5, h5, h⟩ := bind_eq_ok.mp h
  obtain ⟨s6, h6, h⟩ := bind_eq_ok.mp h
  refine ⟨s1, s2, s3, s4, s5, s6, h1, h2, h3, h4, h5, h6, ?_⟩
  cases hs : s6.snowcover
  · right
    simp [hs] at h
    exact ⟨rfl, h.symm⟩
  · left
    simp only [hs, if_true] at h
    exact ⟨rfl, h⟩

/-- The forcing a run step uses (snobal.py:235–237). -/
def applied (dl : InputData) (i : InputData) : InputData :=
  if i.precip_now then i.update_precip_deltas dl else i

theorem h_le_ok {c : Env} {p p' : Phys} {r : HleOut} (h : h_le c p = .ok (r, p')) :
    ∃ sv es, sati p.input1.t_a = .ok sv ∧ sati p.snow.t_s_0 = .ok es ∧
      p'.input1 = { p.input1 with e_a := min p.input1.e_a sv } ∧ p'.snow = p.snow ∧
      p'.init_ustar = some r.ustar ∧ p'.init_factor = some r.factor ∧ r.status = 0 ∧
      hle1 { press := c.P_a, air_temp := p.input1.t_a, surface_temp := p.snow.t_s_0,
             za := if c.relative_hts then c.z_t else c.z_t - p.snow.z_s,
             ea := min p.input1.e_a sv, es := es,
             zq := if c.relative_hts then c.z_t else c.z_t - p.snow.z_s,
             wind_speed := p.input1.u,
             zu := if c.relative_hts then c.z_u else c.z_u - p.snow.z_s,
             z0 := c.z_0, init_ustar := p.init_ustar, init_factor := p.init_factor } = .ok r := by
  unfold h_le InputData.sat_vp Snow.e_s_0 at h
  obtain ⟨sv, hsv, h⟩ := bind_eq_ok.mp h
  obtain ⟨es, hes, h⟩ := bind_eq_ok.mp h
  obtain ⟨r', hr, h⟩ := bind_eq_ok.mp h
  have hi : (if p.input1.e_a > sv then { p.input1 with e_a := sv } else p.input1) =
      { p.input1 with e_a := min p.input1.e_a sv } := by
    split
    · rename_i h1; rw [min_eq_right h1.le]
    · rename_i h1; rw [min_eq_left (not_lt.mp h1)]
  rw [hi] at hr h
  by_cases hst : r'.status ≠ 0
  · simp [hst] at h
  · simp only [hst, if_false, pure_ok, Except.ok.injEq, Prod.mk.injEq] at h
    obtain ⟨rfl, rfl⟩ := h
    refine ⟨sv, es, hsv, hes, rfl, rfl, rfl, rfl, by simpa using hst, hr⟩

/-- `energy_balance` only writes the fluxes, the clipped vapour pressure and the first guesses. -/
theorem energy_balance_ok {c : Env} {dt : ℝ} {p p' : Phys} (h : energy_balance c dt p = .ok p') :
    (0 < p.snow.layer_count ∧ ∃ r p1 G G0 M, h_le c p = .ok (r, p1) ∧
      heat_transfer c p1.input1 p1.snow = .ok (G, G0) ∧ advec p1.input1 dt p1.snow = .ok M ∧
      p' = { p1 with snow := { p.snow with
              E := r.e
              en := { R_n := net_radiation p.input1 p.snow, H := r.h, L_v_E := r.le, G := G,
                      G_0 := G0, M := M,
                      delta_Q_0 := net_radiation p.input1 p.snow + r.h + r.le + G0 + M
                      delta_Q := net_radiation p.input1 p.snow + r.h + r.le + G0 + M + G - G0 } } }) ∨
    (p.snow.layer_count = 0 ∧ p' = { p with snow := { p.snow with E := 0, en := Energy.zero } }) := by
  unfold energy_balance at h
  by_cases hl : p.snow.layer_count > 0
  · rw [if_pos hl] at h
    left
    obtain ⟨⟨r, p1⟩, h1, h⟩ := bind_eq_ok.mp h
    obtain ⟨⟨G, G0⟩, h2, h⟩ := bind_eq_ok.mp h
    obtain ⟨M, h3, h⟩ := bind_eq_ok.mp h
    simp only [pure_ok, Except.ok.injEq] at h
    obtain ⟨_, _, _, _, _, hsn, _⟩ := h_le_ok h1
    refine ⟨hl, r, p1, G, G0, M, h1, h2, h3, ?_⟩
    rw [← h, hsn]
  · rw [if_neg hl] at h
    simp only [Except.ok.injEq] at h
    exact .inr ⟨by omega, h.symm⟩

/-- A run step: energy balance on the refreshed state, then mass balance. -/
theorem stepPhys_ok {c : Env} {dt : ℝ} {dl : InputData} {p p' : Phys}
    (h : stepPhys c dt dl p = .ok p') :
    ∃ p1, energy_balance c dt { p with input1 := applied dl p.input1
                                       snow := { p.snow with
                                         h2o_total := 0
                                         snowcover := decide (p.snow.layer_count > 0) } } = .ok p1 ∧
      mass_balance c p1.input1 dt p1.snow = .ok p'.snow ∧ p' = { p1 with snow := p'.snow } := by
  unfold stepPhys at h
  have ha : (if p.input1.precip_now then { p with input1 := p.input1.update_precip_deltas dl } else p) =
      { p with input1 := applied dl p.input1 } := by
    unfold applied
    split <;> rfl
  rw [ha] at h
  obtain ⟨p1, h1, h⟩ := bind_eq_ok.mp h
  obtain ⟨s, h2, h⟩ := bind_eq_ok.mp h
  simp only [pure_ok, Except.ok.injEq] at h
  subst h
  exact ⟨p1, h1, h2, rfl⟩

end

end Pysnobal
