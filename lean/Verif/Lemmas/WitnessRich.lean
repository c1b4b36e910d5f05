import Verif.Lemmas.WitnessRun
import Verif.Props.NonNeg

/-! # A run of any length with snowfall, rain, melt and runoff -/

namespace Pysnobal

noncomputable section

/-- A run whose first data step is one normal step, followed by anything. -/
theorem first_trace {g : Config} (hg : g.Tiled) {c : Env} (hc : mkEnv g = .ok c) {s0 : Snow}
    (hs : init_snow c (recordSnow g) = .ok s0) {r1 r2 : Rec} {rs : List Rec} {i1 i2 : InputData}
    (n1 : InputData.new r1 = .ok i1) (n2 : InputData.new r2 = .ok i2)
    (hb : below_thold g.norm_threshold s0 = false) {p' : Phys}
    (hp : stepPhys c ((g.norm_time_step * 60 : ℤ) : ℝ) (deltaRec i1 i2 1).toInput ⟨s0, i1, none, none⟩ = .ok p')
    {P : List (List (RStep Phys)) → Model → Prop}
    (hrest : ∀ ts m1, parse_time_steps g = .ok ts →
      m1.phys = { p' with input1 := p'.input1.add_deltas (deltaRec i1 i2 1).toInput } →
      m1.acc.time_since_out = 0 → m1.output_list = [recordOf p'.snow (g.start_date + g.norm_time_step)] →
      ∃ ls m, DataSteps c ts g.output_all i2 rs m1 ls m ∧ P ls m) :
    ∃ ls m, RunTrace g (r1 :: r2 :: rs) ([⟨.normal, ⟨s0, i1, none, none⟩, p'⟩] :: ls) m ∧ P ls m := by
  obtain ⟨ts, hts⟩ := parse_of_ne (g := g) hg.2.1.ne' hg.2.2.1.ne'
  have ht := parse_tile hg hts
  obtain ⟨_, _, e1, _, _⟩ := parse_ok hts
  have hm0 : mkModel g c i1 = .ok
      { phys := ⟨s0, i1, none, none⟩
        acc := { acc := { bar := Energy.zero, melt_sum := 0, E_s_sum := 0, swi_sum := none }, time_since_out := 0 }
        current_datetime := g.start_date
        output_list := [] } := by
    unfold mkModel
    rw [hs, bind_ok]; rfl
  obtain ⟨m1, q1, q2, q3, q4, q5⟩ := executed_normal (c := c) (all := g.output_all) (i2 := i2)
    (m := { phys := ⟨s0, i1, none, none⟩
            acc := { acc := { bar := Energy.zero, melt_sum := 0, E_s_sum := 0, swi_sum := none }, time_since_out := 0 }
            current_datetime := g.start_date
            output_list := [] }) ht n1 rfl
    (by rw [e1]; exact hb) (p' := p') (by rw [e1]; exact hp)
  obtain ⟨ls, m, w1, w2⟩ := hrest ts m1 hts q4 q3 (by rw [q5, e1]; rfl)
  exact ⟨ls, m, ⟨c, ts, i1, _, r1, r2 :: rs, rfl, hts, hc, n1, hm0, .cons n2 q1 q2 w1⟩, w2⟩

theorem calmRec_new {S m ps r : ℝ} (hr : 0 < r) :
    InputData.new (calmRec S m ps r) = .ok (calmRec S m ps r).toInput := by
  rw [new_eq, if_neg]
  rintro ⟨_, _, h⟩
  exact absurd h (not_le.mpr hr)

theorem calm_now {S m ps r : ℝ} (h : 0 < m) : (calmRec S m ps r).toInput.precip_now = true :=
  decide_eq_true (p := 0 < (calmRec S m ps r).m_pp) h

theorem calm_not_now {S m ps r : ℝ} (h : ¬ 0 < m) : (calmRec S m ps r).toInput.precip_now = false :=
  decide_eq_false (p := 0 < (calmRec S m ps r).m_pp) h

/-- Precipitation of a calm record that is applied in one normal step. -/
theorem calm_update {S m ps r : ℝ} (i2 : InputData) :
    (if (calmRec S m ps r).toInput.precip_now then
      (calmRec S m ps r).toInput.update_precip_deltas (deltaRec (calmRec S m ps r).toInput i2 1).toInput
      else (calmRec S m ps r).toInput) = (calmRec S m ps r).toInput := by
  by_cases h : 0 < m
  · rw [if_pos (calm_now h)]
    have hd : (deltaRec (calmRec S m ps r).toInput i2 1).m_pp = m := div_one _
    have hp : (deltaRec (calmRec S m ps r).toInput i2 1).percent_snow = ps := rfl
    have hr : (deltaRec (calmRec S m ps r).toInput i2 1).rho_snow = r := rfl
    have hz : (deltaRec (calmRec S m ps r).toInput i2 1).toInput.z_snow = (calmRec S m ps r).toInput.z_snow := by
      have key : ∀ a : ℝ, a = m → (if 0 < a ∧ 0 < a * ps then a * ps / r else 0) =
          (if 0 < m ∧ 0 < m * ps then m * ps / r else 0) := by rintro a rfl; rfl
      exact key _ hd
    have hm : (deltaRec (calmRec S m ps r).toInput i2 1).toInput.m_pp = (calmRec S m ps r).toInput.m_pp := hd
    have hs : (deltaRec (calmRec S m ps r).toInput i2 1).toInput.m_snow = (calmRec S m ps r).toInput.m_snow := by
      show _ * _ = m * ps
      rw [hd, hp]
    have hra : (deltaRec (calmRec S m ps r).toInput i2 1).toInput.m_rain = (calmRec S m ps r).toInput.m_rain := by
      show _ - _ * _ = m - m * ps
      rw [hd, hp]
    unfold InputData.update_precip_deltas
    rw [hm, hs, hra, hz]
  · rw [if_neg (by rw [calm_not_now h]; simp)]

/-- Precipitation at the freezing point brings no heat to snow at the freezing point. -/
theorem calm_advec {S m ps r dt : ℝ} (hp : 0 ≤ ps) (hp' : ps ≤ 1) (hdt : dt ≠ 0) {s : Snow}
    (hs : s.t_s_0 = FREEZE) : advec (calmRec S m ps r).toInput dt s = .ok 0 := by
  unfold advec
  by_cases hm : 0 < m
  · rw [if_pos (calm_now hm)]
    have h1 : heat_stor (cp_water (calmRec S m ps r).toInput.t_rain) (calmRec S m ps r).toInput.m_rain
        ((calmRec S m ps r).toInput.t_rain - s.t_s_0) = 0 := by
      unfold heat_stor
      by_cases hr : 0 < m - m * ps
      · have : (calmRec S m ps r).toInput.t_rain = FREEZE :=
          (if_pos (c := 0 < m ∧ 0 < m - m * ps) ⟨hm, hr⟩).trans (if_neg (lt_irrefl FREEZE))
        rw [this, hs, sub_self, mul_zero]
      · have : (calmRec S m ps r).toInput.m_rain = 0 := by
          show m - m * ps = 0
          nlinarith
        rw [this]; ring
    have h2 : heat_stor (cp_ice (calmRec S m ps r).toInput.t_snow) (calmRec S m ps r).toInput.m_snow
        ((calmRec S m ps r).toInput.t_snow - s.t_s_0) = 0 := by
      unfold heat_stor
      by_cases hr : 0 < m * ps
      · have : (calmRec S m ps r).toInput.t_snow = FREEZE :=
          (if_pos (c := 0 < m ∧ 0 < m * ps) ⟨hm, hr⟩).trans
            (if_pos (c := 0 < m - m * ps ∨ FREEZE ≤ FREEZE) (.inr (le_refl _)))
        rw [this, hs, sub_self, mul_zero]
      · have : (calmRec S m ps r).toInput.m_snow = 0 := by
          show m * ps = 0
          exact le_antisymm (not_lt.mp hr) (by positivity)
        rw [this]; ring
    rw [h1, h2, pdiv_of_ne hdt]; simp
  · rw [if_neg (by rw [calm_not_now hm]; simp)]

/-- Snow (and rain) falling on ripe snow. -/
theorem precip_ripe {vol : ℝ} {i : InputData} {s : Snow} (hs : RipeSnow s) (hf : s.snowcover = true)
    (hn : i.precip_now = true) {z' m' : ℝ} (hz : z' = s.z_s_0 + i.z_snow) (hm : m' = s.m_s + i.m_pp)
    (hz0 : i.z_snow ≠ 0) (h0 : 0 < z') (h1 : z' ≤ 0.25) (h2 : m' ≤ 600 * z') (h3 : 1 < m') :
    precip_event (calmEnv vol) i s = .ok
      { s with z_s := z', m_s := m', rho := m' / z', z_s_0 := z', m_s_0 := m'
               h2o := s.h2o + h2o_left i.z_snow i.rho_snow (i.h2o_sat_snow * vol)
               h2o_total := s.h2o_total +
                (s.h2o + h2o_left i.z_snow i.rho_snow (i.h2o_sat_snow * vol) + i.m_rain) } := by
  unfold precip_event
  rw [if_pos hn, if_pos hf]
  have ea : adjRho i.z_snow i.m_pp s = m' / z' := by
    unfold adjRho
    rw [hs.z, ← hz, ← hm, if_pos h0.ne']
  rw [adj_snow_move (by rw [ea, gt_iff_lt, not_lt, div_le_iff₀ h0]; exact h2) hz0, ea]
  have e1 : ({ s with z_s := s.z_s + i.z_snow, m_s := s.m_s + i.m_pp, rho := m' / z' } : Snow).layer_count = 1 := hs.lc
  have e2 : s.z_s + i.z_snow = z' := by rw [hs.z, hz]
  rw [adj_layers_one e1 (by rw [← hm]; exact h3) (by rw [e2]; exact h0) (by rw [e2]; exact h1)]
  have ev : (calmEnv vol).max_h2o_vol = vol := rfl
  simp only [pure_ok, bind_ok, e2, ← hm, ev, Except.ok.injEq, Snow.mk.injEq, true_and, and_true]
  exact ⟨hs.zl.symm, by field_simp, hs.ml.symm⟩

/-- The storm: 10 kg/m² of precipitation at the freezing point, half of it snow of 300 kg/m³, under
278 W/m² of net solar radiation. -/
def stormRec : Rec := calmRec 278 10 (1 / 2) 300

/-- The quiet hours afterwards. -/
def quietRec : Rec := calmRec 0 0 (1 / 2) 300

/-- 100 kg/m² of ripe snow at 600 kg/m³. -/
def stormCfg : Config := calmCfg 60 0.01 (1 / 6) 600 0

/-- What the storm does to the pack. -/
structure StormStep (x : RStep Phys) : Prop where
  lv : x.lv = .normal
  pre_ripe : RipeSnow x.pre.snow
  pre_m : x.pre.snow.m_s = 100
  pre_rho : x.pre.snow.rho = 600
  pre_h2o : x.pre.snow.h2o = 0
  ripe : RipeSnow x.post.snow
  cover : x.post.snow.snowcover = true
  now : x.post.input1.precip_now = true
  m_pp : x.post.input1.m_pp = 10
  m_snow : x.post.input1.m_snow = 5
  m_rain : x.post.input1.m_rain = 5
  z_snow : x.post.input1.z_snow = 1 / 60
  rho_snow : x.post.input1.rho_snow = 300
  sat_snow : x.post.input1.h2o_sat_snow = 1
  melt : x.post.snow.melt = 3
  E : x.post.snow.E = 0
  E_s : x.post.snow.E_s = 0
  swi : 7 < x.post.snow.swi ∧ x.post.snow.swi < 8
  m : x.post.snow.m_s = 110 - x.post.snow.swi
  h2o : 0.1 < x.post.snow.h2o ∧ x.post.snow.h2o < 1
  t_g : x.post.input1.t_g = FREEZE
  heat : x.post.snow.en = ⟨278, 0, 0, 0, 0, 0, 278, 278⟩

theorem storm_run (n : ℕ) : ∃ x ls m, RunTrace stormCfg (stormRec :: quietRec :: List.replicate n quietRec)
      ([x] :: ls) m ∧ StormStep x ∧ ls.length = n ∧
      ∀ l ∈ ls, ∀ y ∈ l, y.lv = .normal ∧ Settled 0.01 x.post.snow.m_s y.pre ∧
        Settled 0.01 x.post.snow.m_s y.post ∧ y.pre.snow.h2o = x.post.snow.h2o ∧
        y.post.snow.snowcover = true ∧ y.post.snow.melt = 0 ∧ y.post.snow.E = 0 ∧ y.post.snow.E_s = 0 ∧
        y.post.snow.swi = 0 ∧ y.post.input1.precip_now = false := by
  have hinit := init_calm (thr := 60) (vol := 0.01) (z := 1 / 6) (rho := 600) (sat := 0) (d := 600)
    (by norm_num) (by norm_num) (by norm_num) (by norm_num) (by norm_num)
  obtain ⟨s0, hs0, f1, f2, f3⟩ : ∃ s0, init_snow (calmEnv 0.01) (recordSnow stormCfg) = .ok s0 ∧
      RipeSnow s0 ∧ s0.rho = 600 ∧ (s0.m_s = 100 ∧ s0.z_s_0 = 1 / 6 ∧ s0.h2o = 0) := by
    refine ⟨_, hinit, ⟨?_, rfl, rfl, ?_, ?_, rfl, rfl, rfl, rfl, rfl, rfl, rfl⟩, rfl, ?_, rfl, ?_⟩ <;> norm_num
  obtain ⟨f3, f4, f5⟩ := f3
  have hi := (rfl : stormRec.toInput = (calmRec 278 10 (1 / 2) 300).toInput)
  have g1 : stormRec.toInput.precip_now = true := calm_now (by norm_num)
  have g2 : stormRec.toInput.m_pp = 10 := rfl
  have g3 : stormRec.toInput.m_rain = 5 := by show (10:ℝ) - 10 * (1 / 2) = 5; norm_num
  have g3' : stormRec.toInput.m_snow = 5 := by show (10:ℝ) * (1 / 2) = 5; norm_num
  have g4 : stormRec.toInput.z_snow = 1 / 60 :=
    (if_pos (c := 0 < (10:ℝ) ∧ 0 < (10:ℝ) * (1 / 2)) (by norm_num)).trans (by norm_num [stormRec, calmRec])
  have g5 : stormRec.toInput.rho_snow = 300 := rfl
  have g6 : stormRec.toInput.h2o_sat_snow = 1 :=
    if_pos (c := 0 < (10:ℝ) ∧ 0 < (10:ℝ) * (1 / 2) ∧ (0 < (10:ℝ) - 10 * (1 / 2) ∨ FREEZE ≤ FREEZE)) (by norm_num)
  have hr0 : RipeSnow (radiated 278 s0) :=
    ⟨f1.z0, f1.zl, f1.z, f1.z_le, f1.rho, f1.t0, f1.t, f1.cc0, f1.ccl, f1.m, f1.m0, f1.ml⟩
  have hpe := precip_ripe (vol := 0.01) (i := stormRec.toInput) (s := radiated 278 s0) hr0 rfl g1
    (z' := 11 / 60) (m' := 110) (by show _ = s0.z_s_0 + _; rw [g4, f4]; norm_num)
    (by show _ = s0.m_s + _; rw [g2, f3]; norm_num) (by rw [g4]; norm_num) (by norm_num) (by norm_num)
    (by norm_num) (by norm_num)
  have e0 : (radiated 278 s0).h2o = 0 := f5
  have e0' : (radiated 278 s0).h2o_total = 0 := rfl
  rw [g4, g5, g6, g3, e0, e0'] at hpe
  simp only [zero_add, one_mul] at hpe
  obtain ⟨ω, hω⟩ : ∃ ω, ω = h2o_left (1 / 60) 300 0.01 := ⟨_, rfl⟩
  have hωv : 0.1 < ω ∧ ω < 0.2 := by
    rw [hω]; unfold h2o_left RHO_W0 RHO_ICE; norm_num
  rw [← hω] at hpe
  obtain ⟨cap, hcap⟩ : ∃ cap, cap = h2o_left (110 / 600) ((110 - (ω + 5 + 3)) / (110 / 600)) 0.01 := ⟨_, rfl⟩
  have hcapv : 0.6 < cap ∧ cap < 0.8 := by
    rw [hcap]; unfold h2o_left RHO_W0 RHO_ICE
    obtain ⟨h1, h2⟩ := hωv
    constructor <;> norm_num <;> linarith
  set s2 : Snow := { radiated 278 s0 with z_s := 11 / 60, m_s := 110, rho := 110 / (11 / 60), z_s_0 := 11 / 60
                                          m_s_0 := 110, h2o := ω, h2o_total := ω + 5 } with hs2
  have hr2 : RipeSnow s2 := by
    refine ⟨?_, f1.zl, rfl, ?_, ?_, f1.t0, f1.t, f1.cc0, f1.ccl, ?_, ?_, f1.ml⟩ <;> simp only [hs2] <;> norm_num
  have haf := afterPrecip_melt (vol := 0.01) (dt := 3600) (i := stormRec.toInput) (s := s2) hr2 rfl rfl rfl
    (by show 0 ≤ ω + 5; linarith [hωv.1]) (μ := 3) (by show (278:ℝ) * 3600 = 333600 * 3; norm_num) (by norm_num)
    (by show (3:ℝ) < 110; norm_num) (by show (1:ℝ) < 110; norm_num) (by show (110:ℝ) ≤ 150; norm_num)
    (by show (600:ℝ) * (110 - 3) < 110 * (110 / (11 / 60)); norm_num) (cap := cap) hcap
    (by show cap < ω + 5 + 3; linarith [hωv.1, hcapv.2])
    (by show (110:ℝ) - (ω + 5 + 3 - cap) ≠ 0; linarith [hωv.1, hωv.2, hcapv.1, hcapv.2])
  have hst := stepPhys_calm (vol := 0.01) (dt := 3600) (dl := (deltaRec stormRec.toInput quietRec.toInput 1).toInput)
    (i := stormRec.toInput) (p := ⟨s0, stormRec.toInput, none, none⟩) f1 (calm_update _) (calmRec_calm _ _ _ _)
    (by show 550 ≤ s0.rho; rw [f2]; norm_num) (calmRec_net _ _ _ _ f1.t0 quietRec.toInput).1 (.inl ⟨rfl, rfl⟩)
    (calm_advec (by norm_num) (by norm_num) (by norm_num) f1.t0)
    (by rw [hpe, bind_ok]; exact haf)
  obtain ⟨p', hp', fs, hset⟩ : ∃ p', stepPhys (calmEnv 0.01) 3600
      (deltaRec stormRec.toInput quietRec.toInput 1).toInput ⟨s0, stormRec.toInput, none, none⟩ = .ok p' ∧
      StormStep ⟨.normal, ⟨s0, stormRec.toInput, none, none⟩, p'⟩ ∧ Settled 0.01 p'.snow.m_s p' := by
    obtain ⟨h1, h2⟩ := hωv
    obtain ⟨h3, h4⟩ := hcapv
    have hz0 : (0:ℝ) < 110 / 600 := by norm_num
    have em : ∀ a : ℝ, a = a / (110 / 600) * (110 / 600) := fun a => by field_simp
    have hrip : RipeSnow { s2 with melt := 3, h2o_total := s2.h2o_total + 3, z_s := 110 / 600, z_s_0 := 110 / 600, E_s := 0
                                   h2o_max := cap, swi := ω + 5 + 3 - cap, h2o := cap, h2o_sat := 1, h2o_vol := 0.01
                                   m_s := 110 - (ω + 5 + 3 - cap)
                                   rho := (110 - (ω + 5 + 3 - cap)) / (110 / 600)
                                   m_s_0 := 110 - (ω + 5 + 3 - cap) } := by
      refine ⟨hz0, f1.zl, rfl, ?_, ?_, f1.t0, f1.t, f1.cc0, f1.ccl, em _, em _, f1.ml⟩
      · show (110:ℝ) / 600 ≤ 0.25; norm_num
      · show 0 < (110 - (ω + 5 + 3 - cap)) / (110 / 600)
        exact div_pos (by linarith) hz0
    refine ⟨_, hst, ⟨rfl, f1, f3, f2, f5, hrip, rfl, g1, g2, g3', g3, g4, g5, g6, rfl, rfl, rfl, ⟨?_, ?_⟩, rfl, ⟨?_, ?_⟩, rfl, rfl⟩,
      hrip, ⟨?_, ?_⟩, rfl, ?_, ?_, .inr ⟨rfl, rfl⟩⟩
    · show 7 < ω + 5 + 3 - cap; linarith
    · show ω + 5 + 3 - cap < 8; linarith
    · show 0.1 < cap; linarith
    · show cap < 1; linarith
    · show 550 < (110 - (ω + 5 + 3 - cap)) / (110 / 600)
      rw [lt_div_iff₀ hz0]; linarith
    · show (110 - (ω + 5 + 3 - cap)) / (110 / 600) ≤ 600
      rw [div_le_iff₀ hz0]; linarith
    · show cap = h2o_left (110 / 600) ((110 - (ω + 5 + 3 - cap) - cap) / (110 / 600)) 0.01
      have e : 110 - (ω + 5 + 3 - cap) - cap = 110 - (ω + 5 + 3) := by ring
      rw [e]; exact hcap
    · show 1e-8 < cap; linarith
  obtain ⟨ls, m, w1, w2⟩ := first_trace (g := stormCfg) (calmCfg_tiled _ _ _ _ _) (calmCfg_env _ _ _ _ _) hs0
    (r1 := stormRec) (r2 := quietRec) (rs := List.replicate n quietRec) (calmRec_new (by norm_num))
    (calmRec_new (by norm_num)) (by
      unfold below_thold
      rw [if_neg (by rw [f1.lc]; norm_num), if_pos f1.lc, f3]
      simp [stormCfg, calmCfg]; norm_num) (p' := p') (by
        have : ((stormCfg.norm_time_step * 60 : ℤ) : ℝ) = 3600 := by norm_num [stormCfg, calmCfg, defaultSteps]
        rw [this]; exact hp')
    (P := fun ls m => ls.length = n ∧ ∀ l ∈ ls, ∀ y ∈ l, y.lv = .normal ∧ Settled 0.01 p'.snow.m_s y.pre ∧
        Settled 0.01 p'.snow.m_s y.post ∧ y.pre.snow.h2o = p'.snow.h2o ∧
        y.post.snow.snowcover = true ∧ y.post.snow.melt = 0 ∧ y.post.snow.E = 0 ∧ y.post.snow.E_s = 0 ∧
        y.post.snow.swi = 0 ∧ y.post.input1.precip_now = false)
    (fun ts m1 q1 q2 q3 _ => by
      have ht := parse_tile (g := stormCfg) (calmCfg_tiled _ _ _ _ _) q1
      obtain ⟨_, _, e1, _, _⟩ := parse_ok q1
      obtain ⟨ls, m', w1, w2, w3, w4⟩ := settled_run (vol := 0.01) (m0 := p'.snow.m_s) ht (all := stormCfg.output_all)
        (ps := 1 / 2) (r := 300) (by
          rw [e1]
          show (60:ℝ) ≤ _
          have := fs.m
          have := fs.swi.2
          dsimp only at *
          linarith) n m1 (by rw [q2]; exact ⟨hset.ripe, hset.rho, hset.m, hset.cap, hset.wet, hset.start⟩) q3
      refine ⟨ls, m', w1, w3, ?_⟩
      intro l hl y hy
      have := w4 l hl y hy
      rw [q2] at this
      exact this)
  exact ⟨_, ls, m, w1, fs, w2.1, w2.2⟩

end

end Pysnobal
