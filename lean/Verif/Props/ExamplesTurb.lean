import Verif.Props.TurbTies
import Verif.Props.Exceptions

/-! # C82: runs that meet a tie -/

namespace Pysnobal

noncomputable section

/-- A dry record with air temperature `t`, vapour pressure `v` and wind speed `U`. -/
def critRec (t v U : ℝ) : Rec := { excRec t v with u := U }

theorem critRec_accepted (t v U : ℝ) : (critRec t v U).Accepted := fun h => absurd h (by simp [critRec, excRec, calmRec])

/-- Two equal records over the pack of `excCfg` raise what the turbulent exchange of the first step raises. -/
theorem crit_raises {z t v U : ℝ} {e : Err}
    (h : ∀ p : Phys, p.snow.t_s_0 = FREEZE → p.snow.z_s = 1 / 6 → p.input1 = (critRec t v U).toInput →
      p.init_ustar = none → p.init_factor = none → h_le { calmEnv 0.01 with z_u := z, z_t := z } p = .error e) :
    simulate (excCfg z) [critRec t v U, critRec t v U] = .error e := by
  obtain ⟨h1, _, h3⟩ := excCfg_ok z
  have hinit := init_calm (thr := 200) (vol := 0.01) (z := 1 / 6) (rho := 600) (sat := 1) (d := _)
    (by norm_num) (by norm_num) (by norm_num) (by norm_num [RHO_W0, RHO_ICE]) rfl
  have hinit : init_snow { calmEnv 0.01 with z_u := z, z_t := z } (recordSnow (excCfg z)) = _ := hinit
  obtain ⟨i, hn⟩ := accepted_new (critRec_accepted t v U)
  have ei := (new_ok hn).1
  have hp : i.precip_now = false := by
    rw [ei]
    simp [Rec.toInput, critRec, excRec, calmRec]
  refine first_raises h1 h3 hinit hn hn hp fun dt d => ?_
  unfold stepPhys
  dsimp only
  rw [if_neg (by rw [hp]; simp)]
  unfold energy_balance
  rw [if_pos (by simp [Snow.layer_count, Snow.zero])]
  dsimp only
  rw [h _ rfl rfl ei rfl rfl]
  rfl

/-- What the first step of such a run hands to the exchange. -/
theorem crit_exchange {t v U : ℝ} (ht : 0 < t) {e : Err}
    (h : ∀ sv, sati t = .ok sv → hle1 { press := SEA_LEVEL, air_temp := t, surface_temp := FREEZE, za := 5 - 1 / 6
                                        ea := min v sv, es := 610.71, zq := 5 - 1 / 6, wind_speed := U, zu := 5 - 1 / 6
                                        z0 := 0.005, init_ustar := none, init_factor := none } = .error e) :
    simulate (excCfg 5) [critRec t v U, critRec t v U] = .error e := by
  obtain ⟨sv, hsv⟩ := sati_ok_iff.mpr ht
  refine crit_raises fun p h1 h2 h3 h4 h5 => ?_
  have e1 : p.input1.t_a = t := by rw [h3]; rfl
  have e2 : p.input1.e_a = v := by rw [h3]; rfl
  have e3 : p.input1.u = U := by rw [h3]; rfl
  have hi : (if p.input1.e_a > sv then { p.input1 with e_a := sv } else p.input1) =
      { p.input1 with e_a := min p.input1.e_a sv } := by
    split
    · rename_i h; rw [min_eq_right h.le]
    · rename_i h; rw [min_eq_left (not_lt.mp h)]
  unfold h_le InputData.sat_vp Snow.e_s_0
  rw [e1, hsv, bind_ok, hi, h1, sati_freeze, bind_ok]
  dsimp only
  rw [h2, h4, h5, e1, e2, e3]
  have := h sv hsv
  simp only [calmEnv, Bool.false_eq_true, if_false]
  rw [this]
  rfl

/-- C82, ties occur in ordinary weather: for every cold air (by more than the adiabatic 0.05 K below the ripe snow
pack of 100 kg/m² at the freezing point) and every vapour pressure up to that of the snow there is a wind speed at which
the run raises a division by zero in its first step. -/
theorem C82_critical_run (t v : ℝ) (ht : 0 < t) (hcold : t + GRAVITY / CP_AIR * 5 < FREEZE) (hv : 0 < v)
    (hv' : v ≤ 610.71) : ∃ U : ℝ, 0 < U ∧
      simulate (excCfg 5) [critRec t v U, critRec t v U] = .error .zeroDivision := by
  obtain ⟨sv, hsv⟩ := sati_ok_iff.mpr ht
  obtain ⟨w, hw⟩ := satw_ok_iff.mpr ht
  have hg := div_pos grav_pos cpair_pos
  obtain ⟨a, ha⟩ : ∃ a : HleIn, a = { press := SEA_LEVEL, air_temp := t, surface_temp := FREEZE, za := 5 - 1 / 6
                                      ea := min v sv, es := 610.71, zq := 5 - 1 / 6, wind_speed := 0, zu := 5 - 1 / 6
                                      z0 := 0.005, init_ustar := none, init_factor := none } := ⟨_, rfl⟩
  have hP : (610.71 : ℝ) < SEA_LEVEL := by norm_num [SEA_LEVEL]
  have vv : HleValid a := by
    rw [ha]
    exact ⟨by norm_num, by norm_num, by norm_num, by norm_num, ht, freeze_pos, lt_min hv (sati_value_pos hsv), by norm_num,
      lt_of_le_of_lt ((min_le_left _ _).trans hv') hP, hP, fun w' hw'' => by
        have hw'' : satw t = .ok w' := hw''
        rw [hw] at hw''; cases hw''
        exact (sub_le_sub_right (min_le_right _ _) 25).trans (C35_ice_within_tolerance _ _ _ hsv hw)⟩
  have hth : a.theta = t + GRAVITY / CP_AIR * (5 - 1 / 6) := by rw [ha]; rfl
  have hth1 : 0 < a.theta := by rw [hth]; positivity
  have hth2 : a.theta < FREEZE := by rw [hth]; nlinarith
  have hf : a.surface_temp = FREEZE := by rw [ha]
  obtain ⟨q, q1, _⟩ := spec_hum_of (e := min a.ea w) (P := SEA_LEVEL)
    (by rw [ha]; exact lt_min (lt_min hv (sati_value_pos hsv)) (satw_value_pos hw))
    (by rw [ha]; exact lt_of_le_of_lt ((min_le_left _ _).trans ((min_le_left _ _).trans hv')) hP)
  obtain ⟨q', q2, _⟩ := spec_hum_of (e := 610.71) (P := SEA_LEVEL) (by norm_num) hP
  have hq : q ≤ q' := by
    have hle : min a.ea w ≤ 610.71 := by rw [ha]; exact (min_le_left _ _).trans ((min_le_left _ _).trans hv')
    rcases hle.lt_or_eq with h | h
    · exact (spec_hum_lt (by rw [ha]; exact lt_min (lt_min hv (sati_value_pos hsv)) (satw_value_pos hw)) h hP q1 q2).le
    · rw [h, q2] at q1; cases q1; exact le_rfl
  rw [spec_hum_spec q1, spec_hum_spec q2] at hq
  have hB : 0 < -((a.theta - a.surface_temp) / a.theta +
      0.61 * (vapourFraction (min a.ea w) a.press - vapourFraction a.es a.press)) := by
    have h1 : (a.theta - a.surface_temp) / a.theta < 0 := div_neg_of_neg_of_pos (by rw [hf]; linarith) hth1
    have h2 : a.press = SEA_LEVEL := by rw [ha]
    have h3 : a.es = 610.71 := by rw [ha]
    rw [h2, h3]
    linarith
  obtain ⟨U, hU, hr⟩ := C82_critical_wind a vv (by rw [ha]; norm_num) (by rw [ha]; norm_num) (by rw [ha])
    (by rw [hf]; exact hth2.ne) w (by rw [ha]; exact hw) _ rfl hB
  refine ⟨U, hU, crit_exchange ht fun sv' hsv' => ?_⟩
  rw [hsv] at hsv'
  cases hsv'
  rw [ha] at hr
  exact hr

/-- C82: the hypotheses of the run theorem are met by such a run; the tie it finds is one of the exchange. -/
example : ∃ (U : ℝ) (e : Err) (ts : Tsteps) (k : ℕ) (m : Model) (i1 i2 : InputData) (l : List (RStep Phys)) (mid : Model)
    (lv : Level) (d : InputData) (rest : List Level) (c : Env) (ls : List (List (RStep Phys))), 0 < U ∧
    mkEnv (excCfg 5) = .ok c ∧ RunTrace (excCfg 5) ([critRec 263 20 U, critRec 263 20 U].take (k + 1)) ls m ∧
    StepRaises c ts (excCfg 5).output_all i1 i2 m l mid lv d rest e ∧
    ∃ s i, s = mid.phys.snow ∧ i = mid.phys.input1 ∧ 0 < s.layer_count ∧
      ((excCfg 5).z_u - s.z_s ≤ 5.9 * (excCfg 5).init_z_0 ∨ (excCfg 5).z_t - s.z_s ≤ 5.9 * (excCfg 5).init_z_0 ∨ i.e_a ≤ 0 ∨
       (∃ sv es, sati i.t_a = .ok sv ∧ sati s.t_s_0 = .ok es ∧
         TurbTie (c.exchangeIn i s mid.phys.init_ustar mid.phys.init_factor (min i.e_a sv) es) e) ∨
       (s.t_s_0 ≤ 0 ∨ s.t_s ≤ 0 ∨ s.t_s_l ≤ 0 ∨
          ∃ x ∈ ls.flatten ++ l, x.pre.snow.layer_count = 2 ∧ x.pre.snow.t_s < 0) ∨
       s.m_s ≤ 0 ∨
       (e = .zeroDivision ∧ ∃ p1, energy_balance c (ts lv).time_step (stepStart d mid.phys) = .ok p1 ∧
          UsedUp c p1.input1 (ts lv).time_step p1.snow)) := by
  obtain ⟨U, hU, hr⟩ := C82_critical_run 263 20 (by norm_num) (by norm_num [GRAVITY, CP_AIR, FREEZE]) (by norm_num) (by norm_num)
  obtain ⟨h1, h2, h3⟩ := excCfg_ok 5
  have hP : (610.71 : ℝ) < ({ calmEnv 0.01 with z_u := 5, z_t := 5 } : Env).P_a := by norm_num [calmEnv, SEA_LEVEL]
  have hacc : ∀ r ∈ [critRec 263 20 U, critRec 263 20 U], r = critRec 263 20 U := by simp
  have hr' : ∀ r ∈ [critRec 263 20 U, critRec 263 20 U], r.Accepted ∧ r.Admissible ∧
      r.GroundOK ({ calmEnv 0.01 with z_u := 5, z_t := 5 } : Env).P_a := by
    intro r hx
    rw [hacc r hx]
    refine ⟨critRec_accepted _ _ _, fun h => absurd h (by simp [critRec, excRec, calmRec]), ?_⟩
    have htg : (critRec 263 20 U).t_g = FREEZE := rfl
    unfold Rec.GroundOK
    rw [htg]
    refine ⟨freeze_pos, boil_gt.le, fun e he => ?_⟩
    rw [sati_freeze] at he
    cases he
    exact hP
  obtain ⟨ts, k, hk, m, i1, i2, l, mid, lv, d, rest, k1, k2, k3, k4, _, k5⟩ := C68_failure_located (excCfg 5) h1 h2 _ h3 _
    (by simp) (fun r hx => (hr' r hx).1) _ hr
  obtain ⟨ls, htr⟩ := simulate_trace k2
  refine ⟨U, _, ts, k, m, i1, i2, l, mid, lv, d, rest, _, ls, hU, h3, htr, k5, ?_⟩
  exact C82_run_raises (excCfg 5) h1 h2
    ⟨⟨by norm_num [excCfg, divCfg, calmCfg, defaultSteps, FREEZE], by norm_num [excCfg, divCfg, calmCfg, defaultSteps, FREEZE]⟩,
      by norm_num [excCfg, divCfg, calmCfg, defaultSteps, FREEZE],
      fun t h => by simp [excCfg, divCfg, calmCfg, defaultSteps] at h⟩
    (by norm_num [excCfg, divCfg, calmCfg, defaultSteps]) (by norm_num [excCfg, divCfg, calmCfg, defaultSteps])
    (by norm_num [excCfg, divCfg, calmCfg, defaultSteps]) _ h3 hP _ hr'
    (fun r hx => by
      rw [hacc r hx]
      constructor
      · show (0:ℝ) < 263; norm_num
      · show (20:ℝ) < SEA_LEVEL; norm_num [SEA_LEVEL]) ts k1 k hk ls m htr i1 i2 k3 k4 l mid lv d rest _ k5

end

end Pysnobal
