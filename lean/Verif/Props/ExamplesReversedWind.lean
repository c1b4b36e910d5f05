import Verif.Props.ReversedWind
import Verif.Lemmas.WitnessWind
import Verif.Props.Examples2

/-! # C100: a run in a negative wind, in which snow at −10 °C loses heat to air at 100 °C -/

namespace Pysnobal

noncomputable section

open Classical

/-- The record of the windy run with the wind reversed. -/
def backRec : Rec := { windRec with u := -0.3 }

theorem back_new : InputData.new backRec = .ok backRec.toInput := by
  rw [new_eq, if_neg]
  rintro ⟨_, _, h⟩
  exact absurd h (by norm_num [backRec, windRec])

theorem back_now : backRec.toInput.precip_now = false :=
  decide_eq_false (p := 0 < backRec.m_pp) (by norm_num [backRec, windRec])

theorem back_energy {p : Phys} (h : WindPack p.snow) (hi : p.input1 = backRec.toInput) (h1 : p.init_ustar = none)
    (h2 : p.init_factor = none) : ∃ (r : HleOut) (κ Δq LvE : ℝ), 0 < κ ∧ κ ≤ 0.0019 ∧
      r.h = -(κ * (CP_AIR * (BOIL + GRAVITY / CP_AIR * 4 - (FREEZE - 10)))) ∧ r.e = -(κ * Δq) ∧ Δq ≤ 0.0002 ∧
      LvE ≤ 60 ∧ (∃ p1, h_le (calmEnv 0.01) p = .ok (r, p1)) ∧ energy_balance (calmEnv 0.01) 3600 p = .ok { p with
        init_ustar := some r.ustar, init_factor := some r.factor
        snow := { p.snow with E := r.e, en := ⟨0, r.h, LvE, 0, 0, 0, r.h + LvE, r.h + LvE⟩ } } := by
  obtain ⟨q, hq⟩ : ∃ q : Phys, q = { p with input1 := windRec.toInput } := ⟨_, rfl⟩
  have hrev : q.reversed = p := by
    obtain ⟨s, i, iu, ifac⟩ := p
    simp only at hi h1 h2
    subst h1 h2
    rw [hq, hi]
    rfl
  have hqs : q.snow = p.snow := by rw [hq]
  have hqi : q.input1 = windRec.toInput := by rw [hq]
  have hq1 : q.init_ustar = none := by rw [hq]; exact h1
  have hq2 : q.init_factor = none := by rw [hq]; exact h2
  have hqw : WindPack q.snow := by rw [hqs]; exact h
  obtain ⟨r, κ, Δq, LvE, k1, k2, k3, k4, k5, k6, k7, k8⟩ := wind_energy hqw hqi hq1 hq2
  obtain ⟨r', _, _, j1, _, _, _, _, _, _⟩ := wind_hle hqw hqi hq1 hq2
  have k9 := k8
  rcases energy_balance_ok k9 with ⟨_, r2, q2, G, G0, M, e1, e2, e3, e4⟩ | ⟨h0, _⟩
  swap
  · rw [hqw.lc] at h0; omega
  rw [j1] at e1
  obtain ⟨e5, e6⟩ := Prod.mk.inj (Except.ok.inj e1)
  subst e5
  have hs := congrArg (fun z : Phys => z.snow) e4
  dsimp only at hs
  have hE : r.e = r'.e := congrArg Snow.E hs
  have hL : LvE = r'.le := congrArg (fun z : Snow => z.en.L_v_E) hs
  have hH : r.h = r'.h := congrArg (fun z : Snow => z.en.H) hs
  have hle : r'.le = lh_sub (FREEZE - 10) * r'.e := by
    obtain ⟨_, _, _, _, _, _, _, _, _, hh⟩ := h_le_ok j1
    have := (C34_latent_heat _ _ hh).1 (by simp only [hqw.t_s_0]; linarith)
    simp only [hqw.t_s_0] at this
    exact this
  have hb := h_le_reversed (calmEnv 0.01) q
  rw [hrev, j1] at hb
  have hc := C100_energy_balance (calmEnv 0.01) 3600 q (by rw [hqw.lc]; norm_num)
  rw [hrev, k8] at hc
  refine ⟨r'.reversed, κ, Δq, -LvE, k1, k2, ?_, ?_, k6, ?_, ⟨_, hb⟩, ?_⟩
  · rw [← k3, hH]; rfl
  · rw [← k4, hE]; rfl
  · rw [hL, hle, ← hE, k4]
    norm_num [lh_sub, lh_vap, lh_fus]
    nlinarith
  · have u1 : r.ustar = r'.ustar := by
      have := congrArg (fun z : Phys => z.init_ustar) e4
      dsimp only at this
      rw [← e6] at this
      exact Option.some.inj this
    have u2 : r.factor = r'.factor := by
      have := congrArg (fun z : Phys => z.init_factor) e4
      dsimp only at this
      rw [← e6] at this
      exact Option.some.inj this
    rw [hc, hq]
    simp only [Except.map, Phys.reversed, Snow.exchangeReversed, HleOut.reversed, Option.map, u1, u2, hE, hH]
    congr 1
    congr 1
    · congr 2 <;> ring
    · rw [hi]; rfl

/-- The step completes. -/
theorem back_step {p : Phys} (h : WindPack p.snow) (hi : p.input1 = backRec.toInput) (h1 : p.init_ustar = none)
    (h2 : p.init_factor = none) (dl : InputData) : ∃ p', stepPhys (calmEnv 0.01) 3600 dl p = .ok p' := by
  have hap : applied dl p.input1 = backRec.toInput := by
    unfold applied; rw [hi, if_neg (by rw [back_now]; simp)]
  have hw : WindPack (stepStart dl p).snow := by
    refine ⟨h.z_s, h.rho, h.m_s, h.t_s, h.t_s_0, h.t_s_l, h.lc, h.z_s_0, h.z_s_l, h.cc_s_0, h.cc_s_l, h.h2o, ?_⟩
    exact start_inv (by norm_num [calmEnv]) h.inv
  obtain ⟨r, κ, Δq, LvE, k1, k2, k3, k4, k6, k7, hh, k8⟩ := back_energy hw (show (stepStart dl p).input1 = _ from hap) h1 h2
  have eg : backRec.toInput.t_g = FREEZE - 10 := rfl
  have hsoil : SoilOK (calmEnv 0.01) backRec.toInput := by
    refine ⟨by norm_num [calmEnv], by norm_num [calmEnv, SEA_LEVEL], by rw [eg]; norm_num [FREEZE], ?_⟩
    intro v hv
    rw [eg] at hv
    have := (C35_relative_to_freezing _ v hv).1 (by linarith)
    norm_num [calmEnv, SEA_LEVEL]; linarith
  have fr : p.snow.Frozen := by
    refine ⟨?_, ?_, ?_⟩
    · rw [h.t_s_0]; norm_num [FREEZE]
    · rw [h.t_s]; norm_num [FREEZE]
    · rw [h.t_s_l]; norm_num [FREEZE]
  refine C52_step_completes (calmEnv 0.01) calmEnv_ok (by norm_num [calmEnv]) 3600 (by norm_num) dl p ?_
    (by rw [h.h2o]) (by linarith [h.cc_s_l]) (fun hn => ?_) (fun _ => ?_) (fun _ p1 hp1 T hT v hv => ?_)
  · rw [hap]
    exact ⟨h.inv, hsoil, by norm_num [calmEnv], by rw [eg]; norm_num [FREEZE, BOIL], fun _ => by rw [h.m_s]; norm_num,
      fun _ => fr⟩
  · rw [hap, back_now] at hn; cases hn
  · obtain ⟨p1, hh⟩ := hh
    exact ⟨_, hh⟩
  · rw [k8] at hp1
    cases hp1
    have hn : 0 ≤ v := by
      have hin : (stepStart dl p).input1 = backRec.toInput := hap
      simp only [hin] at hv
      have hT' : 0 < T ∧ T ≤ FREEZE - 10 := by
        simp only [soilTemps, List.mem_cons, List.not_mem_nil, or_false] at hT
        rcases hT with e | e | e | e <;> rw [e]
        · rw [h.t_s_0]; norm_num [FREEZE]
        · rw [h.t_s]; norm_num [FREEZE]
        · rw [h.t_s_l]; norm_num [FREEZE]
        · norm_num [T_NONE, MIN_SNOW_TEMP, FREEZE]
      exact soilExchange_nonneg hsoil (by norm_num [calmEnv]) (by norm_num) hT'.1 (by linarith [hT'.2])
        (by rw [eg]; exact hT'.2) (by rw [eg]; norm_num [FREEZE, BOIL]) hv
    have hH : r.h ≤ 0 := by
      rw [k3]
      norm_num [CP_AIR, BOIL, GRAVITY, FREEZE]
      linarith
    have hcap : meltCap 3600 { (stepStart dl p).snow with
        E := r.e, en := ⟨0, r.h, LvE, 0, 0, 0, r.h + LvE, r.h + LvE⟩ } = 0 := by
      unfold meltCap
      dsimp only
      have hcc : (stepStart dl p).snow.cc_s_0 ≤ -1500000 := h.cc_s_0
      rw [max_eq_left (by linarith), sub_self, zero_mul, max_self]
      simp
    have hE : -(r.e * 3600) ≤ 1 := by rw [k4]; nlinarith
    have hnow : (stepStart dl p).input1.precip_now = false := by
      rw [show (stepStart dl p).input1 = backRec.toInput from hap]; exact back_now
    have hi300 : p.snow.ice = 300 := by unfold Snow.ice; rw [h.m_s, h.h2o]; norm_num
    dsimp only
    rw [hcap, hnow, hi300, max_eq_left (by linarith : -v ≤ 0)]
    have : max 0 (-(r.e * 3600)) ≤ 1 := max_le (by norm_num) hE
    simp only [Bool.false_eq_true, if_false]
    linarith

/-- C100: a run over a table with a wind speed of −0.3 m/s completes, and its only run step takes heat out of the snow at −10 °C although the
air is at 100 °C. -/
example : ∃ x m, RunTrace windCfg [backRec, backRec] [[x]] m ∧ simulate windCfg [backRec, backRec] = .ok m ∧
    x.pre.snow.t_s_0 = FREEZE - 10 ∧ x.pre.input1.t_a = BOIL ∧ x.pre.input1.u = -0.3 ∧ x.post.snow.en.H < 0 := by
  obtain ⟨s, hs, hp, hinv, hd⟩ := wind_start
  have hw := wind_pack hp hinv hd
  obtain ⟨p', hp'⟩ := back_step (p := ⟨s, backRec.toInput, none, none⟩) hw rfl rfl rfl
    (deltaRec backRec.toInput backRec.toInput 1).toInput
  obtain ⟨ls, m, w1, w2⟩ := first_trace (g := windCfg) wind_tiled wind_env hs (r1 := backRec) (r2 := backRec)
    (rs := []) back_new back_new (by
      unfold below_thold
      rw [if_neg (by rw [hw.lc]; norm_num), if_neg (by rw [hw.lc]; norm_num)]
      have e1 : s.m_s_0 = 75 := by rw [hp.m_s_0, hw.z_s_0]; norm_num [windCfg, calmCfg]
      have e2 : s.m_s_l = 225 := by rw [hp.m_s_l, hw.z_s_l]; norm_num [windCfg, calmCfg]
      rw [e1, e2]
      norm_num [windCfg, calmCfg]) (p' := p') (by
        have : ((windCfg.norm_time_step * 60 : ℤ) : ℝ) = 3600 := by norm_num [windCfg, calmCfg, defaultSteps]
        rw [this]; exact hp')
    (P := fun ls _ => ls = []) (fun ts m1 _ _ _ _ => ⟨[], m1, .nil _ _, rfl⟩)
  rw [w2] at w1
  refine ⟨_, m, w1, w1.simulate, hw.t_s_0, rfl, rfl, ?_⟩
  have hap : (stepStart (deltaRec backRec.toInput backRec.toInput 1).toInput ⟨s, backRec.toInput, none, none⟩).input1 = backRec.toInput := by
    show applied _ _ = _
    unfold applied; rw [if_neg (by rw [back_now]; simp)]
  have hw' : WindPack (stepStart (deltaRec backRec.toInput backRec.toInput 1).toInput ⟨s, backRec.toInput, none, none⟩).snow :=
    ⟨hw.z_s, hw.rho, hw.m_s, hw.t_s, hw.t_s_0, hw.t_s_l, hw.lc, hw.z_s_0, hw.z_s_l, hw.cc_s_0, hw.cc_s_l, hw.h2o,
      start_inv (by norm_num [calmEnv]) hw.inv⟩
  obtain ⟨r, κ, Δq, LvE, k1, _, k3, _, _, _, _, k8⟩ := back_energy hw' hap rfl rfl
  rcases stepPhys_energy hp' with ⟨_, r1, p1, G, G0, M, h1, _, _, _, hen⟩ | ⟨h0, _⟩
  swap
  · have := hw.lc; simp only at h0; omega
  show p'.snow.en.H < 0
  rw [hen]
  rcases energy_balance_ok k8 with ⟨_, r2, q2, _, _, _, e1, _, _, e4⟩ | ⟨h0, _⟩
  swap
  · rw [hw'.lc] at h0; omega
  have hH : r.h = r2.h := congrArg (fun z : Phys => z.snow.en.H) e4
  have : h_le (calmEnv 0.01) (stepStart (deltaRec backRec.toInput backRec.toInput 1).toInput ⟨s, backRec.toInput, none, none⟩) = _ := h1
  rw [this] at e1
  obtain ⟨e5, _⟩ := Prod.mk.inj (Except.ok.inj e1)
  show r1.h < 0
  rw [e5, ← hH, k3]
  norm_num [CP_AIR, BOIL, GRAVITY, FREEZE]
  linarith

end

end Pysnobal
