import Verif.Lemmas.MassProgress
import Verif.Props.Examples
import Verif.Props.Turbulence
import Verif.Props.IceWater

/-! # C51, C52: when a run step completes -/

namespace Pysnobal

noncomputable section

/-! ## C51 -/

/-- C51: the mass balance of a run step completes – no division by zero and no other exception – for every
consistent pack (`MassStart`) on ground whose vapour exchange can be computed (`SoilOK`), a positive
retention capacity, a positive step and admissible precipitation. -/
theorem C51_mass_balance_completes (c : Env) (hc : c.OK) (hv : 0 < c.max_h2o_vol) (i : InputData) (dt : ℝ)
    (hdt : 0 < dt) (hi : SoilOK c i) (hf : i.precip_now = true → StepForcing i) (s : Snow)
    (h : MassStart c i dt s) : ∃ s', mass_balance c i dt s = .ok s' :=
  mass_balance_prog hc hv hdt hi hf h

/-- C51, the other side: with a retention capacity of zero (`max_h2o_vol = 0`) no mass balance of a lasting
snow cover completes unless there is liquid water in the pack: dry snow raises. -/
theorem C51_zero_capacity_needs_water (c : Env) (hmax : 0 < c.max_z_s_0) (hv : c.max_h2o_vol = 0) (i : InputData) (dt : ℝ) (s s' : Snow)
    (h : mass_balance c i dt s = .ok s') (hs : s'.snowcover = true) (hl : 0 < s'.layer_count) :
    0 < s'.h2o_total := by
  obtain ⟨s1, s2, s3, s4, s5, s6, _, _, _, _, _, k6, k7⟩ := mass_balance_ok h
  have e : s' = { s6 with t_s := s'.t_s, t_s_0 := s'.t_s_0, t_s_l := s'.t_s_l } := by
    rcases k7 with ⟨_, k⟩ | ⟨_, k⟩
    · exact adjust_frame k
    · rw [k]
  have e1 : s'.h2o_total = s6.h2o_total ∧ s'.snowcover = s6.snowcover ∧ s'.layer_count = s6.layer_count := by
    rw [e]; exact ⟨rfl, rfl, rfl⟩
  have hcap : capacity c s5 = 0 := by unfold capacity h2o_left; rw [hv]; simp
  rw [e1.1]
  rw [e1.2.1] at hs
  rw [e1.2.2] at hl
  rcases runoff_ok k6 with ⟨a, b⟩ | ⟨_, _, _, a, b⟩ | ⟨_, _, _, _, a, _⟩
  · rw [b] at hs hl
    have hs' : s5.snowcover = true := hs
    have hl' : 0 < s5.layer_count := hl
    rcases a with a | a
    · rw [a] at hs'; cases hs'
    · omega
  · have h0 : 0 < s5.h2o_total := by rw [hcap] at a; exact a
    have : s6.h2o_total = s5.h2o_total ∨ s5.h2o_total ≤ s6.h2o_total := by
      right
      rw [b]
      by_cases hr : adjRho 0 (-(s5.h2o_total - capacity c s5))
        { s5 with h2o_max := capacity c s5, swi := s5.h2o_total - capacity c s5, h2o := capacity c s5,
                  h2o_sat := 1, h2o_vol := c.max_h2o_vol } > 600
      · rw [adj_snow_clip hr]
        obtain ⟨x, hx⟩ : ∃ x, x = ({ s5 with h2o_max := capacity c s5, swi := s5.h2o_total - capacity c s5, h2o := capacity c s5, h2o_sat := 1, h2o_vol := c.max_h2o_vol, z_s := (s5.m_s + -(s5.h2o_total - capacity c s5)) / 600, m_s := s5.m_s + -(s5.h2o_total - capacity c s5), rho := 600 } : Snow) := ⟨_, rfl⟩
        have ex : x.h2o_total = s5.h2o_total := by rw [hx]
        rw [← hx, ← ex]
        rcases adj_layers_cases hmax x with ⟨k, _⟩ | ⟨k, _⟩
        · rw [k.h2o_total]
        · rw [k.h2o_total]; linarith [le_max_right x.m_s 0]
      · rw [adj_snow_still hr]
    rcases this with t | t <;> linarith
  · exact absurd hcap a

/-- Soil at least as warm as the snow gives vapour to it, never takes any. -/
theorem soilExchange_nonneg {c : Env} {i : InputData} (h : SoilOK c i) (hz : 0 < c.z_g) {dt T v : ℝ}
    (hdt : 0 ≤ dt) (h0 : 0 < T) (h1 : T ≤ FREEZE) (hT : T ≤ i.t_g) (hb : i.t_g ≤ BOIL)
    (hv : soilExchange c i dt T = .ok v) : 0 ≤ v := by
  have hP : 0 < c.P_a := by linarith [h.press]
  unfold soilExchange InputData.e_g at hv
  obtain ⟨e, he, hv⟩ := bind_eq_ok.mp hv
  obtain ⟨q, hq, hv⟩ := bind_eq_ok.mp hv
  obtain ⟨eg, heg, hv⟩ := bind_eq_ok.mp hv
  obtain ⟨qg, hqg, hv⟩ := bind_eq_ok.mp hv
  obtain ⟨ra, hra, hv⟩ := bind_eq_ok.mp hv
  obtain ⟨k, hk, hv⟩ := bind_eq_ok.mp hv
  obtain ⟨E, hE, hv⟩ := bind_eq_ok.mp hv
  simp only [pure_ok, Except.ok.injEq] at hv
  have hqq : q ≤ qg := by
    rcases hT.lt_or_eq with hT | hT
    · have hee := C35_sati_increasing T i.t_g e eg hT hb he heg
      exact (spec_hum_lt (sati_value_pos he) hee (h.vapour eg heg) hq hqg).le
    · rw [hT, heg] at he; cases he
      rw [hqg] at hq; cases hq; exact le_refl _
  have hra0 : 0 ≤ ra := by
    unfold gas_density at hra
    rw [pdiv_eq_ok] at hra
    rw [hra.2]
    have := rgas_pos; have := molair_pos; have := h.warm
    positivity
  have hk0 : 0 ≤ k := by
    unfold diffusion_coef at hk
    rw [pdiv_of_ne hP.ne', bind_ok] at hk
    simp only [pure_ok, Except.ok.injEq] at hk
    rw [← hk]
    have : (0 : ℝ) < SEA_LEVEL := by norm_num [SEA_LEVEL]
    have := freeze_pos; have := h.warm
    positivity
  unfold vapor_flux at hE
  rw [pdiv_of_ne hz.ne', bind_ok] at hE
  simp only [pure_ok, Except.ok.injEq] at hE
  rw [← hv, ← hE]
  have : 0 ≤ (qg - q) / c.z_g := div_nonneg (by linarith) hz.le
  positivity

theorem boil_gt : FREEZE < BOIL := by norm_num [FREEZE, BOIL]

theorem calm_soil (vol : ℝ) {i : InputData} (h : i.t_g = FREEZE) : SoilOK (calmEnv vol) i := by
  refine ⟨by norm_num [calmEnv], by norm_num [calmEnv, SEA_LEVEL], by rw [h]; exact freeze_pos, ?_⟩
  intro e he
  rw [h, sati_freeze] at he
  cases he
  norm_num [calmEnv, SEA_LEVEL]

theorem calmEnv_ok : (calmEnv 0.01).OK := by
  constructor <;> norm_num [calmEnv, RHO_W0, RHO_ICE]

/-- The pack of the storm example when its mass balance starts: 100 kg/m² of ripe snow that receives
278 W/m². -/
def stormPack : Snow :=
  { Snow.zero with
    z_s := 1 / 6, rho := 600, t_s_0 := FREEZE, t_s := FREEZE, t_s_l := T_NONE, m_s := 100, z_s_0 := 1 / 6
    m_s_0 := 100, snowcover := true, en := ⟨278, 0, 0, 0, 0, 0, 278, 278⟩ }

/-- C51: the storm (10 kg/m² of rain and snow on 100 kg/m² of melting snow) meets the hypotheses. -/
example : (calmEnv 0.01).OK ∧ 0 < (calmEnv 0.01).max_h2o_vol ∧ SoilOK (calmEnv 0.01) stormRec.toInput ∧
    StepForcing stormRec.toInput ∧ MassStart (calmEnv 0.01) stormRec.toInput 3600 stormPack ∧
    stormPack.snowcover = true ∧ ∃ s', mass_balance (calmEnv 0.01) stormRec.toInput 3600 stormPack = .ok s' := by
  have hsoil : SoilOK (calmEnv 0.01) stormRec.toInput := calm_soil _ rfl
  have hf : StepForcing stormRec.toInput :=
    toInput_forcing (storm_rows 0 stormRec (by simp)).1 (by norm_num [stormRec, calmRec])
      (fun _ _ => by norm_num [stormRec, calmRec])
  have hlc : stormPack.layer_count = 1 := by simp [Snow.layer_count, stormPack, Snow.zero]
  have fr : stormPack.Frozen :=
    ⟨⟨freeze_pos, le_refl _⟩, ⟨freeze_pos, le_refl _⟩, t_none_ok⟩
  have hs : MassStart (calmEnv 0.01) stormRec.toInput 3600 stormPack := by
    refine ⟨⟨?_, ?_, ?_, ?_, ?_, ?_, ?_⟩, by rw [hlc]; rfl, rfl, le_refl _, fun _ => ?_, fun _ => fr,
      fun _ => le_refl _, fun _ T hT v hv => ?_⟩
    · simp [stormPack, Snow.zero]
    · simp [stormPack, Snow.zero]
    · simp [stormPack, Snow.zero]
    · simp [stormPack, Snow.zero]
    · intro h; norm_num [stormPack, Snow.zero] at h
    · intro _; norm_num [stormPack, Snow.zero]
    · intro _; norm_num [stormPack]
    · norm_num [stormPack]
    · have hT' : 0 < T ∧ T ≤ FREEZE := by
        simp only [soilTemps, List.mem_cons, List.not_mem_nil, or_false] at hT
        rcases hT with e | e | e | e <;> rw [e]
        · exact fr.surf
        · exact fr.mean
        · exact fr.lower
        · exact t_none_ok
      have hn := soilExchange_nonneg hsoil (by norm_num [calmEnv]) (by norm_num) hT'.1 hT'.2
        (show T ≤ FREEZE from hT'.2) boil_gt.le hv
      rw [max_eq_left (by linarith : -v ≤ 0)]
      have hnow : stormRec.toInput.precip_now = true := calm_now (by norm_num)
      rw [if_pos hnow]
      have hw : wetWater (calmEnv 0.01) stormRec.toInput ≤ 5 := by
        unfold wetWater
        have g4 : stormRec.toInput.z_snow = 1 / 60 :=
          (if_pos (c := 0 < (10:ℝ) ∧ 0 < (10:ℝ) * (1 / 2)) (by norm_num)).trans (by norm_num [stormRec, calmRec])
        have g6 : stormRec.toInput.h2o_sat_snow = 1 :=
          if_pos (c := 0 < (10:ℝ) ∧ 0 < (10:ℝ) * (1 / 2) ∧ (0 < (10:ℝ) - 10 * (1 / 2) ∨ FREEZE ≤ FREEZE))
            (by norm_num)
        rw [g4, g6, show stormRec.toInput.rho_snow = 300 from rfl]
        norm_num [h2o_left, calmEnv, RHO_W0, RHO_ICE]
      have hm : stormRec.toInput.m_snow = 5 := by show (10:ℝ) * (1 / 2) = 5; norm_num
      rw [hm]
      have hcap : meltCap 3600 stormPack = 3 := by
        unfold meltCap
        rw [lf_eq]
        norm_num [stormPack, Snow.zero]
      have hi : stormPack.ice = 100 := by norm_num [Snow.ice, stormPack, Snow.zero]
      have hE : max 0 (-(stormPack.E * 3600)) = 0 := by norm_num [stormPack, Snow.zero]
      rw [hcap, hi, hE]
      linarith
  exact ⟨calmEnv_ok, by norm_num [calmEnv], hsoil, hf, hs, rfl,
    C51_mass_balance_completes _ calmEnv_ok (by norm_num [calmEnv]) _ _ (by norm_num) hsoil (fun _ => hf) _ hs⟩

/-! ## C52 -/

theorem efcon_prog {k T P e : ℝ} (hk : 0 < k) (hT : 0 < T) (hB : T ≤ BOIL) (he : 0 < e) (hP : e < P) :
    ∃ v, efcon k T P (some e) = .ok v ∧ 0 < v := by
  have hP0 : 0 < P := he.trans hP
  unfold efcon diffusion_coef mix_ratio
  rw [pdiv_of_ne hP0.ne', bind_ok, pure_ok, bind_ok]
  dsimp only
  rw [pure_ok, bind_ok, pdiv_of_ne (by linarith : P - e ≠ 0), bind_ok, pure_ok]
  refine ⟨_, rfl, ?_⟩
  have h1 : 0 ≤ lh_vap T := by
    unfold lh_vap; unfold BOIL at hB; unfold FREEZE; norm_num at hB ⊢; linarith
  have h2 : T ≤ FREEZE → 0 ≤ lh_sub T := by
    intro h
    unfold lh_sub lh_fus
    have : 0 ≤ 166.67 * (FREEZE - T) := mul_nonneg (by norm_num) (by linarith)
    linarith
  have h3 : 0 ≤ (if T > FREEZE then lh_vap T else if T = FREEZE then (lh_vap T + lh_sub T) / 2 else lh_sub T) := by
    split
    · exact h1
    · rename_i h
      have := h2 (not_lt.mp h)
      split
      · linarith
      · exact this
  have h4 : (0 : ℝ) ≤ 0.65 * (SEA_LEVEL / P) * (T / FREEZE) ^ 14 * (0.01 * 0.01) := by
    have : (0 : ℝ) < SEA_LEVEL := by norm_num [SEA_LEVEL]
    have := freeze_pos
    positivity
  have h5 : 0 ≤ MOL_H2O / MOL_AIR * e / (P - e) := by
    have := molh2o_pos; have := molair_pos
    have : 0 < P - e := by linarith
    positivity
  have := mul_nonneg (mul_nonneg h3 h4) h5
  linarith

theorem g_soil_prog {c : Env} {i : InputData} (h : SoilOK c i) (hz : 0 < c.z_g) (hb : i.t_g ≤ BOIL)
    {s : Snow} (hf : s.Frozen) (hr : 0 < s.rho) {b : Bool} (hd : 0 < if b then s.z_s_0 else s.z_s_l) :
    ∃ g, g_soil c i b s = .ok g := by
  have hk : 0 < s.kts := by
    unfold Snow.kts
    have : (0:ℝ) < CAL_TO_J := by norm_num [CAL_TO_J]
    positivity
  obtain ⟨T, d, hT, hd', key⟩ : ∃ T d, (0 < T ∧ T ≤ FREEZE) ∧ 0 < d ∧ g_soil c i b s = (do
      let es ← sati T
      let e_g ← i.e_g
      let k_g ← efcon KT_MOISTSAND i.t_g c.P_a (some e_g)
      let k_s ← efcon s.kts T c.P_a (some es)
      ssxfr k_s k_g T i.t_g d c.z_g) := by
    cases b
    · refine ⟨s.t_s_l, s.z_s_l, hf.lower, hd, ?_⟩
      unfold g_soil Snow.e_s_l
      simp only [Bool.false_eq_true, if_false, gt_iff_lt, not_lt.mpr hf.lower.2]
    · refine ⟨s.t_s_0, s.z_s_0, hf.surf, hd, ?_⟩
      unfold g_soil Snow.e_s_0
      simp only [if_true, gt_iff_lt, not_lt.mpr hf.surf.2, if_false]
  obtain ⟨es, hes⟩ := sati_ok_iff.mpr hT.1
  obtain ⟨eg, heg⟩ := sati_ok_iff.mpr h.warm
  obtain ⟨kg, hkg, hkg'⟩ := efcon_prog (k := KT_MOISTSAND) (by norm_num [KT_MOISTSAND]) h.warm hb
    (sati_value_pos heg) (h.vapour eg heg)
  obtain ⟨ks, hks, hks'⟩ := efcon_prog hk hT.1 (hT.2.trans boil_gt.le) (sati_value_pos hes)
    (lt_of_le_of_lt (sati_le_freeze hT.2 hes) h.press)
  rw [key, hes, bind_ok]
  unfold InputData.e_g
  rw [heg, bind_ok, hkg, bind_ok, hks, bind_ok]
  unfold ssxfr
  exact ⟨_, pdiv_of_ne (by positivity)⟩

theorem g_snow_prog {c : Env} (hP : 610.71 < c.P_a) {s : Snow} (hf : s.Frozen) (hr : 0 < s.rho)
    (h0 : 0 < s.z_s_0) (hl : 0 < s.z_s_l) : ∃ g, g_snow c s = .ok g := by
  have hk : 0 < s.kts := by
    unfold Snow.kts
    have : (0:ℝ) < CAL_TO_J := by norm_num [CAL_TO_J]
    positivity
  unfold g_snow
  split
  · exact ⟨_, rfl⟩
  · unfold Snow.e_s_0 Snow.e_s_l
    obtain ⟨e0, he0⟩ := sati_ok_iff.mpr hf.surf.1
    obtain ⟨el, hel⟩ := sati_ok_iff.mpr hf.lower.1
    obtain ⟨k0, hk0, hk0'⟩ := efcon_prog hk hf.surf.1 (hf.surf.2.trans boil_gt.le) (sati_value_pos he0)
      (lt_of_le_of_lt (sati_le_freeze hf.surf.2 he0) hP)
    obtain ⟨kl, hkl, hkl'⟩ := efcon_prog hk hf.lower.1 (hf.lower.2.trans boil_gt.le) (sati_value_pos hel)
      (lt_of_le_of_lt (sati_le_freeze hf.lower.2 hel) hP)
    rw [he0, bind_ok, hk0, bind_ok, hel, bind_ok, hkl, bind_ok]
    unfold ssxfr
    exact ⟨_, pdiv_of_ne (by positivity)⟩

theorem heat_transfer_prog {c : Env} (hmax : 0 < c.max_z_s_0) {i : InputData} (h : SoilOK c i) (hz : 0 < c.z_g)
    (hb : i.t_g ≤ BOIL) {s : Snow} (hi : Inv c s) (hl : 0 < s.layer_count) (hf : s.Frozen) (hr : 0 < s.rho) :
    ∃ g, heat_transfer c i s = .ok g := by
  have h0 := (hi.lc_pos_iff hmax).mp hl
  unfold heat_transfer
  by_cases h1 : s.layer_count = 1
  · rw [if_pos h1]
    obtain ⟨g, hg⟩ := g_soil_prog h hz hb hf hr (b := true) h0
    rw [hg, bind_ok]
    exact ⟨_, rfl⟩
  · rw [if_neg h1]
    have h2 : s.layer_count = 2 := by have := lc_le_two s; omega
    have hzl := (lc_eq_two.mp h2).2
    obtain ⟨g, hg⟩ := g_soil_prog h hz hb hf hr (b := false) hzl
    obtain ⟨g', hg'⟩ := g_snow_prog h.press hf hr h0 hzl
    rw [hg, bind_ok, hg', bind_ok]
    exact ⟨_, rfl⟩

theorem advec_prog {i : InputData} {dt : ℝ} (hdt : dt ≠ 0) (s : Snow) : ∃ M, advec i dt s = .ok M := by
  unfold advec
  split
  · exact ⟨_, pdiv_of_ne hdt⟩
  · exact ⟨_, rfl⟩

/-- The state with which a run step enters its energy balance (snobal.py:235–246). -/
def stepStart (dl : InputData) (p : Phys) : Phys :=
  { p with input1 := applied dl p.input1
           snow := { p.snow with h2o_total := 0, snowcover := decide (p.snow.layer_count > 0) } }

/-- A pack and its surroundings for which the conduction terms of the energy balance are defined. -/
structure EnergyStart (c : Env) (i : InputData) (s : Snow) : Prop where
  inv : Inv c s
  soil : SoilOK c i
  depth : 0 < c.z_g
  cool : i.t_g ≤ BOIL
  mass : 0 < s.layer_count → 0 < s.m_s
  frozen : 0 < s.layer_count → s.Frozen

/-- C52: for a pack with positive mass and temperatures between absolute zero and freezing, the energy
balance of a run step completes if and only if the turbulent-transfer routine does. -/
theorem C52_energy_balance_completes (c : Env) (hc : c.OK) (dt : ℝ) (hdt : 0 < dt) (p : Phys)
    (h : EnergyStart c p.input1 p.snow) (hl : 0 < p.snow.layer_count) :
    (∃ p', energy_balance c dt p = .ok p') ↔ ∃ r, h_le c p = .ok r := by
  constructor
  · rintro ⟨p', hp⟩
    rcases energy_balance_ok hp with ⟨_, r, p1, _, _, _, h1, _⟩ | ⟨h0, _⟩
    · exact ⟨_, h1⟩
    · omega
  · rintro ⟨⟨r, p1⟩, h1⟩
    obtain ⟨sv, _, _, _, e1, e2, _⟩ := h_le_ok h1
    have h0 := (h.inv.lc_pos_iff hc.max_z).mp hl
    have hr := (inv_rho_pos h.inv h0 (h.mass hl)).1
    have hs1 : SoilOK c p1.input1 := by
      rw [e1]
      exact ⟨h.soil.z_g, h.soil.press, h.soil.warm, h.soil.vapour⟩
    obtain ⟨⟨G, G0⟩, hG⟩ := heat_transfer_prog hc.max_z (s := p.snow) hs1 h.depth (by rw [e1]; exact h.cool)
      h.inv hl (h.frozen hl) hr
    obtain ⟨M, hM⟩ := advec_prog (i := p1.input1) hdt.ne' p.snow
    unfold energy_balance
    rw [if_pos hl]
    dsimp only
    rw [h1, bind_ok]
    dsimp only
    rw [e2, hG, bind_ok]
    dsimp only
    rw [hM, bind_ok]
    exact ⟨_, rfl⟩

/-- C52: a run step completes – whatever the layers do – if its turbulent-transfer routine completes, the
pack is consistent, and the ice it holds exceeds what the fluxes of the step melt and sublimate. -/
theorem C52_step_completes (c : Env) (hc : c.OK) (hv : 0 < c.max_h2o_vol) (dt : ℝ) (hdt : 0 < dt)
    (dl : InputData) (p : Phys) (h : EnergyStart c (applied dl p.input1) p.snow) (hh : 0 ≤ p.snow.h2o)
    (hccl : p.snow.cc_s_l ≤ 0)
    (hf : (applied dl p.input1).precip_now = true → StepForcing (applied dl p.input1))
    (hturb : 0 < p.snow.layer_count → ∃ r, h_le c (stepStart dl p) = .ok r)
    (hb : 0 < p.snow.layer_count → ∀ p1, energy_balance c dt (stepStart dl p) = .ok p1 →
      ∀ T ∈ soilTemps p.snow, ∀ v, soilExchange c p1.input1 dt T = .ok v →
        meltCap dt p1.snow + max 0 (-(p1.snow.E * dt)) + max 0 (-v) <
          p.snow.ice + (if p1.input1.precip_now then p1.input1.m_snow - wetWater c p1.input1 else 0)) :
    ∃ p', stepPhys c dt dl p = .ok p' := by
  have hst : EnergyStart c (stepStart dl p).input1 (stepStart dl p).snow := by
    refine ⟨start_inv hc.max_z h.inv, h.soil, h.depth, h.cool, h.mass, fun hl => ?_⟩
    have f := h.frozen hl
    exact ⟨f.surf, f.mean, f.lower⟩
  have he : ∃ p1, energy_balance c dt (stepStart dl p) = .ok p1 := by
    by_cases hl : 0 < p.snow.layer_count
    · exact (C52_energy_balance_completes c hc dt hdt _ hst hl).mpr (hturb hl)
    · unfold energy_balance
      rw [if_neg (show ¬ (stepStart dl p).snow.layer_count > 0 from hl)]
      exact ⟨_, rfl⟩
  obtain ⟨p1, h1⟩ := he
  have e := energy_balance_snow h1
  have ein : p1.input1 = { applied dl p.input1 with e_a := p1.input1.e_a } := by
    rcases energy_balance_ok h1 with ⟨_, r, p2, _, _, _, k1, _, _, k2⟩ | ⟨_, k⟩
    · obtain ⟨sv, _, _, _, e1, _⟩ := h_le_ok k1
      rw [k2]
      show p2.input1 = _
      rw [e1]; rfl
    · rw [k]; rfl
  have i0 : Inv c p1.snow := by
    rw [e]
    exact (start_inv hc.max_z h.inv).frame ⟨rfl, rfl, rfl⟩ ⟨rfl, rfl, rfl, rfl⟩
      (fun _ => ⟨rfl, rfl, rfl, rfl, rfl, rfl⟩) (fun _ => ⟨rfl, rfl⟩) (start_inv hc.max_z h.inv).flag
  have g : p1.snow.layer_count = p.snow.layer_count ∧ p1.snow.m_s = p.snow.m_s ∧ p1.snow.h2o = p.snow.h2o ∧
      p1.snow.t_s = p.snow.t_s ∧ p1.snow.t_s_0 = p.snow.t_s_0 ∧ p1.snow.t_s_l = p.snow.t_s_l ∧
      p1.snow.cc_s_l = p.snow.cc_s_l ∧ p1.snow.h2o_total = 0 ∧
      p1.snow.snowcover = decide (0 < p.snow.layer_count) := by
    rw [e]; exact ⟨rfl, rfl, rfl, rfl, rfl, rfl, rfl, rfl, rfl⟩
  obtain ⟨g1, g2, g3, g4, g5, g6, g7, g8, g9⟩ := g
  have hl : p1.snow.snowcover = true → 0 < p.snow.layer_count := fun hs => by
    rw [g9] at hs; exact of_decide_eq_true hs
  have hsoil : SoilOK c p1.input1 := by
    rw [ein]; exact ⟨h.soil.z_g, h.soil.press, h.soil.warm, h.soil.vapour⟩
  have hpre : p1.input1.precip_now = true → StepForcing p1.input1 := by
    rw [ein]
    intro hp
    have F := hf hp
    exact ⟨F.m_pp, F.snow, F.rain, F.z, F.depth, F.none, F.dens, F.sat⟩
  obtain ⟨s', hs'⟩ := C51_mass_balance_completes c hc hv p1.input1 dt hdt hsoil hpre p1.snow
    ⟨i0, by rw [g9, g1], g8, by rw [g3]; exact hh, fun hs => by rw [g2]; exact h.mass (hl hs),
      fun hs => by
        have f := h.frozen (hl hs)
        exact ⟨by rw [g5]; exact f.surf, by rw [g4]; exact f.mean, by rw [g6]; exact f.lower⟩,
      fun _ => by rw [g7]; exact hccl,
      fun hs T hT v hv' => by
        have : Snow.ice p1.snow = p.snow.ice := by unfold Snow.ice; rw [g2, g3]
        rw [this]
        refine hb (hl hs) p1 h1 T ?_ v hv'
        simpa only [soilTemps, g4, g5, g6] using hT⟩
  have e0 : (if p.input1.precip_now then { p with input1 := p.input1.update_precip_deltas dl } else p) =
      { p with input1 := applied dl p.input1 } := by
    unfold applied
    split <;> rfl
  refine ⟨{ p1 with snow := s' }, ?_⟩
  unfold stepPhys
  rw [e0]
  dsimp only
  unfold stepStart at h1
  rw [show Snow.layer_count { p.snow with h2o_total := 0 } = p.snow.layer_count from rfl, h1, bind_ok, hs', bind_ok]
  rfl

/-- The turbulent-transfer routine of a step completes in windy, stable and moist conditions: positive wind,
instruments above 5.9 roughness lengths over the snow, air (reduced to the surface) warmer than the snow
surface, and vapour pressure of the air (capped at saturation over ice) at least that of the surface. -/
theorem C52_turbulence_stable (c : Env) (p : Phys) (hz0 : 0 < c.z_0)
    (hzu : 5.9 * c.z_0 < if c.relative_hts then c.z_u else c.z_u - p.snow.z_s)
    (hzt : 5.9 * c.z_0 < if c.relative_hts then c.z_t else c.z_t - p.snow.z_s)
    (hw : 0 < p.input1.u) (hta : 0 < p.input1.t_a) (hts : 0 < p.snow.t_s_0)
    (hstable : p.snow.t_s_0 < p.input1.t_a +
      DALR * (if c.relative_hts then c.z_t else c.z_t - p.snow.z_s))
    (hmoist : ∀ sv es w, sati p.input1.t_a = .ok sv → sati p.snow.t_s_0 = .ok es →
      satw p.input1.t_a = .ok w → es ≤ min (min p.input1.e_a sv) w ∧
        min p.input1.e_a sv < c.P_a)
    (hguess : (p.init_ustar = none ∧ p.init_factor = none) ∨
      ∃ u f, p.init_ustar = some u ∧ p.init_factor = some f ∧ 0 ≤ u * f ∧ (u = 0 → f = 0)) :
    ∃ r, h_le c p = .ok r := by
  obtain ⟨sv, hsv⟩ := sati_ok_iff.mpr hta
  obtain ⟨es, hes⟩ := sati_ok_iff.mpr hts
  obtain ⟨w, hw'⟩ := satw_ok_iff.mpr hta
  obtain ⟨m1, m3⟩ := hmoist sv es w hsv hes hw'
  have hesp := sati_value_pos hes
  have hea : es ≤ min p.input1.e_a sv := m1.trans (min_le_left _ _)
  obtain ⟨a, ha⟩ : ∃ a : HleIn, a = { press := c.P_a, air_temp := p.input1.t_a, surface_temp := p.snow.t_s_0
                                      za := if c.relative_hts then c.z_t else c.z_t - p.snow.z_s
                                      ea := min p.input1.e_a sv, es := es
                                      zq := if c.relative_hts then c.z_t else c.z_t - p.snow.z_s
                                      wind_speed := p.input1.u
                                      zu := if c.relative_hts then c.z_u else c.z_u - p.snow.z_s
                                      z0 := c.z_0, init_ustar := p.init_ustar
                                      init_factor := p.init_factor } := ⟨_, rfl⟩
  have v : HleValid a := by
    rw [ha]
    exact ⟨hz0, by dsimp only; linarith, by dsimp only; linarith, by dsimp only; linarith, hta, hts,
      lt_of_lt_of_le hesp hea, hesp, m3, lt_of_le_of_lt hea m3, fun w' hw'' => by
        rw [hw'] at hw''; cases hw''; exact (sub_le_sub_right (min_le_right _ _) 25).trans (C35_ice_within_tolerance _ _ _ hsv hw')⟩
  obtain ⟨r, ea, k, hr, _⟩ := C34_stable_fluxes a v (by rw [ha]; exact hzu) (by rw [ha]; exact hzt)
    (by rw [ha]; exact hzt) (by rw [ha]; exact hw) (by rw [ha]; exact hguess) (by rw [ha]; exact hstable)
    (fun ea hea' => by
      obtain ⟨w', h1, h2⟩ := hleCheck_of v
      rw [h2] at hea'; cases hea'
      rw [ha] at h1 ⊢
      rw [hw'] at h1; cases h1
      exact m1)
  have hi : (if p.input1.e_a > sv then { p.input1 with e_a := sv } else p.input1) =
      { p.input1 with e_a := min p.input1.e_a sv } := by
    split
    · rename_i h; rw [min_eq_right h.le]
    · rename_i h; rw [min_eq_left (not_lt.mp h)]
  rw [ha] at hr
  unfold h_le InputData.sat_vp Snow.e_s_0
  rw [hsv, bind_ok]
  dsimp only
  rw [hi, hes, bind_ok]
  dsimp only
  rw [hr, bind_ok, if_neg (by rw [hle1_status hr]; simp)]
  exact ⟨_, rfl⟩

/-- C52: the first step of the storm run meets the hypotheses. -/
example : ∃ p : Phys, p.snow.layer_count = 1 ∧ p.snow.m_s = 100 ∧ p.input1 = stormRec.toInput ∧
    EnergyStart (calmEnv 0.01) (applied stormRec.toInput p.input1) p.snow ∧
    (∃ r, h_le (calmEnv 0.01) (stepStart stormRec.toInput p) = .ok r) ∧
    ∃ p', stepPhys (calmEnv 0.01) 3600 stormRec.toInput p = .ok p' := by
  obtain ⟨p, hp⟩ : ∃ p : Phys, p = ⟨{ stormPack with snowcover := false, en := Energy.zero }, stormRec.toInput, none, none⟩ :=
    ⟨_, rfl⟩
  have hlc : p.snow.layer_count = 1 := by rw [hp]; simp [Snow.layer_count, stormPack, Snow.zero]
  have hap : applied stormRec.toInput p.input1 = stormRec.toInput := by
    rw [hp]; unfold applied; split <;> rfl
  have hsoil : SoilOK (calmEnv 0.01) stormRec.toInput := calm_soil _ rfl
  have fr : p.snow.Frozen := by
    rw [hp]; exact ⟨⟨freeze_pos, le_refl _⟩, ⟨freeze_pos, le_refl _⟩, t_none_ok⟩
  have hinv : Inv (calmEnv 0.01) p.snow := by
    rw [hp]
    refine ⟨?_, ?_, ?_, ?_, ?_, ?_, ?_⟩
    · simp [stormPack, Snow.zero]
    · simp [stormPack, Snow.zero]
    · simp [stormPack, Snow.zero]
    · simp [stormPack, Snow.zero]
    · intro h; norm_num [stormPack, Snow.zero] at h
    · intro _; norm_num [stormPack, Snow.zero]
    · intro h; cases h
  have hE : EnergyStart (calmEnv 0.01) (applied stormRec.toInput p.input1) p.snow := by
    rw [hap]
    exact ⟨hinv, hsoil, by norm_num [calmEnv], boil_gt.le, fun _ => by rw [hp]; norm_num [stormPack],
      fun _ => fr⟩
  have hrip : RipeSnow (stepStart stormRec.toInput p).snow := by
    rw [hp]
    constructor <;> norm_num [stepStart, stormPack, Snow.zero]
  have hin : (stepStart stormRec.toInput p).input1 = stormRec.toInput := hap
  have hcalm := energy_calm (vol := 0.01) (dt := 3600) (p := stepStart stormRec.toInput p) hrip
    (by rw [hin]; exact calmRec_calm _ _ _ _) (.inl (by rw [hp]; exact ⟨rfl, rfl⟩))
    (by rw [hin]; exact calm_advec (by norm_num) (by norm_num) (by norm_num) hrip.t0)
  have hl' : 0 < (stepStart stormRec.toInput p).snow.layer_count := by rw [hrip.lc]; norm_num
  have hturb : ∃ r, h_le (calmEnv 0.01) (stepStart stormRec.toInput p) = .ok r := by
    rcases energy_balance_ok hcalm with ⟨_, r, p1, _, _, _, h1, _⟩ | ⟨h0, _⟩
    · exact ⟨_, h1⟩
    · omega
  refine ⟨p, hlc, by rw [hp]; rfl, by rw [hp], hE, hturb, ?_⟩
  refine C52_step_completes (calmEnv 0.01) calmEnv_ok (by norm_num [calmEnv]) 3600 (by norm_num) _ p hE
    (by rw [hp]; exact le_refl _) (by rw [hp]; exact le_refl _) (fun _ => ?_) (fun _ => hturb) (fun _ p1 h1 T hT v hv => ?_)
  · rw [hap]
    exact toInput_forcing (storm_rows 0 stormRec (by simp)).1 (by norm_num [stormRec, calmRec])
      (fun _ _ => by norm_num [stormRec, calmRec])
  · rw [hcalm] at h1
    cases h1
    rw [hin] at hv ⊢
    have hT' : 0 < T ∧ T ≤ FREEZE := by
      simp only [soilTemps, List.mem_cons, List.not_mem_nil, or_false] at hT
      rcases hT with e | e | e | e <;> rw [e]
      · exact fr.surf
      · exact fr.mean
      · exact fr.lower
      · exact t_none_ok
    have hn := soilExchange_nonneg hsoil (by norm_num [calmEnv]) (by norm_num) hT'.1 hT'.2
      (show T ≤ FREEZE from hT'.2) boil_gt.le hv
    rw [max_eq_left (by linarith : -v ≤ 0)]
    have hnow : stormRec.toInput.precip_now = true := calm_now (by norm_num)
    rw [if_pos hnow]
    have hw : wetWater (calmEnv 0.01) stormRec.toInput ≤ 5 := by
      unfold wetWater
      have g4 : stormRec.toInput.z_snow = 1 / 60 :=
        (if_pos (c := 0 < (10:ℝ) ∧ 0 < (10:ℝ) * (1 / 2)) (by norm_num)).trans (by norm_num [stormRec, calmRec])
      have g6 : stormRec.toInput.h2o_sat_snow = 1 :=
        if_pos (c := 0 < (10:ℝ) ∧ 0 < (10:ℝ) * (1 / 2) ∧ (0 < (10:ℝ) - 10 * (1 / 2) ∨ FREEZE ≤ FREEZE))
          (by norm_num)
      rw [g4, g6, show stormRec.toInput.rho_snow = 300 from rfl]
      norm_num [h2o_left, calmEnv, RHO_W0, RHO_ICE]
    have hm : stormRec.toInput.m_snow = 5 := by show (10:ℝ) * (1 / 2) = 5; norm_num
    have hnet := (calmRec_net 278 10 (1 / 2) 300 (s := (stepStart stormRec.toInput p).snow) hrip.t0 stormRec.toInput).1
    have hi : p.snow.ice = 100 := by rw [hp]; norm_num [Snow.ice, stormPack, Snow.zero]
    have hcc : (stepStart stormRec.toInput p).snow.cc_s_0 = 0 := hrip.cc0
    have hcap : meltCap 3600 { (stepStart stormRec.toInput p).snow with
          E := 0
          en := ⟨net_radiation stormRec.toInput (stepStart stormRec.toInput p).snow, 0, 0, 0, 0, 0,
            net_radiation stormRec.toInput (stepStart stormRec.toInput p).snow,
            net_radiation stormRec.toInput (stepStart stormRec.toInput p).snow⟩ } = 3 := by
      unfold meltCap
      rw [lf_eq]
      dsimp only
      rw [hcc, show net_radiation stormRec.toInput (stepStart stormRec.toInput p).snow = 278 from hnet]
      norm_num
    rw [hm, hi, hcap]
    norm_num
    linarith

end

end Pysnobal
