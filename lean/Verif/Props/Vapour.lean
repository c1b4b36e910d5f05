import Verif.Props.Progress
import Verif.Props.Stability
import Verif.Props.Turbulence
import Verif.Props.StepLedger

/-! # C56: the vapour budget of a run step; C37: conduction in a run step -/

namespace Pysnobal

noncomputable section

/-! ## C56 -/

/-- The temperatures of the layers of a pack and its mean temperature. -/
def packTemps (s : Snow) : List ℝ :=
  if s.layer_count = 2 then [s.t_s_0, s.t_s, s.t_s_l] else [s.t_s_0, s.t_s]

/-- Vapour moves from the warmer to the colder side of the ground surface. -/
theorem soilExchange_sign {c : Env} {i : InputData} (h : SoilOK c i) (hz : 0 < c.z_g) {dt T v : ℝ}
    (hdt : 0 < dt) (h1 : T ≤ FREEZE) (hb : i.t_g ≤ BOIL) (hv : soilExchange c i dt T = .ok v) :
    (T < i.t_g → 0 < v) ∧ (i.t_g < T → v < 0) ∧ (T = i.t_g → v = 0) := by
  have hP : 0 < c.P_a := by linarith [h.press]
  unfold soilExchange InputData.e_g at hv
  obtain ⟨e, he, hv⟩ := bind_eq_ok.mp hv
  obtain ⟨q, hq, hv⟩ := bind_eq_ok.mp hv
  obtain ⟨eg, heg, hv⟩ := bind_eq_ok.mp hv
  obtain ⟨qg, hqg, hv⟩ := bind_eq_ok.mp hv
  obtain ⟨ra, hra, hv⟩ := bind_eq_ok.mp hv
  obtain ⟨k, hk, hv⟩ := bind_eq_ok.mp hv
  obtain ⟨E, hE, hv⟩ := bind_eq_ok.mp hv
  simp only [pure_ok, Except.ok.injEq] at hv
  have h0 := sati_pos he
  have hra0 : 0 < ra := by
    unfold gas_density at hra
    rw [pdiv_eq_ok] at hra
    rw [hra.2]
    have := rgas_pos; have := molair_pos; have := h.warm
    positivity
  have hk0 : 0 < k := by
    unfold diffusion_coef at hk
    rw [pdiv_of_ne hP.ne', bind_ok] at hk
    simp only [pure_ok, Except.ok.injEq] at hk
    rw [← hk]
    have : (0 : ℝ) < SEA_LEVEL := by norm_num [SEA_LEVEL]
    have := freeze_pos; have := h.warm
    positivity
  unfold vapor_flux at hE
  rw [pdiv_of_ne hz.ne', bind_ok] at hE
  simp only [pure_ok, Except.ok.injEq] at hE
  rw [← hv, ← hE]
  refine ⟨fun hT => ?_, fun hT => ?_, fun hT => ?_⟩
  · have hee := C35_sati_increasing T i.t_g e eg hT hb he heg
    have := spec_hum_lt (sati_value_pos he) hee (h.vapour eg heg) hq hqg
    have : 0 < (qg - q) / c.z_g := div_pos (by linarith) hz
    positivity
  · have hee := C35_sati_increasing i.t_g T eg e hT (h1.trans boil_gt.le) heg he
    have := spec_hum_lt (sati_value_pos heg) hee (lt_of_le_of_lt (sati_le_freeze h1 he) h.press) hqg hq
    have h2 : (qg - q) / c.z_g < 0 := div_neg_of_neg_of_pos (by linarith) hz
    have h3 : ra * k * ((qg - q) / c.z_g) < 0 := mul_neg_of_pos_of_neg (by positivity) h2
    exact mul_neg_of_neg_of_pos (by linarith) hdt
  · rw [hT, heg] at he; cases he
    rw [hqg] at hq; cases hq
    simp

variable {c : Env} {dt : ℝ} {dl : InputData} {p p' : Phys} {s0 s1 s2 s3 s4 s5 s6 : Snow}

/-- The layer next to the soil during the vapour exchange has one of the temperatures of the pack at the
start of the step. -/
theorem StepChain.base_temp (hmax : 0 < c.max_z_s_0) (k : StepChain c dt dl p p' s0 s1 s2 s3 s4 s5 s6)
    (hs : s3.snowcover = true) :
    (if s3.layer_count = 2 then s3.t_s_l else s3.t_s_0) ∈ packTemps p.snow := by
  obtain ⟨f2, t, r, hm, st3⟩ := k.flag3 hmax hs
  obtain ⟨f1, rn⟩ := k.flag2 hmax f2
  obtain ⟨f0, st1⟩ := k.flag1 hmax f1
  obtain ⟨u, ru, ru'⟩ := rn.stay
  have e0 : s0.layer_count = p.snow.layer_count ∧ s0.t_s = p.snow.t_s ∧ s0.t_s_l = p.snow.t_s_l ∧
      s0.t_s_0 = p.snow.t_s_0 := by rw [k.start]; exact ⟨rfl, rfl, rfl, rfl⟩
  have eu : s2.layer_count = u.layer_count ∧ s2.t_s = u.t_s ∧ s2.t_s_l = u.t_s_l ∧ s2.t_s_0 = u.t_s_0 := by
    rw [ru']; exact ⟨rfl, rfl, rfl, rfl⟩
  have et : t.layer_count = s2.layer_count ∧ t.t_s = s2.t_s ∧ t.t_s_l = s2.t_s_l ∧ t.t_s_0 = s2.t_s_0 := by
    rw [hm.frame]; exact ⟨rfl, rfl, rfl, rfl⟩
  have p0 : 0 < s0.layer_count := (k.i0.lc_pos_iff hmax).mpr (k.i0.flag f0)
  have p1 : 0 < s1.layer_count := (k.i1.lc_pos_iff hmax).mpr (k.i1.flag f1)
  have p2 : 0 < s2.layer_count := (k.i2.lc_pos_iff hmax).mpr (k.i2.flag f2)
  have hmean : p.snow.t_s ∈ packTemps p.snow := by unfold packTemps; split <;> simp
  split
  · rename_i h2
    -- the mean temperature never changes before this point
    have m1 : s1.t_s = p.snow.t_s := by rw [st1.t_s, e0.2.1]
    have m2 : s2.t_s = p.snow.t_s := by rw [eu.2.1, ru.t_s, m1]
    rcases st3.base (by rw [et.1]; exact p2) h2 with ⟨a, b⟩ | ⟨_, b⟩
    · rw [b, et.2.2.1]
      rcases ru.base p1 (by rw [← eu.1, ← et.1]; exact a) with ⟨a', b'⟩ | ⟨_, b'⟩
      · rw [eu.2.2.1, b']
        rcases st1.base p0 a' with ⟨a'', b''⟩ | ⟨_, b''⟩
        · rw [b'', e0.2.2.1]
          unfold packTemps
          rw [if_pos (by rw [← e0.1]; exact a'')]
          simp
        · rw [b'', e0.2.1]; exact hmean
      · rw [eu.2.2.1, b', m1]; exact hmean
    · rw [b, et.2.1, m2]; exact hmean
  · have : s3.t_s_0 = p.snow.t_s_0 := by
      rw [st3.t_s_0, et.2.2.2, eu.2.2.2, ru.t_s_0, st1.t_s_0, e0.2.2.2]
    rw [this]
    unfold packTemps; split <;> simp

/-- C56, run step: in every run step through which the snow cover lasts, the latent heat flux is the latent
heat of sublimation times the vapour flux `E` at the surface, and the reported exchange `E_s` is `E` over
the step plus an exchange with the soil that brings vapour into the pack if the soil is warmer than the
pack, removes it if the soil is colder, and vanishes if the temperatures are equal. -/
theorem C56_vapour_budget_step (g : Config) (hg : g.Tiled) (hmax : 0 < g.max_active) (rows : List Rec)
    (ls : List (List (RStep Phys))) (m : Model) (h : RunTrace g rows ls m) (c : Env) (ts : Tsteps)
    (hc : mkEnv g = .ok c) (hts : parse_time_steps g = .ok ts) :
    ∀ l ∈ ls, ∀ x ∈ l, x.post.snow.snowcover = true →
      (x.pre.snow.t_s_0 ≤ FREEZE → x.post.snow.en.L_v_E = lh_sub x.pre.snow.t_s_0 * x.post.snow.E) ∧
      (SoilOK c x.post.input1 → 0 < c.z_g → x.post.input1.t_g ≤ BOIL →
        (∀ T ∈ packTemps x.pre.snow, T ≤ FREEZE) →
        ((∀ T ∈ packTemps x.pre.snow, T < x.post.input1.t_g) →
          x.post.snow.E * (ts x.lv).time_step < x.post.snow.E_s) ∧
        ((∀ T ∈ packTemps x.pre.snow, x.post.input1.t_g < T) →
          x.post.snow.E_s < x.post.snow.E * (ts x.lv).time_step) ∧
        ((∀ T ∈ packTemps x.pre.snow, T = x.post.input1.t_g) →
          x.post.snow.E_s = x.post.snow.E * (ts x.lv).time_step)) := by
  obtain ⟨c', ts', hc', hts', hm, hx⟩ := trace_step hmax h
  rw [hc] at hc'; cases hc'
  rw [hts] at hts'; cases hts'
  intro l hl x hxl hs
  obtain ⟨d, h1, h2, h3⟩ := hx l hl x hxl
  obtain ⟨s0, s1, s2, s3, s4, s5, s6, k⟩ := step_chain hm h1 h3
  obtain ⟨f6, f5, f4, f3, f2, f1, f0, hlc⟩ := k.persist hm hs
  obtain ⟨x1, x2, x3⟩ := k.fluxE hm f5
  obtain ⟨_, _, el, w, hel, hw, hE, st4, _⟩ := k.flag4 hm f4
  constructor
  · intro ht
    rcases stepPhys_energy h3 with ⟨_, r, p1, G, G0, M, k1, _, _, k4, k5⟩ | ⟨h0, _⟩
    · obtain ⟨_, _, _, _, _, _, _, _, _, hr⟩ := h_le_ok k1
      rw [k5, k4]
      exact (C34_latent_heat _ _ hr).1 ht
    · omega
  · intro hso hz hb hf
    have hT := k.base_temp hm f3
    rw [soilEvap_eq] at hel
    have hlc3 : Snow.layer_count { s3 with h2o_total := evapH2o s3.h2o_total (s3.E * (ts x.lv).time_step) } =
      s3.layer_count := rfl
    rw [hlc3] at hel
    dsimp only at hel
    obtain ⟨a1, a2, a3⟩ := soilExchange_sign hso hz ((parse_tile hg hts).step_pos x.lv) (hf _ hT) hb hel
    rw [x1, x2, hE]
    refine ⟨fun q => ?_, fun q => ?_, fun q => ?_⟩
    · linarith [a1 (q _ hT)]
    · linarith [a2 (q _ hT)]
    · linarith [a3 (q _ hT)]

/-! ## C37 -/

theorem kts_pos {s : Snow} (hr : 0 < s.rho) : 0 < s.kts := by
  unfold Snow.kts
  have : (0:ℝ) < CAL_TO_J := by norm_num [CAL_TO_J]
  positivity

theorem g_soil_sign {i : InputData} (h : SoilOK c i) (hz : 0 < c.z_g) (hb : i.t_g ≤ BOIL)
    {s : Snow} (hr : 0 < s.rho) {b : Bool} (hd : 0 < if b then s.z_s_0 else s.z_s_l)
    (hT : (if b then s.t_s_0 else s.t_s_l) ≤ FREEZE) {g : ℝ} (hg : g_soil c i b s = .ok g) :
    (0 < g ↔ (if b then s.t_s_0 else s.t_s_l) < i.t_g) ∧
      (g < 0 ↔ i.t_g < (if b then s.t_s_0 else s.t_s_l)) := by
  obtain ⟨T, d, hT', hd', key⟩ : ∃ T d, T = (if b then s.t_s_0 else s.t_s_l) ∧ 0 < d ∧ g_soil c i b s = (do
      let es ← sati T
      let e_g ← i.e_g
      let k_g ← efcon KT_MOISTSAND i.t_g c.P_a (some e_g)
      let k_s ← efcon s.kts T c.P_a (some es)
      ssxfr k_s k_g T i.t_g d c.z_g) := by
    cases b
    · simp only [Bool.false_eq_true, if_false] at hT
      refine ⟨s.t_s_l, s.z_s_l, by simp, hd, ?_⟩
      unfold g_soil Snow.e_s_l
      simp only [Bool.false_eq_true, if_false, gt_iff_lt, not_lt.mpr hT]
    · simp only [if_true] at hT
      refine ⟨s.t_s_0, s.z_s_0, by simp, hd, ?_⟩
      unfold g_soil Snow.e_s_0
      simp only [if_true, gt_iff_lt, not_lt.mpr hT, if_false]
  rw [← hT'] at hT ⊢
  rw [key] at hg
  unfold InputData.e_g at hg
  obtain ⟨es, hes, hg⟩ := bind_eq_ok.mp hg
  obtain ⟨eg, heg, hg⟩ := bind_eq_ok.mp hg
  obtain ⟨kg, hkg, hg⟩ := bind_eq_ok.mp hg
  obtain ⟨ks, hks, hg⟩ := bind_eq_ok.mp hg
  obtain ⟨kg', hkg1, hkg2⟩ := efcon_prog (k := KT_MOISTSAND) (by norm_num [KT_MOISTSAND]) h.warm hb
    (sati_value_pos heg) (h.vapour eg heg)
  obtain ⟨ks', hks1, hks2⟩ := efcon_prog (kts_pos hr) (sati_pos hes) (hT.trans boil_gt.le) (sati_value_pos hes)
    (lt_of_le_of_lt (sati_le_freeze hT hes) h.press)
  rw [hkg] at hkg1; cases hkg1
  rw [hks] at hks1; cases hks1
  obtain ⟨q, hq, q1, q2, _⟩ := C37_conduction ks kg T i.t_g d c.z_g hks2 hkg2 hd' hz
  rw [hg] at hq; cases hq
  exact ⟨q1, q2⟩

theorem g_snow_sign (hP : 610.71 < c.P_a) {s : Snow} (hr : 0 < s.rho) (h0 : 0 < s.z_s_0) (hl : 0 < s.z_s_l)
    (hT0 : s.t_s_0 ≤ FREEZE) (hTl : s.t_s_l ≤ FREEZE) {g : ℝ} (hg : g_snow c s = .ok g) :
    (0 < g ↔ s.t_s_0 < s.t_s_l) ∧ (g < 0 ↔ s.t_s_l < s.t_s_0) := by
  unfold g_snow at hg
  split at hg
  · rename_i h
    simp only [Except.ok.injEq] at hg
    rw [← hg, h]
    simp
  · unfold Snow.e_s_0 Snow.e_s_l at hg
    obtain ⟨e0, he0, hg⟩ := bind_eq_ok.mp hg
    obtain ⟨k0, hk0, hg⟩ := bind_eq_ok.mp hg
    obtain ⟨el, hel, hg⟩ := bind_eq_ok.mp hg
    obtain ⟨kl, hkl, hg⟩ := bind_eq_ok.mp hg
    obtain ⟨k0', a1, a2⟩ := efcon_prog (kts_pos hr) (sati_pos he0) (hT0.trans boil_gt.le) (sati_value_pos he0)
      (lt_of_le_of_lt (sati_le_freeze hT0 he0) hP)
    obtain ⟨kl', b1, b2⟩ := efcon_prog (kts_pos hr) (sati_pos hel) (hTl.trans boil_gt.le) (sati_value_pos hel)
      (lt_of_le_of_lt (sati_le_freeze hTl hel) hP)
    rw [hk0] at a1; cases a1
    rw [hkl] at b1; cases b1
    obtain ⟨q, hq, q1, q2, _⟩ := C37_conduction k0 kl s.t_s_0 s.t_s_l s.z_s_0 s.z_s_l a2 b2 h0 hl
    rw [hg] at hq; cases hq
    exact ⟨q1, q2⟩

/-- C37, run step: the conducted heat of every run step that starts with a pack of positive mass flows
from warm to cold: between the soil and the layer on the ground (the surface layer of a one-layer pack,
the lower layer of a two-layer pack), and between the two layers. -/
theorem C37_heat_flow_step (g : Config) (hmax : 0 < g.max_active) (rows : List Rec)
    (ls : List (List (RStep Phys))) (m : Model) (h : RunTrace g rows ls m) (c : Env) (hc : mkEnv g = .ok c) :
    ∀ l ∈ ls, ∀ x ∈ l, 0 < x.pre.snow.m_s → SoilOK c x.post.input1 → 0 < c.z_g → x.post.input1.t_g ≤ BOIL →
      (x.pre.snow.layer_count = 1 → x.pre.snow.t_s_0 ≤ FREEZE →
        (0 < x.post.snow.en.G ↔ x.pre.snow.t_s_0 < x.post.input1.t_g) ∧
        (x.post.snow.en.G < 0 ↔ x.post.input1.t_g < x.pre.snow.t_s_0)) ∧
      (x.pre.snow.layer_count = 2 → x.pre.snow.t_s_0 ≤ FREEZE → x.pre.snow.t_s_l ≤ FREEZE →
        ((0 < x.post.snow.en.G ↔ x.pre.snow.t_s_l < x.post.input1.t_g) ∧
         (x.post.snow.en.G < 0 ↔ x.post.input1.t_g < x.pre.snow.t_s_l)) ∧
        ((0 < x.post.snow.en.G_0 ↔ x.pre.snow.t_s_0 < x.pre.snow.t_s_l) ∧
         (x.post.snow.en.G_0 < 0 ↔ x.pre.snow.t_s_l < x.pre.snow.t_s_0))) := by
  obtain ⟨c', ts, hc', hts, hm, hx⟩ := trace_step hmax h
  rw [hc] at hc'; cases hc'
  intro l hl x hxl hms hso hz hb
  obtain ⟨d, hi, _, h3⟩ := hx l hl x hxl
  rcases stepPhys_energy h3 with ⟨hlp, r, p1, G, G0, M, k1, k2, _, k4, k5⟩ | ⟨h0, _⟩
  · have h0 := (hi.lc_pos_iff hm).mp hlp
    have hzp := hi.z_pos h0
    have hr : 0 < x.pre.snow.rho := by rw [hi.dens h0]; exact div_pos hms hzp
    have eG : x.post.snow.en.G = G ∧ x.post.snow.en.G_0 = G0 := by rw [k5]; exact ⟨rfl, rfl⟩
    rw [eG.1, eG.2]
    unfold heat_transfer at k2
    constructor
    · intro h1 ht
      rw [if_pos h1] at k2
      obtain ⟨y, hy, k2⟩ := bind_eq_ok.mp k2
      simp only [pure_ok, Except.ok.injEq, Prod.mk.injEq] at k2
      rw [← k2.1]
      exact g_soil_sign hso hz hb hr (b := true) h0 ht hy
    · intro h2 ht ht'
      rw [if_neg (by omega)] at k2
      obtain ⟨y, hy, k2⟩ := bind_eq_ok.mp k2
      obtain ⟨y', hy', k2⟩ := bind_eq_ok.mp k2
      simp only [pure_ok, Except.ok.injEq, Prod.mk.injEq] at k2
      have hzl := (lc_eq_two.mp h2).2
      rw [← k2.1, ← k2.2]
      exact ⟨g_soil_sign hso hz hb hr (b := false) hzl ht' hy, g_snow_sign hso.press hr h0 hzl ht ht' hy'⟩
  · have := (hi.lc_zero_iff hm).mp h0
    rw [(hi.bare this).1] at hms
    exact absurd hms (lt_irrefl _)

end

end Pysnobal
