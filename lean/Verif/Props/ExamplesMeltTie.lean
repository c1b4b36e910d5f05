import Verif.Props.ExamplesMelt
import Verif.Props.ExamplesTies

/-! # C83: a thaw that uses up its snow exactly

75 kg/m² of ripe snow that holds all the water it can, under a sky whose radiation melts just so much of it in an hour that the
code drains exactly the mass of the pack. -/

namespace Pysnobal

noncomputable section

open Classical

def brimCfg : Config := calmCfg 60 0.01 0.25 300 1

/-- Density of the ice of the pack. -/
def brimDry : ℝ := (300 - 1 * 0.01 * RHO_W0) / (1 - 1 * 0.01 * RHO_W0 / RHO_ICE)

/-- Water in the pack when the run starts. -/
def brimWater : ℝ := 1 * h2o_left 0.25 brimDry 0.01

/-- Water retained by the pack in the end. -/
def brimCap : ℝ := 1.2498375 * 917 / 907.0013

/-- Melt of the hour. -/
def brimMelt : ℝ := 75 + brimCap - brimWater

theorem brim_bounds : 1.69 < brimWater ∧ brimWater < 1.71 ∧ 1.26 < brimCap ∧ brimCap < 1.27 := by
  refine ⟨?_, ?_, ?_, ?_⟩ <;> norm_num [brimWater, brimCap, brimDry, h2o_left, RHO_W0, RHO_ICE]

/-- The weather of the hour: `mildRec` with a sky that radiates more. -/
def brimRec (q : ℝ) : Rec := { mildRec with I_lw := STEF_BOLTZ * FREEZE ^ 4 + q }

def brimPack : Snow :=
  { Snow.zero with
    z_s := 0.25, rho := 300, t_s_0 := FREEZE, t_s := FREEZE, h2o_sat := 1, t_s_l := MIN_SNOW_TEMP + FREEZE, m_s := 300 * 0.25
    z_s_0 := 0.25, m_s_0 := 300 * 0.25, h2o_vol := 1 * 0.01, h2o_max := h2o_left 0.25 brimDry 0.01, h2o := brimWater }

theorem brim_init : init_snow (calmEnv 0.01) (recordSnow brimCfg) = .ok brimPack :=
  init_calm (thr := 60) (vol := 0.01) (z := 0.25) (rho := 300) (sat := 1) (d := brimDry)
    (by norm_num) (by norm_num) (by norm_num) (by norm_num [RHO_W0, RHO_ICE]) rfl

theorem brim_ripe : RipeSnow brimPack := by
  refine ⟨?_, rfl, rfl, ?_, ?_, rfl, rfl, rfl, rfl, rfl, rfl, rfl⟩ <;> norm_num [brimPack]

theorem brim_inv : Inv (calmEnv 0.01) brimPack := by
  refine ⟨?_, ?_, ?_, ?_, ?_, ?_, ?_⟩
  · simp [brimPack, Snow.zero]
  · simp [brimPack, Snow.zero]
  · intro h; simp [brimPack, Snow.zero] at h
  · intro _; exact ⟨rfl, rfl, rfl⟩
  · intro h; norm_num [brimPack] at h
  · intro _; norm_num [brimPack, Snow.zero]
  · intro _; norm_num [brimPack]

theorem brim_now (q : ℝ) : (brimRec q).toInput.precip_now = false :=
  decide_eq_false (p := 0 < (brimRec q).m_pp) (by norm_num [brimRec, mildRec])

/-- The mass balance of that hour divides by zero. -/
theorem brim_mass {q : ℝ} {s : Snow} (hs : RipeSnow s) (hr : s.rho = 300) (hz : s.z_s_0 = 0.25) (hw : s.h2o = brimWater)
    (ht : s.h2o_total = 0) (hf : s.snowcover = true) (hE : s.E = 0) (hQ : s.en.delta_Q_0 * 3600 = 333600 * brimMelt) :
    mass_balance (calmEnv 0.01) (brimRec q).toInput 3600 s = .error .zeroDivision := by
  obtain ⟨b1, b2, b3, b4⟩ := brim_bounds
  have hm : s.m_s = 75 := by rw [hs.m, hr, hz]; norm_num
  obtain ⟨t, k1, f1, f2, f3, f4, f5, f6, f7, f8⟩ : ∃ t, time_compact (calmEnv 0.01) 3600 s = .ok t ∧ RipeSnow t ∧ 300 ≤ t.rho ∧
      t.m_s = 75 ∧ t.h2o = brimWater ∧ t.h2o_total = 0 ∧ t.snowcover = true ∧ t.E = 0 ∧ t.en = s.en := by
    obtain ⟨rate, hrate, hpos, _⟩ := compactRate_pos (dt := 3600) (by norm_num) s
    obtain ⟨t, htc⟩ := time_compact_prog (c := calmEnv 0.01) (dt := 3600) (by norm_num) (s := s)
      (fun _ => ⟨hs.rho, by rw [hm]; norm_num⟩)
    rcases time_compact_ok htc with ⟨h1, _⟩ | ⟨_, _, rate', d1, d2, a1, _, a3, a4, _, a6⟩
    · exfalso
      rcases h1 with h1 | h1
      · rw [hf] at h1; cases h1
      · rw [hr] at h1; norm_num at h1
    rw [hrate] at a1
    cases a1
    have hd1 : 0 ≤ d1 := by
      rw [a3, hr, if_neg (by norm_num)]; positivity
    have hd2 : 0 ≤ d2 := by
      rw [a4, hm, hr]; positivity
    rw [hr, hm] at a6
    obtain ⟨ρ, eρ⟩ : ∃ ρ, ρ = 300 + (d1 + d2) * 300 := ⟨_, rfl⟩
    rw [← eρ] at a6
    have hρ : 300 ≤ ρ := by rw [eρ]; nlinarith
    have hzz : 0 < 75 / ρ ∧ 75 / ρ ≤ 0.25 := by
      refine ⟨by positivity, ?_⟩
      rw [div_le_iff₀ (by linarith)]; linarith
    have e1 : ({ s with rho := ρ, z_s := 75 / ρ, m_s := 75 } : Snow).layer_count = 1 := hs.lc
    rw [adj_layers_one e1 (show (1:ℝ) < 75 by norm_num) hzz.1 hzz.2] at a6
    refine ⟨t, htc, ?_⟩
    rw [a6]
    have e75 : (75:ℝ) = ρ * (75 / ρ) := by field_simp
    exact ⟨⟨hzz.1, rfl, rfl, hzz.2, (by linarith : 0 < ρ), hs.t0, hs.t, hs.cc0, hs.ccl, e75, rfl, rfl⟩, hρ, rfl, hw, ht, hf, hE, rfl⟩
  have k2 : precip_event (calmEnv 0.01) (brimRec q).toInput t = .ok { t with h2o_total := t.h2o_total + t.h2o } := by
    unfold precip_event; rw [brim_now]; rfl
  obtain ⟨u, eu⟩ : ∃ u, u = { t with h2o_total := t.h2o_total + t.h2o } := ⟨_, rfl⟩
  rw [← eu] at k2
  have ru : RipeSnow u := by
    rw [eu]; exact ⟨f1.z0, f1.zl, f1.z, f1.z_le, f1.rho, f1.t0, f1.t, f1.cc0, f1.ccl, f1.m, f1.m0, f1.ml⟩
  have u1 : u.m_s = 75 := by rw [eu]; exact f3
  have u2 : u.h2o_total = brimWater := by rw [eu]; show t.h2o_total + t.h2o = _; rw [f4, f5, zero_add]
  have u3 : 300 ≤ u.rho := by rw [eu]; exact f2
  have u4 : u.snowcover = true := by rw [eu]; exact f6
  have u5 : u.E = 0 := by rw [eu]; exact f7
  have u6 : u.en.delta_Q_0 * 3600 = 333600 * brimMelt := by rw [eu]; show t.en.delta_Q_0 * 3600 = _; rw [f8]; exact hQ
  have bm : brimMelt = 75 + brimCap - brimWater := rfl
  have k3 := snowmelt_ripe (vol := 0.01) (dt := 3600) ru u4 (by rw [u2]; linarith) u6 (by rw [bm]; linarith)
    (by rw [u1, bm]; linarith) (by rw [u1]; norm_num) (by rw [u1]; norm_num) (by rw [u1, bm]; linarith)
  obtain ⟨v, ev⟩ : ∃ v : Snow, v = { u with melt := brimMelt, h2o_total := u.h2o_total + brimMelt, rho := 600, z_s := u.m_s / 600, z_s_0 := u.m_s / 600, m_s_0 := u.m_s } := ⟨_, rfl⟩
  rw [← ev] at k3
  have rv : RipeSnow v := by
    rw [ev]
    refine ⟨?_, ru.zl, rfl, ?_, ?_, ru.t0, ru.t, ru.cc0, ru.ccl, ?_, ?_, ru.ml⟩
    · show 0 < u.m_s / 600
      rw [u1]; norm_num
    · show u.m_s / 600 ≤ 0.25
      rw [u1]; norm_num
    · show (0:ℝ) < 600
      norm_num
    · show u.m_s = 600 * (u.m_s / 600)
      ring
    · show u.m_s = 600 * (u.m_s / 600)
      ring
  have v1 : v.m_s = 75 := by rw [ev]; exact u1
  have v2 : v.h2o_total = 75 + brimCap := by
    rw [ev]; show u.h2o_total + brimMelt = _; rw [u2, bm]; ring
  have v3 : v.rho = 600 := by rw [ev]
  have v4 : v.snowcover = true := by rw [ev]; exact u4
  have v5 : v.E = 0 := by rw [ev]; exact u5
  have v6 : v.z_s_0 = 0.125 := by rw [ev]; show u.m_s / 600 = _; rw [u1]; norm_num
  have k4 := evap_ripe (vol := 0.01) (dt := 3600) (i := (brimRec q).toInput) rv v4 rfl v5 v3.le (by rw [v2]; linarith)
  obtain ⟨w, ew⟩ : ∃ w, w = { v with E_s := 0 } := ⟨_, rfl⟩
  rw [← ew] at k4
  have rw' : RipeSnow w := by
    rw [ew]; exact ⟨rv.z0, rv.zl, rv.z, rv.z_le, rv.rho, rv.t0, rv.t, rv.cc0, rv.ccl, rv.m, rv.m0, rv.ml⟩
  have w1 : w.m_s = 75 := by rw [ew]; exact v1
  have w2 : w.h2o_total = 75 + brimCap := by rw [ew]; exact v2
  have w3 : w.rho = 600 := by rw [ew]; exact v3
  have w4 : w.snowcover = true := by rw [ew]; exact v4
  have w6 : w.z_s_0 = 0.125 := by rw [ew]; exact v6
  have k5 : h2o_compact (calmEnv 0.01) (brimRec q).toInput w = .ok w := by
    unfold h2o_compact
    rw [if_pos (.inr (by rw [w3]; norm_num))]
  have k6 := runoff_ripe (vol := 0.01) (cap := brimCap) rw' w4 (by
    rw [w1, w2, w6]; unfold h2o_left brimCap RHO_W0 RHO_ICE; norm_num) (by rw [w2]; linarith) w3.le
  unfold mass_balance
  rw [k1, bind_ok, k2, bind_ok, k3, bind_ok, k4, bind_ok, k5, bind_ok, k6, bind_ok]
  rw [if_pos (show _ = true from w4)]
  refine adjust_zero rw'.lc ?_
  show w.m_s - (w.h2o_total - brimCap) = 0
  rw [w1, w2]; ring

/-- There is a sky under which the run step of that hour divides by zero. -/
theorem brim_step : ∃ q, 0 ≤ q ∧ ∀ dl, stepPhys (calmEnv 0.01) 3600 dl ⟨brimPack, (brimRec q).toInput, none, none⟩ =
    .error .zeroDivision := by
  obtain ⟨b1, b2, b3, b4⟩ := brim_bounds
  have rp := brim_ripe
  have hle : ∀ (q : ℝ) (s : Snow), RipeSnow s → ∃ r p1, h_le (calmEnv 0.01) ⟨s, (brimRec q).toInput, none, none⟩ = .ok (r, p1) ∧
      r.h ≤ 10 ∧ r.e = 0 ∧ r.le = 0 := by
    intro q s hs
    obtain ⟨r, p1, k1, k2, _, _, _, k6⟩ := mild_air (p := ⟨s, (brimRec q).toInput, none, none⟩) (by rw [hs.z]; exact hs.z0)
      (by rw [hs.z]; exact hs.z_le) (by rw [hs.t0]; linarith) hs.t0.le rfl rfl rfl (.inl ⟨rfl, rfl⟩)
    exact ⟨r, p1, k1, k2, k6 hs.t0⟩
  have hr0 : RipeSnow { brimPack with h2o_total := 0, snowcover := true } :=
    ⟨rp.z0, rp.zl, rp.z, rp.z_le, rp.rho, rp.t0, rp.t, rp.cc0, rp.ccl, rp.m, rp.m0, rp.ml⟩
  obtain ⟨r, p1, k1, k2, k3, k4⟩ := hle 0 _ hr0
  refine ⟨(333600 * brimMelt / 3600 - r.h) / 0.98, ?_, fun dl => ?_⟩
  · apply div_nonneg _ (by norm_num)
    have : brimMelt = 75 + brimCap - brimWater := rfl
    linarith
  obtain ⟨q, eq⟩ : ∃ q, q = (333600 * brimMelt / 3600 - r.h) / 0.98 := ⟨_, rfl⟩
  rw [← eq]
  obtain ⟨r', p1', k1', _, k3', k4'⟩ := hle q _ hr0
  have er : r' = r := by
    obtain ⟨_, _, x1, x2, _, _, _, _, _, x3⟩ := h_le_ok k1
    obtain ⟨_, _, y1, y2, _, _, _, _, _, y3⟩ := h_le_ok k1'
    have x1' : sati FREEZE = _ := x1
    have y1' : sati FREEZE = _ := y1
    have x2' : sati FREEZE = _ := x2
    have y2' : sati FREEZE = _ := y2
    rw [sati_freeze] at x1' y1' x2' y2'
    cases x1'; cases y1'; cases x2'; cases y2'
    have := x3.symm.trans y3
    exact (Except.ok.inj this).symm
  have hap : applied dl (brimRec q).toInput = (brimRec q).toInput := applied_dry (brim_now q)
  have est : stepStart dl ⟨brimPack, (brimRec q).toInput, none, none⟩ =
      ⟨{ brimPack with h2o_total := 0, snowcover := true }, (brimRec q).toInput, none, none⟩ := by
    unfold stepStart
    have hl : decide (brimPack.layer_count > 0) = true := by rw [rp.lc]; rfl
    simp only [hap, hl]
  rw [stepPhys_eq, est]
  have hsoil : SoilOK (calmEnv 0.01) (brimRec q).toInput := calm_soil _ rfl
  have fr : ({ brimPack with h2o_total := 0, snowcover := true } : Snow).Frozen := ⟨⟨freeze_pos, le_refl _⟩, ⟨freeze_pos, le_refl _⟩, t_none_ok⟩
  have hi : Inv (calmEnv 0.01) ({ brimPack with h2o_total := 0, snowcover := true } : Snow) := by
    have i := brim_inv
    exact ⟨i.sum, i.zl, i.full, i.one, i.bare, i.pack, fun _ => by norm_num [brimPack]⟩
  obtain ⟨p2, hp2⟩ := (C52_energy_balance_completes (calmEnv 0.01) calmEnv_ok 3600 (by norm_num)
    ⟨{ brimPack with h2o_total := 0, snowcover := true }, (brimRec q).toInput, none, none⟩
    ⟨hi, hsoil, by norm_num [calmEnv], boil_gt.le, fun _ => by norm_num [brimPack], fun _ => fr⟩
    (by show 0 < brimPack.layer_count; rw [rp.lc]; norm_num)).mpr ⟨_, k1'⟩
  rw [hp2, bind_ok]
  rcases energy_balance_ok hp2 with ⟨_, r2, q2, G, G0, M, e1, e2, e3, e4⟩ | ⟨h0, _⟩
  swap
  · have hl0 := hr0.lc
    have h0' := h0
    simp only at h0' hl0
    omega
  rw [k1'] at e1
  obtain ⟨rfl, rfl⟩ := Prod.mk.inj (Except.ok.inj e1)
  obtain ⟨_, _, y1, y2, y3, y4, _⟩ := h_le_ok k1'
  have y1' : sati FREEZE = _ := y1
  rw [sati_freeze] at y1'
  cases y1'
  have ein : p1'.input1 = (brimRec q).toInput := by
    rw [y3]
    have : min (brimRec q).toInput.e_a 610.71 = (brimRec q).toInput.e_a := min_self _
    simp only [this]
  rw [ein, y4] at e2 e3
  have hM : M = 0 := by
    unfold advec at e3
    rw [if_neg (by rw [brim_now]; simp)] at e3
    exact (Except.ok.inj e3).symm
  have hG : G0 = 0 := by
    unfold heat_transfer at e2
    rw [if_pos hr0.lc] at e2
    obtain ⟨g, hgs, e2⟩ := bind_eq_ok.mp e2
    simp only [pure_ok, Except.ok.injEq, Prod.mk.injEq] at e2
    obtain ⟨_, rfl⟩ := e2
    obtain ⟨es, el, _, _, a3⟩ := g_soil_law hsoil boil_gt.le hr0.rho (b := true) (by rw [if_pos rfl]; exact hr0.t0.le) hgs
    rw [a3, if_pos rfl, hr0.t0]
    show conducted FREEZE _ _ FREEZE _ _ = 0
    unfold conducted
    rw [sub_self, zero_div]
  have hi2 : p2.input1 = (brimRec q).toInput := by rw [e4]; exact ein
  rw [hi2]
  have : mass_balance (calmEnv 0.01) (brimRec q).toInput 3600 p2.snow = .error .zeroDivision := by
    rw [e4]
    refine brim_mass ⟨rp.z0, rp.zl, rp.z, rp.z_le, rp.rho, rp.t0, rp.t, rp.cc0, rp.ccl, rp.m, rp.m0, rp.ml⟩ rfl rfl rfl rfl rfl k3' ?_
    show (net_radiation (brimRec q).toInput _ + r'.h + r'.le + G0 + M) * 3600 = _
    rw [hM, hG, k4', er]
    unfold net_radiation
    have hf4 : ({ brimPack with h2o_total := 0, snowcover := true } : Snow).t_s_0 = FREEZE := rfl
    have i1 : (brimRec q).toInput.S_n = 0 := rfl
    have i2 : (brimRec q).toInput.I_lw = STEF_BOLTZ * FREEZE ^ 4 + q := rfl
    rw [hf4, i1, i2, eq]
    norm_num [SNOW_EMISSIVITY, STEF_BOLTZ, FREEZE]
    ring
  rw [this, bind_error]

theorem brimCfg_ok : brimCfg.AdmissibleStart ∧ brimCfg.ColdStart ∧ brimCfg.ThawStart := by
  refine ⟨⟨⟨?_, ?_, ?_, ?_⟩, ?_, ?_, ?_⟩, ⟨⟨?_, ?_⟩, ?_, ?_⟩, ⟨?_, ?_, ?_, ?_, ?_⟩⟩ <;>
    norm_num [brimCfg, calmCfg, defaultSteps, RHO_W0, RHO_ICE, FREEZE]
  intro t h; cases h

theorem brim_new (q : ℝ) : InputData.new (brimRec q) = .ok (brimRec q).toInput := by
  rw [new_eq, if_neg]
  rintro ⟨_, _, h⟩
  exact absurd h (by norm_num [brimRec, mildRec])

theorem brim_rows {q : ℝ} (hq : 0 ≤ q) : ThawRows (calmEnv 0.01).P_a [brimRec q, mildRec] := by
  refine ⟨fun r hr => ?_, ?_⟩
  · rcases List.mem_cons.mp hr with rfl | hr
    · have h := mild_rec
      exact ⟨h.dry, h.sun, by show STEF_BOLTZ * FREEZE ^ 4 ≤ STEF_BOLTZ * FREEZE ^ 4 + q; linarith, h.air, h.wind, h.ground, h.moist⟩
    · rw [List.mem_singleton] at hr
      rw [hr]; exact mild_rec
  · have : Unsaturated [brimRec q, mildRec] := by
      intro r hr q' hq' sv hsv
      have e1 : r.e_a = 610.71 := by
        simp only [List.mem_cons, List.not_mem_nil, or_false] at hr
        rcases hr with rfl | rfl <;> rfl
      have e2 : q'.t_a = FREEZE := by
        simp only [List.mem_cons, List.not_mem_nil, or_false] at hq'
        rcases hq' with rfl | rfl <;> rfl
      rw [e2, sati_freeze] at hsv
      cases hsv
      exact e1.le
    simp [this]

/-- C83: the run meets the hypotheses of `C83_thaw_raises` and raises, with a pack no deeper than the active layer. -/
example : ∃ q, brimCfg.Tiled ∧ brimCfg.AdmissibleStart ∧ brimCfg.ColdStart ∧ brimCfg.ThawStart ∧ 0 < brimCfg.max_h2o ∧
    0 < brimCfg.z_g ∧ mkEnv brimCfg = .ok (calmEnv 0.01) ∧ ThawRows (calmEnv 0.01).P_a [brimRec q, mildRec] ∧
    simulate brimCfg [brimRec q, mildRec] = .error .zeroDivision ∧
    ∃ (ts : Tsteps) (k : ℕ) (m : Model) (ls : List (List (RStep Phys))) (i1 i2 : InputData) (l : List (RStep Phys)) (mid : Model) (lv : Level) (d : InputData)
      (rest : List Level), RunTrace brimCfg ([brimRec q, mildRec].take (k + 1)) ls m ∧
      StepRaises (calmEnv 0.01) ts brimCfg.output_all i1 i2 m l mid lv d rest .zeroDivision := by
  obtain ⟨q, hq, hstep⟩ := brim_step
  obtain ⟨w1, w2, w3⟩ := brimCfg_ok
  have he : mkEnv brimCfg = .ok (calmEnv 0.01) := calmCfg_env _ _ _ _ _
  have ht : brimCfg.Tiled := calmCfg_tiled _ _ _ _ _
  have e36 : ((brimCfg.norm_time_step * 60 : ℤ) : ℝ) = 3600 := by norm_num [brimCfg, calmCfg, defaultSteps]
  have hrun : simulate brimCfg [brimRec q, mildRec] = .error .zeroDivision := by
    refine first_normal_raises (g := brimCfg) ht he brim_init (brim_new q) mild_new ?_ (by rw [e36]; exact hstep _)
    unfold below_thold
    rw [if_neg (by rw [brim_ripe.lc]; norm_num), if_pos brim_ripe.lc]
    show decide ((300:ℝ) * 0.25 < 60) = false
    norm_num
  have hrows := brim_rows hq
  obtain ⟨ts, k, hk, m, i1, i2, l, mid, lv, d, rest, k1, k2, k3, k4, _, k5⟩ := C68_failure_located brimCfg ht w1 _ he _
    (by simp) (fun r hx => (hrows.thaw r hx).accepted) _ hrun
  obtain ⟨ls, htr⟩ := simulate_trace k2
  exact ⟨q, ht, w1, w2, w3, by norm_num [brimCfg, calmCfg], by norm_num [brimCfg, calmCfg, defaultSteps], he, hrows, hrun,
    ts, k, m, ls, i1, i2, l, mid, lv, d, rest, htr, k5⟩

end

end Pysnobal
