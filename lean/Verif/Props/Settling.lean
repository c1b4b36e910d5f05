import Verif.Props.CalmAir
import Verif.Props.Start
import Verif.Props.Compaction

/-! # C102: snow in balance with its surroundings keeps its temperature in one layer, but not in two -/

namespace Pysnobal

noncomputable section

/-! ## Specification -/

/-- Calm, dry weather over ground of temperature `T`, in which a snow surface of temperature `T` gains as much radiation as it emits. -/
structure InputData.Balanced (T : ℝ) (i : InputData) : Prop where
  calm : i.u = 0
  dry : i.precip_now = false
  ground : i.t_g = T
  net : i.S_n + 0.98 * (i.I_lw - STEF_BOLTZ * T ^ 4) = 0

/-- The same for a row of the forcing table. -/
structure Rec.Balanced (T : ℝ) (r : Rec) : Prop where
  calm : r.u = 0
  dry : r.m_pp ≤ 0
  ground : r.t_g = T
  net : r.S_n + 0.98 * (r.I_lw - STEF_BOLTZ * T ^ 4) = 0

/-- A dry pack of the temperature `T` below freezing throughout. -/
structure Snow.ColdAt (T : ℝ) (s : Snow) : Prop where
  cold : T < FREEZE
  layers : 0 < s.layer_count
  water : s.h2o = 0
  surface : s.t_s_0 = T
  mean : s.t_s = T
  surface_cc : s.cc_s_0 = cp_ice T * s.m_s_0 * (T - FREEZE)
  lower : s.layer_count = 2 → s.t_s_l = T ∧ s.cc_s_l = cp_ice T * s.m_s_l * (T - FREEZE)

/-- What a pack at rest keeps: one layer, dry, of the temperature `T` throughout, with the mass `M`, at least as dense as `r`, and
without melt, vapour exchange or outflow. -/
structure Snow.AtRest (T M r : ℝ) (s : Snow) : Prop where
  cover : s.snowcover = true
  layers : s.layer_count = 1
  surface : s.t_s_0 = T
  mean : s.t_s = T
  m_s : s.m_s = M
  cc_s : s.cc_s_0 = cp_ice T * M * (T - FREEZE) ∧ s.cc_s_l = 0
  rho : r ≤ s.rho ∧ s.rho ≤ 600
  water : s.h2o = 0
  melt : s.melt = 0
  vapour : s.E_s = 0
  outflow : s.swi = 0

/-! ## Proof -/

theorem ssxfr_equal {k1 k2 t d1 d2 x : ℝ} (h : ssxfr k1 k2 t t d1 d2 = .ok x) : x = 0 := by
  unfold ssxfr at h
  rw [pdiv_eq_ok] at h
  rw [h.2, sub_self, mul_zero, mul_zero, zero_div]

theorem g_soil_equal {c : Env} {i : InputData} {b : Bool} {s : Snow} {T x : ℝ} (hT : T ≤ FREEZE) (hg : i.t_g = T)
    (hs : (if b then s.t_s_0 else s.t_s_l) = T) (h : g_soil c i b s = .ok x) : x = 0 := by
  unfold g_soil at h
  dsimp only at h
  rw [hs, if_neg (not_lt.mpr hT), hg] at h
  cases b <;> simp only [Bool.false_eq_true, if_false, if_true] at h
  all_goals
    obtain ⟨_, _, h⟩ := bind_eq_ok.mp h
    obtain ⟨_, _, h⟩ := bind_eq_ok.mp h
    obtain ⟨_, _, h⟩ := bind_eq_ok.mp h
    obtain ⟨_, _, h⟩ := bind_eq_ok.mp h
    exact ssxfr_equal h

theorem heat_equal {c : Env} {i : InputData} {s : Snow} {T : ℝ} (hT : T ≤ FREEZE) (hg : i.t_g = T) (h0 : s.t_s_0 = T)
    (hl : s.layer_count ≠ 1 → s.t_s_l = T) {G : ℝ × ℝ} (h : heat_transfer c i s = .ok G) : G = (0, 0) := by
  unfold heat_transfer at h
  by_cases h1 : s.layer_count = 1
  · rw [if_pos h1] at h
    obtain ⟨g, e, h⟩ := bind_eq_ok.mp h
    have := g_soil_equal hT hg (b := true) (by rw [if_pos rfl]; exact h0) e
    cases h
    rw [this]
  · rw [if_neg h1] at h
    obtain ⟨g, e, h⟩ := bind_eq_ok.mp h
    obtain ⟨g0, e0, h⟩ := bind_eq_ok.mp h
    have a := g_soil_equal hT hg (b := false) (by rw [if_neg (by decide)]; exact hl h1) e
    unfold g_snow at e0
    rw [if_pos (by rw [h0, hl h1])] at e0
    cases e0
    cases h
    rw [a]

theorem soilEvap_equal {c : Env} {i : InputData} {dt : ℝ} {s : Snow} {T x : ℝ} (hg : i.t_g = T) (h0 : s.t_s_0 = T)
    (hl : s.layer_count = 2 → s.t_s_l = T) (h : soilEvap c i dt s = .ok x) : x = 0 := by
  have h : ((if s.layer_count = 2 then s.e_s_l else s.e_s_0) >>= fun e_s => do
      let t_bar := if s.layer_count = 2 then (i.t_g + s.t_s_l) / 2 else (i.t_g + s.t_s_0) / 2
      let q_s_l ← spec_hum e_s c.P_a
      let e_g ← i.e_g
      let q_g ← spec_hum e_g c.P_a
      let rho_air ← gas_density c.P_a MOL_AIR t_bar
      let k ← diffusion_coef c.P_a t_bar
      let E_l ← vapor_flux rho_air k (q_g - q_s_l) c.z_g
      pure (E_l * dt)) = .ok x := by
    unfold soilEvap at h
    by_cases h2 : s.layer_count = 2
    · simp only [h2, if_true] at h ⊢; exact h
    · simp only [h2, if_false] at h ⊢; exact h
  obtain ⟨es, e1, h⟩ := bind_eq_ok.mp h
  dsimp only at h
  obtain ⟨qs, e2, h⟩ := bind_eq_ok.mp h
  obtain ⟨eg, e3, h⟩ := bind_eq_ok.mp h
  obtain ⟨qg, e4, h⟩ := bind_eq_ok.mp h
  obtain ⟨_, _, h⟩ := bind_eq_ok.mp h
  obtain ⟨_, _, h⟩ := bind_eq_ok.mp h
  obtain ⟨E, e5, h⟩ := bind_eq_ok.mp h
  have he : es = eg := by
    unfold InputData.e_g at e3
    rw [hg] at e3
    unfold Snow.e_s_l Snow.e_s_0 at e1
    split at e1
    · rename_i h2
      rw [hl h2, e3] at e1
      exact (Except.ok.inj e1).symm
    · rw [h0, e3] at e1
      exact (Except.ok.inj e1).symm
  rw [he, e4] at e2
  cases e2
  unfold vapor_flux at e5
  obtain ⟨r, e6, e5⟩ := bind_eq_ok.mp e5
  rw [pdiv_eq_ok, sub_self, zero_div] at e6
  cases e5
  cases h
  rw [e6.2, mul_zero, zero_mul]

/-- Nothing melts and nothing refreezes in a cold dry pack without fluxes. -/
theorem snowmelt_idle {c : Env} {dt : ℝ} {s : Snow} (hs : s.snowcover = true) (hw : s.h2o_total = 0) (h0 : s.en.delta_Q_0 = 0)
    (hG : s.en.G = s.en.G_0) (c0 : s.cc_s_0 ≤ 0) (cl : s.layer_count = 2 → s.cc_s_l ≤ 0) :
    snowmelt c dt s = .ok { s with melt := 0, h2o_total := 0 } := by
  have q0 : meltQ0 dt s = s.cc_s_0 := by unfold meltQ0; rw [h0, zero_mul, zero_add]
  have ql : s.layer_count = 2 → meltQl dt s = s.cc_s_l := fun h => by
    unfold meltQl; rw [if_pos h, hG, sub_self, zero_mul, zero_add]
  have e : meltLayers dt s = { s with melt := 0, h2o_total := 0 } := by
    rw [meltLayers_eq, q0, if_neg (not_lt.mpr c0), min_eq_right c0, hw]
    by_cases h2 : s.layer_count = 2
    · rw [if_pos h2, ql h2, min_eq_right (cl h2), if_neg (by rintro ⟨_, h⟩; exact absurd h (not_lt.mpr (cl h2))), add_zero, add_zero]
    · rw [if_neg h2, if_neg (by rintro ⟨h, _⟩; exact h2 h), add_zero, add_zero]
  unfold snowmelt
  rw [if_neg (by rw [hs]; decide)]
  dsimp only
  rw [e]
  unfold refreezeSurf
  rw [if_neg (by rintro ⟨_, h⟩; exact lt_irrefl _ h), bind_ok]
  dsimp only
  unfold refreezeLower
  rw [if_neg (by rintro ⟨_, h⟩; exact lt_irrefl _ h), bind_ok]
  dsimp only
  unfold refreezeSnap
  have e8 : |(0 : ℝ) - 0| ≤ 1e-8 := by norm_num
  simp only [e8, if_true, gt_iff_lt, lt_irrefl, if_false]
  rfl

/-- `adj_snow` without change of mass or depth. -/
theorem adj_snow_idle {c : Env} {s : Snow} (hi : Inv c s) (hz : 0 < s.z_s_0) :
    adj_snow c 0 0 s = if s.rho > 600 then adj_layers c { s with rho := 600, z_s := s.m_s / 600 } else s := by
  have hzz := hi.z_pos hz
  obtain ⟨p1, p2, p3⟩ := hi.pack hz
  have er : (if s.z_s + 0 ≠ 0 then (s.m_s + 0) / (s.z_s + 0) else 0) = s.rho := by
    rw [add_zero, add_zero, if_pos hzz.ne', p1]; field_simp
  unfold adj_snow MAX_SNOW_DENSITY
  dsimp only
  rw [er]
  by_cases h : s.rho > 600
  · rw [if_pos h, if_pos h, add_zero]
  · rw [if_neg h, if_neg h, if_neg (by simp)]
    unfold Snow.layer_mass
    rw [add_zero, add_zero, ← p2, ← p3]

/-- What time compaction does to the density of a pack that stays. -/
theorem time_compact_denser {c : Env} (hmax : 0 < c.max_z_s_0) {dt : ℝ} (hdt : 0 < dt) {s s' : Snow} (hi : Inv c s) (hr : 0 < s.rho) (hm : 0 < s.m_s)
    (h : time_compact c dt s = .ok s') (hs : s'.snowcover = true) : s.rho ≤ s'.rho ∧ (s.rho < 550 → s.rho < s'.rho) := by
  rcases time_compact_ok h with ⟨h1, rfl⟩ | ⟨_, _, rate, d1, d2, k1, k2, k3, k4, k5, rfl⟩
  · refine ⟨le_refl _, fun h2 => ?_⟩
    rcases h1 with h1 | h1
    · rw [hs] at h1; cases h1
    · linarith
  · obtain ⟨r, e, hp, _⟩ := compactRate_pos hdt s
    rw [k1] at e
    cases e
    have a1 : 0 < d1 := by
      rw [k3]
      refine div_pos (mul_pos (mul_pos (by norm_num) ?_) (Real.exp_pos _)) hp
      split
      · norm_num
      · exact Real.exp_pos _
    have a2 : 0 < d2 := by rw [k4]; positivity
    have hlt : s.rho < s.rho + (d1 + d2) * s.rho := by nlinarith [mul_pos (add_pos a1 a2) hr]
    rcases adj_layers_cases hmax { s with rho := s.rho + (d1 + d2) * s.rho, z_s := s.m_s / (s.rho + (d1 + d2) * s.rho) } with ⟨a, _, _, e, _⟩ | ⟨a, _⟩
    · rw [e]
      exact ⟨hlt.le, fun _ => hlt⟩
    · rw [a.snowcover] at hs
      cases hs

/-- The density time compaction leaves, and when it leaves two layers. -/
theorem time_compact_law {c : Env} (hmax : 0 < c.max_z_s_0) {dt : ℝ} (hdt : 0 < dt) {s s' : Snow} (hr : s.rho < 550)
    (h : time_compact c dt s = .ok s') (hs : s'.snowcover = true) (hs0 : s.snowcover = true) :
    s'.rho = gravityDensity (dt / 3600) s.rho s.t_s s.m_s ∧
      (c.max_z_s_0 < s.m_s / s'.rho → c.small_threshold ≤ (s.m_s / s'.rho - c.max_z_s_0) * s'.rho → s'.layer_count = 2) := by
  rcases time_compact_ok h with ⟨h1, rfl⟩ | ⟨_, _, rate, d1, d2, k1, k2, k3, k4, k5, rfl⟩
  · exfalso
    rcases h1 with h1 | h1
    · rw [hs] at h1; cases h1
    · linarith
  · obtain ⟨r, e, hp, _, hlaw⟩ := compactRate_pos hdt s
    rw [k1] at e
    cases e
    rcases adj_layers_cases hmax { s with rho := s.rho + (d1 + d2) * s.rho, z_s := s.m_s / (s.rho + (d1 + d2) * s.rho) } with ⟨a, b1, b2, e, e'⟩ | ⟨a, _⟩
    · have e : _ = s.rho + (d1 + d2) * s.rho := e
      refine ⟨?_, ?_⟩
      · rw [e, k3, k4]
        unfold gravityDensity settling overburden
        rw [← hlaw]
        unfold FREEZE RHO_W0
        have e1 : -21 * (s.rho / 999.87) = -21 * s.rho / 999.87 := by ring
        rw [e1]
        ring
      · rw [e]
        intro c1 c2
        have c1 : c.max_z_s_0 < ({ s with rho := s.rho + (d1 + d2) * s.rho, z_s := s.m_s / (s.rho + (d1 + d2) * s.rho) } : Snow).z_s := c1
        have c2 : c.small_threshold ≤ (({ s with rho := s.rho + (d1 + d2) * s.rho, z_s := s.m_s / (s.rho + (d1 + d2) * s.rho) } : Snow).z_s - c.max_z_s_0) *
          ({ s with rho := s.rho + (d1 + d2) * s.rho, z_s := s.m_s / (s.rho + (d1 + d2) * s.rho) } : Snow).rho := c2
        generalize ({ s with rho := s.rho + (d1 + d2) * s.rho, z_s := s.m_s / (s.rho + (d1 + d2) * s.rho) } : Snow) = v at *
        rcases calc_cases c hmax v with ⟨q, _⟩ | ⟨_, q, _⟩ | ⟨_, _, q | q, _⟩ | ⟨_, _, _, q1, q2, q3, q4⟩
        · linarith
        · linarith
        · linarith
        · linarith
        · have f := adj_layers_pos hmax (s := v) (by omega)
          rw [lc_eq_two, f.z0, f.zl, q2, q3]
          exact ⟨hmax, by linarith⟩
    · rw [a.snowcover] at hs
      cases hs

/-- What a run step leaves of a balanced pack before the temperatures are recomputed. -/
structure SettledPack (c : Env) (dt T : ℝ) (s w : Snow) : Prop where
  inv : Inv c w
  cover : w.snowcover = true
  z0 : 0 < w.z_s_0
  m_s : w.m_s = s.m_s
  cc0 : w.cc_s_0 = s.cc_s_0
  t_s_0 : w.t_s_0 = T
  t_s : w.t_s = T
  h2o : w.h2o = 0
  melt : w.melt = 0
  E_s : w.E_s = 0
  swi : w.swi = 0
  rho_le : w.rho ≤ 600
  rho : s.rho ≤ 600 → s.rho ≤ w.rho
  denser : s.rho < 550 → s.rho < w.rho
  law : s.rho < 550 → gravityDensity (dt / 3600) s.rho T s.m_s ≤ 600 → w.rho = gravityDensity (dt / 3600) s.rho T s.m_s ∧
    (c.max_z_s_0 < s.m_s / w.rho → c.small_threshold ≤ (s.m_s / w.rho - c.max_z_s_0) * w.rho → w.layer_count = 2)
  lower : w.rho < 600 → s.layer_count = 2 → w.layer_count = 2 → w.t_s_l = T ∧ w.cc_s_l = s.cc_s_l

theorem settle_start {c : Env} {dt : ℝ} {d : InputData} {p p' : Phys} {T : ℝ} {s0 s1 s2 s3 s4 s5 s6 : Snow}
    (hs : p.snow.ColdAt T) (hb : p.input1.Balanced T) (k : StepChain c dt d p p' s0 s1 s2 s3 s4 s5 s6) :
    s0.E = 0 ∧ s0.en.delta_Q_0 = 0 ∧ s0.en.G = s0.en.G_0 := by
  have ha : applied d p.input1 = p.input1 := by unfold applied; rw [if_neg (by rw [hb.dry]; decide)]
  have e := k.eb
  rw [ha] at e
  have e := (energy_balance_calm (by exact hb.calm) e).1
  unfold calmSnow at e
  dsimp only at e
  rw [if_pos (by exact hs.layers)] at e
  obtain ⟨⟨G, G0⟩, e1, e⟩ := bind_eq_ok.mp e
  have hG := heat_equal hs.cold.le hb.ground (by exact hs.surface) (by
    intro h1
    have h1' : p.snow.layer_count ≠ 1 := h1
    have := lc_le_two p.snow
    have := hs.layers
    exact (hs.lower (by omega)).1) e1
  cases hG
  dsimp only at e
  obtain ⟨M, e2, e⟩ := bind_eq_ok.mp e
  unfold advec at e2
  rw [if_neg (by rw [hb.dry]; decide)] at e2
  cases e2
  have hR : net_radiation p.input1 { p.snow with h2o_total := 0, snowcover := decide (p.snow.layer_count > 0) } = 0 := by
    unfold net_radiation SNOW_EMISSIVITY
    rw [show ({ p.snow with h2o_total := 0, snowcover := decide (p.snow.layer_count > 0) } : Snow).t_s_0 = T from hs.surface]
    exact hb.net
  rw [hR] at e
  cases e
  exact ⟨rfl, by simp, rfl⟩

theorem settle_chain {c : Env} (hc : 0 < c.max_z_s_0) (hv : 0 < c.max_h2o_vol) {dt : ℝ} (hdt : 0 < dt) {d : InputData} {p p' : Phys} {T : ℝ}
    (hi : Inv c p.snow) (hm : 0 < p.snow.m_s) (hsm : c.small_threshold < p.snow.m_s) (hT : 0 < T) (hs : p.snow.ColdAt T) (hb : p.input1.Balanced T)
    (h : stepPhys c dt d p = .ok p') : ∃ w, SettledPack c dt T p.snow w ∧ w.adjust_layer_temps = .ok p'.snow := by
  obtain ⟨s0, s1, s2, s3, s4, s5, s6, k⟩ := step_chain hc hi h
  obtain ⟨hE, hQ, hG⟩ := settle_start hs hb k
  have hz0 : 0 < p.snow.z_s_0 := (hi.lc_pos_iff hc).mp hs.layers
  obtain ⟨hr0, hzz0⟩ := inv_rho_pos hi hz0 hm
  have hpack := hi.pack hz0
  have hcp := cp_ice_pos hT.le
  have hcc0 : p.snow.cc_s_0 ≤ 0 := by
    rw [hs.surface_cc]
    have : 0 ≤ p.snow.m_s_0 := by rw [hpack.2.1]; positivity
    exact mul_nonpos_of_nonneg_of_nonpos (mul_nonneg hcp.le this) (by linarith [hs.cold])
  have f0 : s0.m_s = p.snow.m_s ∧ s0.rho = p.snow.rho ∧ s0.cc_s_0 = p.snow.cc_s_0 ∧ s0.cc_s_l = p.snow.cc_s_l ∧ s0.t_s_0 = T ∧ s0.t_s = T ∧
      s0.t_s_l = p.snow.t_s_l ∧ s0.layer_count = p.snow.layer_count ∧ s0.h2o = 0 ∧ s0.h2o_total = 0 ∧ s0.snowcover = true ∧ s0.z_s_0 = p.snow.z_s_0 := by
    rw [k.start]
    exact ⟨rfl, rfl, rfl, rfl, hs.surface, hs.mean, rfl, rfl, hs.water, rfl, decide_eq_true hs.layers, rfl⟩
  obtain ⟨a1, a2, a3, a4, a5, a6, a7, a8, a9, a10, a11, a12⟩ := f0
  -- time compaction
  have hst : Stay c s0 s0.m_s s1 := by
    rcases time_compact_ok k.tc with ⟨_, e⟩ | ⟨_, _, rate, d1, d2, k1, k2, k3, k4, k5, e⟩
    · rw [e]; exact Stay.rfl' (by rw [a12]; exact hz0)
    · rcases time_compact_out hc k.i0 k.tc with ⟨h1, _⟩ | ⟨_, h2, _⟩ | ⟨_, h2⟩
      · rw [a11] at h1; cases h1
      · exact h2
      · exfalso
        obtain ⟨r, e', hp, _⟩ := compactRate_pos hdt s0
        rw [k1] at e'; cases e'
        have b1 : 0 < d1 := by
          rw [k3]
          refine div_pos (mul_pos (mul_pos (by norm_num) ?_) (Real.exp_pos _)) hp
          split
          · norm_num
          · exact Real.exp_pos _
        have b2 : 0 < d2 := by rw [k4, a1]; positivity
        have b3 : 0 < s0.rho + (d1 + d2) * s0.rho := by rw [a2]; positivity
        rcases adj_layers_cases hc { s0 with rho := s0.rho + (d1 + d2) * s0.rho, z_s := s0.m_s / (s0.rho + (d1 + d2) * s0.rho) } with ⟨a, _⟩ | ⟨_, h3 | h3⟩
        · have x1 := a.snowcover
          rw [← e, h2.snowcover] at x1
          rw [show ({ s0 with rho := s0.rho + (d1 + d2) * s0.rho, z_s := s0.m_s / (s0.rho + (d1 + d2) * s0.rho) } : Snow).snowcover = s0.snowcover from rfl, a11] at x1
          cases x1
        · have h3 : s0.m_s ≤ c.small_threshold := h3
          rw [a1] at h3
          linarith
        · have h3 : s0.m_s / (s0.rho + (d1 + d2) * s0.rho) ≤ 0 := h3
          have : 0 < s0.m_s / (s0.rho + (d1 + d2) * s0.rho) := div_pos (by rw [a1]; exact hm) b3
          linarith
  have hcov : s1.snowcover = true := by rw [hst.snowcover]; exact a11
  obtain ⟨hd1, hd2⟩ := time_compact_denser hc hdt k.i0 (by rw [a2]; exact hr0) (by rw [a1]; exact hm) k.tc hcov
  have ht1 : s1.t_s_0 = T ∧ s1.t_s = T := ⟨by rw [hst.t_s_0, a5], by rw [hst.t_s, a6]⟩
  have hz1 := hst.z0
  have hr1 : 0 < s1.rho := by linarith [hd1, a2]
  have htl : s1.layer_count = 2 → s1.t_s_l = T := fun h2 => by
    rcases hst.base (by rw [a8]; exact hs.layers) h2 with ⟨b1, b2⟩ | ⟨_, b2⟩
    · rw [b2, a7]; exact (hs.lower (by rw [← a8]; exact b1)).1
    · rw [b2, a6]
  have hccl0 : s0.cc_s_l ≤ 0 := by
    rcases k.i0.zl.lt_or_eq with b | b
    · have b2 : p.snow.layer_count = 2 := by rw [← a8]; exact lc_eq_two.mpr ⟨by rw [a12]; exact hz0, b⟩
      have b3 := lc_eq_two.mp b2
      rw [a4, (hs.lower b2).2]
      have : 0 ≤ p.snow.m_s_l := by rw [hpack.2.2]; exact mul_nonneg hr0.le b3.2.le
      exact mul_nonpos_of_nonneg_of_nonpos (mul_nonneg hcp.le this) (by linarith [hs.cold])
    · rw [(k.i0.one b.symm).2.1]
  have hccl1 : s1.cc_s_l ≤ 0 := by
    rcases hst.lower with ⟨_, b⟩ | ⟨_, _, _, b⟩ | ⟨_, _, _, b, _⟩
    · rw [b]; exact hccl0
    · rw [b]
    · rw [b, a6]
      unfold cold_content heat_stor
      rw [if_pos hs.cold]
      have : 0 ≤ s1.m_s_l := by rw [(k.i1.pack hz1).2.2]; exact mul_nonneg hr1.le k.i1.zl
      exact mul_nonpos_of_nonneg_of_nonpos (mul_nonneg hcp.le this) (by linarith [hs.cold])
  -- no precipitation
  have hin : p'.input1 = { p.input1 with e_a := p'.input1.e_a } := by
    rw [k.input]
    unfold applied
    rw [if_neg (by rw [hb.dry]; decide)]
  have hdry : p'.input1.precip_now = false := by rw [hin]; exact hb.dry
  have hgr : p'.input1.t_g = T := by rw [hin]; exact hb.ground
  have e2 : s2 = { s1 with h2o_total := 0 } := by
    have := k.pe
    unfold precip_event at this
    rw [if_neg (by rw [hdry]; decide)] at this
    rw [← Except.ok.inj this, hst.h2o_total, hst.h2o, a9, a10, add_zero]
  have e3 : s3 = { s1 with h2o_total := 0, melt := 0 } := by
    have := k.sm
    rw [e2, snowmelt_idle (s := { s1 with h2o_total := 0 }) (by exact hcov) rfl (by show s1.en.delta_Q_0 = 0; rw [hst.en, hQ]) (by show s1.en.G = s1.en.G_0; rw [hst.en, hG])
      (by show s1.cc_s_0 ≤ 0; rw [hst.cc0, a3]; exact hcc0) (fun _ => hccl1)] at this
    exact (Except.ok.inj this).symm
  -- evaporation
  have e4 : s4 = adj_snow c 0 0 { s1 with h2o_total := 0, melt := 0, E_s := 0 } := by
    have hE1 : s1.E = 0 := by rw [hst.E, hE]
    rcases evap_cond_ok k.ec with ⟨b, _⟩ | ⟨_, b, _⟩ | ⟨_, _, el, w, b1, b2, _, b3⟩
    · rw [e3] at b
      have b : s1.snowcover = false := b
      rw [hcov] at b; cases b
    · rw [e3] at b
      have b : s1.layer_count = 0 := b
      have := (k.i1.lc_pos_iff hc).mpr hz1
      omega
    · have hel : el = 0 := soilEvap_equal hgr (by rw [e3]; exact ht1.1) (by rw [e3]; exact htl) b1
      have hw0 : evapH2o s3.h2o_total (s3.E * dt) = 0 := by
        rw [e3]; unfold evapH2o; simp
      have hw : w = 0 := by
        rw [b2, hw0, hel]; unfold evapH2o; simp
      have hE3 : s3.E = 0 := by rw [e3]; exact hE1
      have hh3 : s3.h2o_total = 0 := by rw [e3]
      have q2 : s3.E * dt + el = 0 := by rw [hE3, hel, zero_mul, add_zero]
      have q1 : (s3.E * dt + el + s3.h2o_total - w) / s3.rho / 2 = 0 := by rw [q2, hh3, hw]; simp
      rw [b3, q1, q2, hw, e3]
  have hcap : ∀ t : Snow, Inv c t → 0 < t.z_s_0 → t.h2o_total = 0 → t.rho ≤ 600 → 0 < capacity c t := by
    intro t ht hz hh hr
    have hzz := ht.z_pos hz
    unfold capacity h2o_left
    rw [hh, sub_zero, (ht.pack hz).1, mul_div_cancel_right₀ _ hzz.ne']
    have : 0 < RHO_ICE - t.rho := by norm_num [RHO_ICE]; linarith
    have : (0 : ℝ) < RHO_ICE := by norm_num [RHO_ICE]
    have : 0 < RHO_W0 := by norm_num [RHO_W0]
    positivity
  obtain ⟨u, hu⟩ : ∃ u : Snow, u = { s1 with h2o_total := 0, melt := 0, E_s := 0 } := ⟨_, rfl⟩
  have hui : Inv c u := by
    rw [hu]
    exact k.i1.frame ⟨rfl, rfl, rfl⟩ ⟨rfl, rfl, rfl, rfl⟩ (fun _ => ⟨rfl, rfl, rfl, rfl, rfl, rfl⟩) (fun _ => ⟨rfl, rfl⟩) (fun _ => hz1)
  have hust : Stay c u u.m_s s4 ∧ s4.rho ≤ 600 ∧ (u.rho ≤ 600 → s4 = u) ∧ (600 < u.rho → s4.rho = 600) := by
    rw [e4, ← hu, adj_snow_idle hui (by rw [hu]; exact hz1)]
    by_cases b : u.rho > 600
    · rw [if_pos b]
      have um : u.m_s = p.snow.m_s := by rw [hu]; exact (hst.m_s).trans a1
      rcases adj_layers_cases hc { u with rho := 600, z_s := u.m_s / 600 } with ⟨a, _, _, r, _⟩ | ⟨_, b1 | b1⟩
      · exact ⟨⟨⟨a.melt, a.swi, a.E_s, a.E, a.en⟩, a.m_s, a.h2o, a.h2o_total, a.snowcover, a.h2o_sat, a.h2o_vol, a.h2o_max, a.cc0, a.t_s, a.t_s_0,
          a.z0, a.lower, a.base⟩, le_of_eq r, fun b' => absurd b (not_lt.mpr b'), fun _ => r⟩
      · have b1 : u.m_s ≤ c.small_threshold := b1
        linarith
      · have b1 : u.m_s / 600 ≤ 0 := b1
        have : 0 < u.m_s / 600 := by rw [um]; positivity
        linarith
    · rw [if_neg b]
      exact ⟨Stay.rfl' (by rw [hu]; exact hz1), not_lt.mp b, fun _ => rfl, fun b' => absurd b' b⟩
  obtain ⟨hu1, hu2, hu3, hu4⟩ := hust
  have h4m : s4.melt = 0 := by rw [hu1.melt, hu]
  have h4c : s4.snowcover = true := by rw [hu1.snowcover, hu]; exact hcov
  have h4h : s4.h2o_total = 0 := by rw [hu1.h2o_total, hu]
  have e5 : s5 = s4 := by
    rcases h2o_compact_ok k.hc with ⟨_, e⟩ | ⟨_, _, w, b1, b2⟩
    · exact e
    · have hw : w = 0 := by
        unfold h2oAdded at b1
        rw [if_neg (by rw [hdry]; decide), pdiv_eq_ok, h4m, zero_div] at b1
        exact b1.2
      rcases b2 with ⟨_, e⟩ | ⟨b3, _⟩
      · exact e
      · rw [hw] at b3; norm_num at b3
  have e6 : s6 = { s4 with h2o_max := capacity c s4, swi := 0, h2o := 0, h2o_sat := 0, h2o_vol := 0 } := by
    have hp := hcap s4 k.i4 hu1.z0 h4h hu2
    rcases runoff_ok k.ro with ⟨b | b, _⟩ | ⟨_, _, _, b, _⟩ | ⟨_, _, _, _, _, e⟩
    · rw [e5, h4c] at b; cases b
    · rw [e5] at b
      have := (k.i4.lc_pos_iff hc).mpr hu1.z0
      omega
    · rw [e5, h4h] at b; linarith
    · rw [e, e5, h4h, zero_div, zero_mul]
  have hfin : s6.adjust_layer_temps = .ok p'.snow := by
    rcases k.fin with ⟨_, e⟩ | ⟨e, _⟩
    · exact e
    · rw [e6] at e
      have e : s4.snowcover = false := e
      rw [h4c] at e; cases e
  refine ⟨s6, ⟨k.i6, ?_, ?_, ?_, ?_, ?_, ?_, ?_, ?_, ?_, ?_, ?_, ?_, ?_, ?_, ?_⟩, hfin⟩
  · rw [e6]; exact h4c
  · rw [e6]; exact hu1.z0
  · rw [e6]; show s4.m_s = _; rw [hu1.m_s, hu]; exact hst.m_s.trans a1
  · rw [e6]; show s4.cc_s_0 = _; rw [hu1.cc0, hu]; exact hst.cc0.trans a3
  · rw [e6]; show s4.t_s_0 = _; rw [hu1.t_s_0, hu]; exact ht1.1
  · rw [e6]; show s4.t_s = _; rw [hu1.t_s, hu]; exact ht1.2
  · rw [e6]
  · rw [e6]; exact h4m
  · rw [e6]; show s4.E_s = _; rw [hu1.E_s, hu]
  · rw [e6]
  · rw [e6]; exact hu2
  · intro b
    rw [e6]
    show _ ≤ s4.rho
    have hur : u.rho = s1.rho := by rw [hu]
    by_cases b' : u.rho ≤ 600
    · rw [hu3 b', hur]; linarith
    · rw [hu4 (not_le.mp b')]; exact b
  · intro b
    rw [e6]
    show _ < s4.rho
    have hur : u.rho = s1.rho := by rw [hu]
    by_cases b' : u.rho ≤ 600
    · rw [hu3 b', hur]; have := hd2 (by rw [a2]; exact b); linarith
    · rw [hu4 (not_le.mp b')]; linarith
  · intro b b1
    have hur : u.rho = s1.rho := by rw [hu]
    obtain ⟨l1, l2⟩ := time_compact_law hc hdt (by rw [a2]; exact b) k.tc hcov a11
    rw [a1, a2, a6] at l1
    rw [a1] at l2
    have b' : u.rho ≤ 600 := by rw [hur, l1]; exact b1
    have e := hu3 b'
    rw [e6]
    have er : s4.rho = s1.rho := by rw [e, hur]
    refine ⟨er.trans l1, ?_⟩
    show c.max_z_s_0 < _ / s4.rho → _ ≤ (_ / s4.rho - _) * s4.rho → s4.layer_count = 2
    rw [er, e, hu]
    exact l2
  · intro b b1 b2
    rw [e6] at b b2 ⊢
    have b : s4.rho < 600 := b
    have b2 : s4.layer_count = 2 := b2
    have b3 : u.rho ≤ 600 := by
      by_contra b'
      rw [hu4 (not_le.mp b')] at b
      exact lt_irrefl _ b
    have e := hu3 b3
    have l1 : s1.layer_count = 2 := by rw [e, hu] at b2; exact b2
    show s4.t_s_l = T ∧ s4.cc_s_l = _
    rw [e, hu]
    refine ⟨htl l1, ?_⟩
    rcases hst.lower with ⟨_, q⟩ | ⟨_, q, _⟩ | ⟨q, _⟩
    · exact q.trans a4
    · omega
    · omega

theorem cold_temp {T m cc t : ℝ} (h : new_tsno m T cc = .ok t) (hT : T ≠ FREEZE) {m0 : ℝ} (hc : cc = cp_ice T * m0 * (T - FREEZE)) :
    (FREEZE - t) * m = (FREEZE - T) * m0 := by
  obtain ⟨h1, h2⟩ := new_tsno_ok h
  have a : m ≠ 0 := fun e => h1 (by rw [e, zero_mul])
  have b : cp_ice T ≠ 0 := fun e => h1 (by rw [e, mul_zero])
  rw [h2, hc]
  field_simp
  ring

theorem rest_core {c : Env} (hc : 0 < c.max_z_s_0) (hv : 0 < c.max_h2o_vol) {dt : ℝ} (hdt : 0 < dt) {d : InputData} {p p' : Phys} {T : ℝ}
    (hi : Inv c p.snow) (hr : p.snow.rho ≤ 600) (hm : 0 < p.snow.m_s) (hsm : c.small_threshold < p.snow.m_s) (hT : 0 < T)
    (hs : p.snow.ColdAt T) (h1 : p.snow.layer_count = 1) (hz : p.snow.z_s_0 ≤ c.max_z_s_0)
    (hb : p.input1.Balanced T) (h : stepPhys c dt d p = .ok p') :
    p'.snow.AtRest T p.snow.m_s p.snow.rho ∧ Inv c p'.snow ∧ p'.snow.z_s_0 ≤ p.snow.z_s_0 ∧ (p.snow.rho < 550 → p.snow.rho < p'.snow.rho) := by
  obtain ⟨w, k, e⟩ := settle_chain hc hv hdt hi hm hsm hT hs hb h
  have hz0 : 0 < p.snow.z_s_0 := (hi.lc_pos_iff hc).mp hs.layers
  have hl : p.snow.z_s_l = 0 := by
    rcases hi.zl.eq_or_lt with a | a
    · exact a.symm
    · have := lc_eq_two.mpr ⟨hz0, a⟩; omega
  obtain ⟨hr0, hzz⟩ := inv_rho_pos hi hz0 hm
  have hrw := k.rho hr
  have hw0 := k.z0
  have pw := k.inv.pack hw0
  have pq := hi.pack hz0
  have hpz : p.snow.m_s = p.snow.m_s_0 := by rw [pq.1, pq.2.1, hi.sum, hl, add_zero]
  have e3 : w.rho * w.z_s = p.snow.rho * p.snow.z_s := by rw [← pw.1, ← pq.1, k.m_s]
  have e4 := hi.sum
  rw [hl, add_zero] at e4
  have hzw : w.z_s ≤ p.snow.z_s := by
    by_contra hlt
    have := not_le.mp hlt
    have hwp : 0 < w.rho := lt_of_lt_of_le hr0 hrw
    nlinarith
  have e2 := k.inv.sum
  have hwl : w.z_s_l = 0 := by
    rcases k.inv.zl.eq_or_lt with b | b
    · exact b.symm
    · exfalso
      have e1 := k.inv.full b
      linarith
  have hw1 : w.layer_count = 1 := (k.inv.toL hw0).lc.1 hwl
  obtain ⟨o1, o2, o3⟩ := k.inv.one hwl
  have hm0 : w.m_s_0 = p.snow.m_s := by rw [← k.m_s, pw.1, pw.2.1, e2, hwl, add_zero]
  rcases adjust_ok e with ⟨_, t, ht, e⟩ | ⟨h2, _⟩ | ⟨h2, _⟩ | ⟨h2, _⟩
  · rw [k.t_s_0] at ht
    have hq := cold_temp ht hs.cold.ne (m0 := p.snow.m_s) (by rw [k.cc0, hs.surface_cc, hpz])
    rw [hm0] at hq
    have ht' : t = T := by
      have := mul_right_cancel₀ hm.ne' hq
      linarith
    subst ht'
    rw [e]
    refine ⟨⟨k.cover, hw1, rfl, rfl, k.m_s, ⟨?_, o2⟩, ⟨hrw, k.rho_le⟩, k.h2o, k.melt, k.E_s, k.swi⟩, ?_, ?_, k.denser⟩
    · show w.cc_s_0 = _
      rw [k.cc0, hs.surface_cc, hpz]
    · exact k.inv.frame ⟨rfl, rfl, rfl⟩ ⟨rfl, rfl, rfl, rfl⟩ (fun a => absurd hw0 (not_lt.mpr a)) (fun _ => ⟨rfl, rfl⟩) (fun _ => hw0)
    · show w.z_s_0 ≤ _
      linarith
  · omega
  · omega
  · omega

/-! ## Two layers drift apart -/

theorem drift_core {c : Env} (hc : 0 < c.max_z_s_0) (hv : 0 < c.max_h2o_vol) {dt : ℝ} (hdt : 0 < dt) {d : InputData} {p p' : Phys} {T : ℝ}
    (hi : Inv c p.snow) (hr : p.snow.rho < 550) (hm : 0 < p.snow.m_s) (hsm : c.small_threshold < p.snow.m_s) (hT : 0 < T)
    (hs : p.snow.ColdAt T) (h2 : p.snow.layer_count = 2) (hb : p.input1.Balanced T) (h : stepPhys c dt d p = .ok p')
    (h2' : p'.snow.layer_count = 2) (hr' : p'.snow.rho < 600) :
    (p'.snow.m_s = p.snow.m_s ∧ p'.snow.cc_s_0 = p.snow.cc_s_0 ∧ p'.snow.cc_s_l = p.snow.cc_s_l ∧ p'.snow.melt = 0 ∧ p'.snow.E_s = 0 ∧
      p'.snow.swi = 0) ∧
    p'.snow.t_s = T ∧ (FREEZE - p'.snow.t_s_0) * p'.snow.m_s_0 = (FREEZE - T) * p.snow.m_s_0 ∧
    (FREEZE - p'.snow.t_s_l) * p'.snow.m_s_l = (FREEZE - T) * p.snow.m_s_l ∧
    p'.snow.t_s_l < T ∧ T < p'.snow.t_s_0 ∧ p'.snow.t_s_0 < FREEZE := by
  obtain ⟨w, k, e⟩ := settle_chain hc hv hdt hi hm hsm hT hs hb h
  have hz0 : 0 < p.snow.z_s_0 := (hi.lc_pos_iff hc).mp hs.layers
  have hzl := (lc_eq_two.mp h2).2
  obtain ⟨hr0, hzz⟩ := inv_rho_pos hi hz0 hm
  have hd := k.denser hr
  have hw0 := k.z0
  have pw := k.inv.pack hw0
  have pq := hi.pack hz0
  obtain ⟨sl1, sl2⟩ := hs.lower h2
  have hcp := cp_ice_pos hT.le
  have hcold := hs.cold
  have hm0 : 0 < p.snow.m_s_0 := by rw [pq.2.1]; positivity
  have hml : 0 < p.snow.m_s_l := by rw [pq.2.2]; positivity
  have hneg0 : p.snow.cc_s_0 < 0 := by
    rw [hs.surface_cc]
    exact mul_neg_of_pos_of_neg (mul_pos hcp hm0) (by linarith)
  have hnegl : p.snow.cc_s_l < 0 := by
    rw [sl2]
    exact mul_neg_of_pos_of_neg (mul_pos hcp hml) (by linarith)
  have hsum : p.snow.m_s = p.snow.m_s_0 + p.snow.m_s_l := by rw [pq.1, pq.2.1, pq.2.2, hi.sum]; ring
  have main : ∀ t0 tl t : ℝ, new_tsno w.m_s_0 w.t_s_0 w.cc_s_0 = .ok t0 → new_tsno w.m_s_l w.t_s_l w.cc_s_l = .ok tl →
      new_tsno w.m_s w.t_s (w.cc_s_0 + w.cc_s_l) = .ok t → w.rho < 600 → w.layer_count = 2 →
      t = T ∧ (FREEZE - t0) * w.m_s_0 = (FREEZE - T) * p.snow.m_s_0 ∧ (FREEZE - tl) * w.m_s_l = (FREEZE - T) * p.snow.m_s_l ∧
      tl < T ∧ T < t0 ∧ t0 < FREEZE := by
    intro t0 tl t k0 kl kt kr kl2
    obtain ⟨l1, l2⟩ := k.lower kr h2 kl2
    have hwl := (lc_eq_two.mp kl2).2
    rw [k.t_s_0] at k0
    rw [l1] at kl
    rw [k.t_s] at kt
    have q0 := cold_temp k0 hcold.ne (by rw [k.cc0]; exact hs.surface_cc)
    have ql := cold_temp kl hcold.ne (by rw [l2]; exact sl2)
    have qt := cold_temp kt hcold.ne (m0 := p.snow.m_s) (by rw [k.cc0, l2, hs.surface_cc, sl2, hsum]; ring)
    rw [k.m_s] at qt
    have e1 := k.inv.full hwl
    have e2 := hi.full hzl
    have g0 : w.m_s_0 = w.rho * c.max_z_s_0 := by rw [pw.2.1, e1]
    have g1 : p.snow.m_s_0 = p.snow.rho * c.max_z_s_0 := by rw [pq.2.1, e2]
    have wsum : w.m_s = w.m_s_0 + w.m_s_l := by rw [pw.1, pw.2.1, pw.2.2, k.inv.sum]; ring
    have hlt : p.snow.m_s_0 < w.m_s_0 := by rw [g0, g1]; exact mul_lt_mul_of_pos_right hd hc
    have hwrho : 0 < w.rho := hr0.trans hd
    have hwml : 0 < w.m_s_l := by rw [pw.2.2]; positivity
    have hwm0 : 0 < w.m_s_0 := hm0.trans hlt
    have hlt' : w.m_s_l < p.snow.m_s_l := by have := k.m_s; linarith
    have hF : 0 < FREEZE - T := by linarith
    refine ⟨?_, q0, ql, ?_, ?_, ?_⟩
    · have := mul_right_cancel₀ hm.ne' qt
      linarith
    · by_contra hx
      exact absurd ql (lt_of_le_of_lt (mul_le_mul_of_nonneg_right (show FREEZE - tl ≤ FREEZE - T by linarith only [hx]) hwml.le)
        (mul_lt_mul_of_pos_left hlt' hF)).ne
    · by_contra hx
      exact absurd q0.symm (lt_of_lt_of_le (mul_lt_mul_of_pos_left hlt hF)
        (mul_le_mul_of_nonneg_right (show FREEZE - T ≤ FREEZE - t0 by linarith only [hx]) hwm0.le)).ne
    · by_contra hx
      have e1 : (FREEZE - t0) * w.m_s_0 ≤ 0 := mul_nonpos_of_nonpos_of_nonneg (by linarith only [hx]) hwm0.le
      have e2 : 0 < (FREEZE - T) * p.snow.m_s_0 := mul_pos hF hm0
      rw [q0] at e1
      exact absurd e1 (not_le.mpr e2)
  rcases adjust_ok e with ⟨a1, t, ht, e⟩ | ⟨a1, a2, e⟩ | ⟨a1, a2, t0, tl, t, k0, kl, kt, e⟩ | ⟨a1, e⟩
  · rw [e] at h2'
    have : w.layer_count = 2 := h2'
    omega
  · exfalso
    rw [e] at hr'
    obtain ⟨_, l2⟩ := k.lower hr' h2 a1
    rw [k.cc0, l2] at a2
    linarith
  · rw [e] at hr' ⊢
    obtain ⟨_, l2⟩ := k.lower hr' h2 a1
    exact ⟨⟨k.m_s, k.cc0, l2, k.melt, k.E_s, k.swi⟩, main t0 tl t k0 kl kt hr' a1⟩
  · rw [e] at h2'
    omega

/-! ## Theorems -/

/-- C102, run step: when a two-layer pack of one temperature `T` below freezing lies in balance with its surroundings – calm, dry air,
ground of the same temperature, as much radiation gained as emitted – for a run step that leaves it in two layers, nothing is exchanged:
its mass, the cold contents of both layers and its mean temperature stay.  The pack becomes denser, though, so that the surface
layer, whose depth is fixed, takes up mass from the layer below; the cold contents stay with the layers, hence the surface layer
ends the step warmer than `T` and the lower layer colder, each in inverse proportion to its mass. -/
theorem C102_settling_separates_step (g : Config) (hg : g.Tiled) (hmax : 0 < g.max_active) (hv : 0 < g.max_h2o) (rows : List Rec)
    (ls : List (List (RStep Phys))) (m : Model) (h : RunTrace g rows ls m) :
    ∀ l ∈ ls, ∀ x ∈ l, ∀ T, 0 < T → g.small_threshold < x.pre.snow.m_s → 0 < x.pre.snow.m_s → x.pre.snow.ColdAt T → x.pre.snow.rho < 550 →
      x.pre.input1.Balanced T → x.pre.snow.layer_count = 2 → x.post.snow.layer_count = 2 → x.post.snow.rho < 600 →
      (x.post.snow.m_s = x.pre.snow.m_s ∧ x.post.snow.cc_s_0 = x.pre.snow.cc_s_0 ∧ x.post.snow.cc_s_l = x.pre.snow.cc_s_l ∧
        x.post.snow.melt = 0 ∧ x.post.snow.E_s = 0 ∧ x.post.snow.swi = 0) ∧
      x.post.snow.t_s = T ∧ (FREEZE - x.post.snow.t_s_0) * x.post.snow.m_s_0 = (FREEZE - T) * x.pre.snow.m_s_0 ∧
      (FREEZE - x.post.snow.t_s_l) * x.post.snow.m_s_l = (FREEZE - T) * x.pre.snow.m_s_l ∧
      x.post.snow.t_s_l < T ∧ T < x.post.snow.t_s_0 ∧ x.post.snow.t_s_0 < FREEZE := by
  obtain ⟨c, ts, hc, hts, hm, hx⟩ := trace_step hmax h
  obtain ⟨_, q2, q3, _⟩ := mkEnv_ok hc
  have ht := parse_tile hg hts
  intro l hl x hxl T hT hsm hmm hs hr hb h2 h2' hr'
  obtain ⟨d, h1, _, h3⟩ := hx l hl x hxl
  exact drift_core hm (by rw [q3]; exact hv) (ht.step_pos _) h1 hr hmm (by rw [q2]; exact hsm) hT hs h2 hb h3 h2' hr'

/-- C102, run step: in one layer, no thicker than the active layer, the same pack keeps its temperature, mass and cold content; it only settles. -/
theorem C102_equilibrium_step (g : Config) (hg : g.Tiled) (hmax : 0 < g.max_active) (hv : 0 < g.max_h2o) (rows : List Rec)
    (ls : List (List (RStep Phys))) (m : Model) (h : RunTrace g rows ls m) :
    ∀ l ∈ ls, ∀ x ∈ l, ∀ T, 0 < T → g.small_threshold < x.pre.snow.m_s → 0 < x.pre.snow.m_s → x.pre.snow.ColdAt T → x.pre.snow.rho ≤ 600 →
      x.pre.input1.Balanced T → x.pre.snow.layer_count = 1 → x.pre.snow.z_s_0 ≤ g.max_active →
      x.post.snow.AtRest T x.pre.snow.m_s x.pre.snow.rho ∧ x.post.snow.z_s_0 ≤ x.pre.snow.z_s_0 ∧
      (x.pre.snow.rho < 550 → x.pre.snow.rho < x.post.snow.rho) := by
  obtain ⟨c, ts, hc, hts, hm, hx⟩ := trace_step hmax h
  obtain ⟨q1, q2, q3, _⟩ := mkEnv_ok hc
  have ht := parse_tile hg hts
  intro l hl x hxl T hT hsm hmm hs hr hb h1 hz
  obtain ⟨d, hi, _, h3⟩ := hx l hl x hxl
  obtain ⟨a, _, b, e⟩ := rest_core hm (by rw [q3]; exact hv) (ht.step_pos _) hi hr hmm (by rw [q2]; exact hsm) hT hs h1 (by rw [q1]; exact hz) hb h3
  exact ⟨a, b, e⟩

/-- Increments that keep the balance. -/
structure InputData.KeepsBalance (d : InputData) : Prop where
  calm : d.u = 0
  ground : d.t_g = 0
  net : d.S_n + 0.98 * d.I_lw = 0

theorem InputData.Balanced.add {T : ℝ} {i d : InputData} (h : i.Balanced T) (hd : d.KeepsBalance) : (i.add_deltas d).Balanced T := by
  refine ⟨?_, h.dry, ?_, ?_⟩
  · show i.u + d.u = 0
    rw [h.calm, hd.calm, add_zero]
  · show i.t_g + d.t_g = T
    rw [h.ground, hd.ground, add_zero]
  · show (i.S_n + d.S_n) + 0.98 * ((i.I_lw + d.I_lw) - STEF_BOLTZ * T ^ 4) = 0
    linear_combination h.net + hd.net

theorem new_balanced {T : ℝ} {r : Rec} {i : InputData} (hr : r.Balanced T) (h : InputData.new r = .ok i) : i.Balanced T := by
  obtain ⟨rfl, _⟩ := new_ok h
  exact ⟨hr.calm, decide_eq_false (not_lt.mpr hr.dry), hr.ground, hr.net⟩

theorem delta_balanced {T : ℝ} {i1 i2 d : InputData} {t : TstepInfo} (h1 : i1.Balanced T) (h2 : i2.Balanced T) (h : deltaFor i1 i2 t = .ok d) :
    d.KeepsBalance := by
  obtain ⟨hn, rfl⟩ := deltaFor_ok h
  refine ⟨?_, ?_, ?_⟩
  · show (i2.u - i1.u) / _ = 0
    rw [h1.calm, h2.calm, sub_self, zero_div]
  · show (i2.t_g - i1.t_g) / _ = 0
    rw [h1.ground, h2.ground, sub_self, zero_div]
  · show (i2.S_n - i1.S_n) / _ + 0.98 * ((i2.I_lw - i1.I_lw) / _) = 0
    field_simp
    linear_combination h2.net - h1.net

/-- A configuration whose initial pack is dry, of the temperature `T` below freezing throughout, no denser than 600 kg/m³, heavier than
the smallest threshold and contained in the active layer. -/
structure Config.StartsAtRest (g : Config) (T : ℝ) : Prop where
  snowy : g.StartsSnowy
  cold : 0 < T ∧ T < FREEZE
  surface : g.init_t_s_0 = T
  mean : g.init_t_s = T
  dry : g.init_h2o_sat = 0
  rho : 0 < g.init_rho ∧ g.init_rho ≤ 600
  shallow : g.init_z_s ≤ g.max_active

/-- The state between run steps. -/
structure RestState (c : Env) (g : Config) (T : ℝ) (s : Snow) : Prop where
  inv : Inv c s
  layers : s.layer_count = 1
  surface : s.t_s_0 = T
  mean : s.t_s = T
  m_s : s.m_s = g.init_rho * g.init_z_s
  cc : s.cc_s_0 = cp_ice T * (g.init_rho * g.init_z_s) * (T - FREEZE)
  rho : g.init_rho ≤ s.rho ∧ s.rho ≤ 600
  water : s.h2o = 0
  depth : s.z_s_0 ≤ c.max_z_s_0

theorem rest_rule {c : Env} {g : Config} {ts : Tsteps} {T : ℝ} (hc : mkEnv g = .ok c) (hmax : 0 < g.max_active) (hv : 0 < g.max_h2o) (ht : TileOK ts)
    (hs : g.StartsAtRest T) :
    RunRule c ts (fun r => r.Balanced T) (fun i p => RestState c g T p.snow ∧ p.input1.Balanced T ∧ i.Balanced T) (fun _ d => d.KeepsBalance)
      (fun s => s.AtRest T (g.init_rho * g.init_z_s) g.init_rho) where
  record := fun _ _ _ _ hr hn h => ⟨h.1, new_balanced hr hn, new_balanced hr hn⟩
  delta := fun _ _ _ _ _ _ h1 h2 n1 n2 h => delta_balanced (new_balanced h1 n1) (new_balanced h2 n2) h
  enter := fun i d p _ h hp => by rw [h.2.1.dry] at hp; cases hp
  step := by
    intro lv i d p p' hd ⟨hq, hb, hbi⟩ h
    obtain ⟨q1, q2, q3, _⟩ := mkEnv_ok hc
    have hm : 0 < c.max_z_s_0 := by rw [q1]; exact hmax
    have hz0 : 0 < p.snow.z_s_0 := (hq.inv.lc_pos_iff hm).mp (by rw [hq.layers]; exact Nat.one_pos)
    have hl : p.snow.z_s_l = 0 := by
      rcases hq.inv.zl.eq_or_lt with a | a
      · exact a.symm
      · have := lc_eq_two.mpr ⟨hz0, a⟩; have := hq.layers; omega
    have hp := hq.inv.pack hz0
    have hm0 : p.snow.m_s_0 = g.init_rho * g.init_z_s := by rw [← hq.m_s, hp.1, hp.2.1, hq.inv.sum, hl, add_zero]
    have hc' : p.snow.ColdAt T :=
      ⟨hs.cold.2, by rw [hq.layers]; exact Nat.one_pos, hq.water, hq.surface, hq.mean, by rw [hq.cc, hm0], fun h2 => by have := hq.layers; omega⟩
    obtain ⟨a, b, e, _⟩ := rest_core hm (by rw [q3]; exact hv) (ht.step_pos lv) hq.inv hq.rho.2 (by rw [hq.m_s]; exact mul_pos hs.rho.1 hs.snowy.2)
      (by rw [q2, hq.m_s]; exact hs.snowy.1) hs.cold.1 hc' hq.layers hq.depth hb h
    rw [hq.m_s] at a
    refine ⟨⟨a.cover, a.layers, a.surface, a.mean, a.m_s, a.cc_s, ⟨hq.rho.1.trans a.rho.1, a.rho.2⟩, a.water, a.melt, a.vapour, a.outflow⟩,
      ⟨b, a.layers, a.surface, a.mean, a.m_s, a.cc_s.1, ⟨hq.rho.1.trans a.rho.1, a.rho.2⟩, a.water, e.trans hq.depth⟩, ?_, hbi⟩
    have hin : p'.input1.Balanced T := by
      have e1 := (stepPhys_input h).1
      have e2 : applied d p.input1 = p.input1 := by unfold applied; rw [if_neg (by rw [hb.dry]; decide)]
      rw [e2] at e1
      rw [e1]
      exact ⟨hb.calm, hb.dry, hb.ground, hb.net⟩
    exact hin.add hd
  idle := .inl ht

theorem rest_start {c : Env} {g : Config} {T : ℝ} (hc : mkEnv g = .ok c) (hmax : 0 < g.max_active) (hs : g.StartsAtRest T) {s : Snow}
    (h : init_snow c (recordSnow g) = .ok s) : RestState c g T s := by
  have p := start_layers hc hmax hs.snowy h
  have q1 := (mkEnv_ok hc).1
  have hm : 0 < c.max_z_s_0 := by rw [q1]; exact hmax
  have hd : ¬ g.StartsDeep := by
    intro hd
    have := hd.1
    linarith [hs.shallow]
  have e0 : s.z_s_0 = g.init_z_s := by rw [p.z_s_0, if_neg hd]
  have em : s.m_s_0 = g.init_rho * g.init_z_s := by rw [p.m_s_0, e0]
  refine ⟨init_snow_inv hm h rfl, by rw [p.layers, if_neg hd], by rw [p.t_s_0, hs.surface], by rw [p.t_s, hs.mean], p.m_s, ?_, ?_, ?_, ?_⟩
  · rw [p.cc_s_0, em, hs.surface]
    unfold coldAt
    rw [if_pos hs.cold.2]
  · rw [p.rho]; exact ⟨le_refl _, hs.rho.2⟩
  · rw [p.h2o, hs.dry, zero_mul]
  · rw [e0, q1]; exact hs.shallow

/-- C102, runs: a run of any length that starts with a dry pack of one temperature `T` below freezing, contained in the active layer, and
whose every record is calm and dry, with ground of that temperature and as much radiation gained as the surface emits, leaves the pack at
rest: after every run step, in every output record and at the end it is one layer of that temperature, of the initial mass
and cold content and at least the initial density, and no run step melts, exchanges or releases any water. -/
theorem C102_equilibrium_run (g : Config) (hg : g.Tiled) (hmax : 0 < g.max_active) (hv : 0 < g.max_h2o) (T : ℝ) (hs : g.StartsAtRest T)
    (rows : List Rec) (hrows : ∀ r ∈ rows, r.Balanced T) (ls : List (List (RStep Phys))) (m : Model) (h : RunTrace g rows ls m) :
    (∀ l ∈ ls, ∀ x ∈ l, x.post.snow.AtRest T (g.init_rho * g.init_z_s) g.init_rho) ∧
    (∀ r ∈ m.output_list, r.layer_count = 1 ∧ r.t_s_0 = T ∧ r.t_s = T ∧ r.m_s = g.init_rho * g.init_z_s ∧
      r.cc_s = cp_ice T * (g.init_rho * g.init_z_s) * (T - FREEZE) ∧ r.h2o = 0 ∧ g.init_rho ≤ r.rho ∧ r.rho ≤ 600) ∧
    (m.phys.snow.layer_count = 1 ∧ m.phys.snow.t_s_0 = T ∧ m.phys.snow.t_s = T ∧ m.phys.snow.m_s = g.init_rho * g.init_z_s ∧
      m.phys.snow.h2o = 0 ∧ g.init_rho ≤ m.phys.snow.rho) := by
  obtain ⟨c, ts, hc, hts⟩ := simulate_parts h.simulate
  have ht := parse_tile hg hts
  have R := rest_rule hc hmax hv ht hs
  have h0 : ∀ r i s, Rec.Balanced T r → InputData.new r = .ok i → init_snow c (recordSnow g) = .ok s →
      RestState c g T s ∧ i.Balanced T ∧ i.Balanced T :=
    fun r i s hr hn hi => ⟨rest_start hc hmax hs hi, new_balanced hr hn, new_balanced hr hn⟩
  obtain ⟨⟨i, hI⟩, hO⟩ := RunRule.simulate hc hts R h0 hrows h.simulate
  refine ⟨fun l hl x hx => ?_, fun r hr => ?_, hI.1.layers, hI.1.surface, hI.1.mean, hI.1.m_s, hI.1.water, hI.1.rho.1⟩
  · obtain ⟨_, _, _, _, ho, _⟩ := RunRule.trace hc hts R h0 hrows h l hl x hx
    exact ho
  · obtain ⟨s, a, t, k, e⟩ := hO r hr
    obtain ⟨e1, e2, e3, e4, e5, e6, e7, e8, e9, e10, e11, e12, e13, e14, e15, e16, _⟩ := snapshot_snow e
    rw [e1, e2, e4, e7, e8, e15, e16]
    refine ⟨k.layers, k.surface, k.mean, k.m_s, ?_, k.water, k.rho⟩
    rw [k.cc_s.1, k.cc_s.2, add_zero]

end

end Pysnobal
