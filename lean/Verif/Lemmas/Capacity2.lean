import Verif.Lemmas.Memory
import Verif.Props.Modes

/-! # What a run step does with the variables that only report the retention capacity -/

namespace Pysnobal

noncomputable section

/-- The same environment with the retention capacity (fraction of the pore space) replaced. -/
def Env.hold (v : ℝ) (c : Env) : Env := { c with max_h2o_vol := v }

/-- The variables that report the capacity replaced. -/
def Snow.cap (x y z : ℝ) (s : Snow) : Snow := { s with h2o_sat := x, h2o_max := y, h2o_vol := z }

/-- The same snow except for the saturation, the capacity and the water content per volume. -/
def SameCap (s t : Snow) : Prop := ∃ x y z, t = s.cap x y z

theorem SameCap.refl (s : Snow) : SameCap s s := ⟨s.h2o_sat, s.h2o_max, s.h2o_vol, rfl⟩

theorem RelE.ok {σ τ : Type} {R : σ → τ → Prop} {a : σ} {b : τ} (h : R a b) : RelE R (.ok a) (.ok b) := h

theorem RelE.of_ok {σ τ : Type} {R : σ → τ → Prop} {a : σ} {y : Except Err τ} (h : RelE R (.ok a) y) :
    ∃ b, y = .ok b ∧ R a b := by
  cases y with
  | error e => exact h.elim
  | ok b => exact ⟨b, rfl, h⟩

/-- Binding the same computation on both sides. -/
theorem RelE.same {σ τ υ : Type} {R : σ → τ → Prop} (x : Except Err υ) {f : υ → Except Err σ} {k : υ → Except Err τ}
    (hf : ∀ a, RelE R (f a) (k a)) : RelE R (x >>= f) (x >>= k) := by
  cases x with
  | error e => exact rfl
  | ok a => exact hf a

theorem cap_calc (x y z : ℝ) (c : Env) (s : Snow) : (s.cap x y z).calc_layers c = (s.calc_layers c).cap x y z := by
  unfold Snow.calc_layers Snow.cap
  dsimp only
  split_ifs <;> rfl

theorem cap_adj_layers (x y z : ℝ) (c : Env) (s : Snow) : SameCap (adj_layers c s) (adj_layers c (s.cap x y z)) := by
  unfold adj_layers
  simp only [cap_calc]
  rw [show (s.cap x y z).layer_count = s.layer_count from rfl]
  generalize s.calc_layers c = t
  unfold Snow.cap Snow.layer_mass Snow.layer_count
  dsimp only
  split_ifs <;> first | exact ⟨0, 0, 0, rfl⟩ | exact ⟨x, y, z, rfl⟩

theorem cap_adj_snow (x y z : ℝ) (c : Env) (dz dm : ℝ) (s : Snow) :
    SameCap (adj_snow c dz dm s) (adj_snow c dz dm (s.cap x y z)) := by
  unfold adj_snow
  by_cases h : (if s.z_s + dz ≠ 0 then (s.m_s + dm) / (s.z_s + dz) else 0) > MAX_SNOW_DENSITY
  · have e := cap_adj_layers x y z c { s with m_s := s.m_s + dm, rho := MAX_SNOW_DENSITY, z_s := (s.m_s + dm) / MAX_SNOW_DENSITY }
    obtain ⟨x', y', z', e⟩ := e
    exact ⟨x', y', z', (if_pos h).trans (e.trans (congrArg (Snow.cap x' y' z') (if_pos h).symm))⟩
  · by_cases h' : dz ≠ 0
    · obtain ⟨x', y', z', e⟩ := cap_adj_layers x y z c { s with m_s := s.m_s + dm, z_s := s.z_s + dz, rho := if s.z_s + dz ≠ 0 then (s.m_s + dm) / (s.z_s + dz) else 0 }
      exact ⟨x', y', z', (if_neg h).trans ((if_pos h').trans (e.trans (congrArg (Snow.cap x' y' z') ((if_neg h).trans (if_pos h')).symm)))⟩
    · refine ⟨x, y, z, (if_neg h).trans ((if_neg h').trans ?_)⟩
      rw [if_neg h, if_neg h']
      rfl

theorem adj_snow_hold (v : ℝ) (c : Env) (dz dm : ℝ) (s : Snow) : adj_snow (c.hold v) dz dm s = adj_snow c dz dm s := rfl

theorem cap_time_compact (v x y z : ℝ) (c : Env) (dt : ℝ) (s : Snow) :
    RelE SameCap (time_compact c dt s) (time_compact (c.hold v) dt (s.cap x y z)) := by
  unfold time_compact
  by_cases h : s.snowcover = false ∨ s.rho ≥ RHO_MAX
  · rw [if_pos h, if_pos (show (s.cap x y z).snowcover = false ∨ (s.cap x y z).rho ≥ RHO_MAX from h)]
    exact ⟨x, y, z, rfl⟩
  · rw [if_neg h, if_neg (show ¬ ((s.cap x y z).snowcover = false ∨ (s.cap x y z).rho ≥ RHO_MAX) from h)]
    refine RelE.same (compactRate dt s) fun r => ?_
    refine RelE.same (pdiv (0.01 * (if s.rho < 100 then 1 else Real.exp (-0.046 * (s.rho - 100))) * Real.exp (-0.04 * (FREEZE - s.t_s))) r) fun a => ?_
    refine RelE.same (pdiv (0.026 * Real.exp (-0.08 * (FREEZE - s.t_s)) * s.m_s * Real.exp (-21 * (s.rho / RHO_W0))) r) fun b => ?_
    refine RelE.same (pdiv s.m_s (s.rho + (a + b) * s.rho)) fun d => ?_
    exact cap_adj_layers x y z c { s with rho := s.rho + (a + b) * s.rho, z_s := d }

theorem cap_initLayers (v x y z : ℝ) (c : Env) (s : Snow) (h : s.h2o_sat = 0) (hx : x = 0) :
    RelE SameCap (initLayers c s) (initLayers (c.hold v) (s.cap x y z)) := by
  unfold initLayers
  by_cases h0 : s.layer_count = 0
  · rw [if_pos h0, if_pos (show (s.cap x y z).layer_count = 0 from h0)]
    exact ⟨0, 0, 0, rfl⟩
  · rw [if_neg h0, if_neg (show ¬ (s.cap x y z).layer_count = 0 from h0)]
    rw [initWater_eq, initWater_eq]
    have e1 : (initCold s).h2o_sat = 0 := h
    have e2 : (initCold (s.cap x y z)).h2o_sat = 0 := hx
    have e3 : (initCold (s.cap x y z)).rho = (initCold s).rho := rfl
    have e4 : (initCold (s.cap x y z)).z_s = (initCold s).z_s := rfl
    rw [e1, e2, e3, e4]
    simp only [zero_mul, zero_div, sub_zero]
    rw [pdiv_of_ne (by norm_num)]
    exact ⟨0, _, _, by unfold Snow.cap initCold; rfl⟩

theorem cap_init (v x y z : ℝ) (c : Env) (s : Snow) (h : s.h2o_sat = 0) (hx : x = 0) :
    RelE SameCap (init_snow c s) (init_snow (c.hold v) (s.cap x y z)) := by
  unfold init_snow
  have e : (Snow.calc_layers (c.hold v) { s.cap x y z with m_s := (s.cap x y z).rho * (s.cap x y z).z_s }) =
      (Snow.calc_layers c { s with m_s := s.rho * s.z_s }).cap x y z := cap_calc x y z c { s with m_s := s.rho * s.z_s }
  rw [e]
  have e' : (Snow.calc_layers c { s with m_s := s.rho * s.z_s }).h2o_sat = 0 := by
    unfold Snow.calc_layers
    dsimp only
    split_ifs <;> exact h
  exact cap_initLayers v x y z c _ e' hx

theorem cap_precip (v x y z : ℝ) (c : Env) (i : InputData) (s : Snow) (h : i.precip_now = true → i.h2o_sat_snow = 0) :
    RelE SameCap (precip_event c i s) (precip_event (c.hold v) i (s.cap x y z)) := by
  unfold precip_event
  by_cases hp : i.precip_now = true
  · rw [if_pos hp, if_pos hp]
    have h0 := h hp
    rw [show (s.cap x y z).snowcover = s.snowcover from rfl]
    cases hc : s.snowcover with
    | true =>
      simp only [if_true, pure_ok, bind_ok]
      obtain ⟨x', y', z', e⟩ := cap_adj_snow x y z c i.z_snow i.m_pp s
      rw [show adj_snow (c.hold v) i.z_snow i.m_pp (s.cap x y z) = adj_snow c i.z_snow i.m_pp (s.cap x y z) from rfl, e, h0]
      simp only [zero_mul]
      exact ⟨x', y', z', rfl⟩
    | false =>
      simp only [Bool.false_eq_true, if_false]
      by_cases hm : i.m_snow > 0
      · rw [if_pos hm, if_pos hm]
        have := cap_init v i.h2o_sat_snow y z c { s with z_s := i.z_snow, rho := i.rho_snow, t_s := i.t_snow, t_s_0 := i.t_snow, t_s_l := i.t_snow, h2o_sat := i.h2o_sat_snow, snowcover := false } h0 h0
        have e : ({ s.cap x y z with z_s := i.z_snow, rho := i.rho_snow, t_s := i.t_snow, t_s_0 := i.t_snow, t_s_l := i.t_snow, h2o_sat := i.h2o_sat_snow, snowcover := false } : Snow) =
          Snow.cap i.h2o_sat_snow y z { s with z_s := i.z_snow, rho := i.rho_snow, t_s := i.t_snow, t_s_0 := i.t_snow, t_s_l := i.t_snow, h2o_sat := i.h2o_sat_snow, snowcover := false } := rfl
        rw [← e] at this
        refine RelE.bind this ?_
        rintro a b ⟨x', y', z', rfl⟩
        exact ⟨x', y', z', rfl⟩
      · rw [if_neg hm, if_neg hm]
        exact ⟨x, y, z, rfl⟩
  · rw [if_neg hp, if_neg hp]
    exact ⟨x, y, z, rfl⟩

theorem cap_meltLayers (x y z dt : ℝ) (s : Snow) : meltLayers dt (s.cap x y z) = (meltLayers dt s).cap x y z := by
  unfold meltLayers
  have e1 : meltQ0 dt (s.cap x y z) = meltQ0 dt s := rfl
  have e2 : meltQl dt (s.cap x y z) = meltQl dt s := rfl
  rw [e1, e2]
  unfold Snow.cap Snow.layer_count
  dsimp only
  split_ifs <;> rfl

theorem cap_refreezeSurf (x y z q : ℝ) (s : Snow) :
    refreezeSurf q (s.cap x y z) = (refreezeSurf q s).map (fun w => (w.1.cap x y z, w.2)) := by
  unfold refreezeSurf
  by_cases h : s.cc_s_0 < 0 ∧ s.h2o_total > 0
  · refine (if_pos h).trans ?_
    rw [if_pos h]
    show (pdiv s.z_s_0 s.z_s >>= _) = _
    cases pdiv s.z_s_0 s.z_s with
    | error e => rfl
    | ok f =>
      simp only [bind_ok]
      by_cases h' : q + s.h2o_total * f * lh_fus FREEZE ≤ 0
      · exact (if_pos h').trans (by rw [if_pos h']; rfl)
      · exact (if_neg h').trans (by rw [if_neg h']; rfl)
  · exact (if_neg h).trans (by rw [if_neg h]; rfl)

theorem cap_refreezeLower (x y z q : ℝ) (s : Snow) (r : ℝ) :
    refreezeLower q (s.cap x y z) r = (refreezeLower q s r).map (fun w => (w.1.cap x y z, w.2)) := by
  unfold refreezeLower
  by_cases h : (s.layer_count = 2 ∧ s.cc_s_l < 0) ∧ s.h2o_total > 0
  · refine (if_pos h).trans ?_
    rw [if_pos h]
    show (pdiv s.z_s_l s.z_s >>= _) = _
    cases pdiv s.z_s_l s.z_s with
    | error e => rfl
    | ok f =>
      simp only [bind_ok]
      by_cases h' : q + s.h2o_total * f * lh_fus FREEZE ≤ 0
      · exact (if_pos h').trans (by rw [if_pos h']; rfl)
      · exact (if_neg h').trans (by rw [if_neg h']; rfl)
  · exact (if_neg h).trans (by rw [if_neg h]; rfl)

theorem cap_refreezeSnap (x y z : ℝ) (s : Snow) (r : ℝ) :
    refreezeSnap (s.cap x y z) r = (refreezeSnap s r).cap x y z := by
  unfold refreezeSnap
  by_cases h : |s.h2o_total - r| ≤ 1e-8
  · exact (if_pos h).trans (by rw [if_pos h]; rfl)
  · exact (if_neg h).trans (by rw [if_neg h]; rfl)

theorem cap_snowmelt (v x y z : ℝ) (c : Env) (dt : ℝ) (s : Snow) :
    RelE SameCap (snowmelt c dt s) (snowmelt (c.hold v) dt (s.cap x y z)) := by
  unfold snowmelt
  by_cases h : s.snowcover = false
  · rw [if_pos h, if_pos (show (s.cap x y z).snowcover = false from h)]
    exact ⟨x, y, z, rfl⟩
  · rw [if_neg h, if_neg (show ¬ (s.cap x y z).snowcover = false from h)]
    have e1 : meltQ0 dt (s.cap x y z) = meltQ0 dt s := rfl
    have e2 : meltQl dt (s.cap x y z) = meltQl dt s := rfl
    simp only [e1, e2, cap_meltLayers, cap_refreezeSurf]
    cases refreezeSurf (meltQ0 dt s) (meltLayers dt s) with
    | error e => exact rfl
    | ok w =>
      obtain ⟨s1, r1⟩ := w
      simp only [Except.map, bind_ok, cap_refreezeLower]
      cases refreezeLower (meltQl dt s) s1 r1 with
      | error e => exact rfl
      | ok w =>
        obtain ⟨s2, r2⟩ := w
        simp only [bind_ok, cap_refreezeSnap]
        generalize refreezeSnap s2 r2 = t
        by_cases h' : t.melt > 0
        · rw [if_pos h', if_pos (show (t.cap x y z).melt > 0 from h')]
          refine RelE.same (pdiv (-1 * t.melt) t.rho) fun q => ?_
          exact cap_adj_snow x y z c q 0 t
        · rw [if_neg h', if_neg (show ¬ (t.cap x y z).melt > 0 from h')]
          exact ⟨x, y, z, rfl⟩

theorem cap_evap (v x y z : ℝ) (c : Env) (i : InputData) (dt : ℝ) (s : Snow) :
    RelE SameCap (evap_cond c i dt s) (evap_cond (c.hold v) i dt (s.cap x y z)) := by
  unfold evap_cond
  by_cases h : s.snowcover = false
  · rw [if_pos h, if_pos (show (s.cap x y z).snowcover = false from h)]
    exact ⟨x, y, z, rfl⟩
  · rw [if_neg h, if_neg (show ¬ (s.cap x y z).snowcover = false from h)]
    dsimp only
    by_cases h0 : s.layer_count = 0
    · have h1 : ¬ s.layer_count > 0 := by omega
      rw [if_pos (by exact h0), if_pos (by exact h0)]
      simp only [pure_ok, bind_ok]
      rw [if_neg (by exact h1), if_neg (by exact h1)]
      exact ⟨x, y, z, rfl⟩
    · have h1 : s.layer_count > 0 := by omega
      rw [if_neg (by exact h0), if_neg (by exact h0)]
      have e1 : soilEvap (c.hold v) i dt { s.cap x y z with h2o_total := evapH2o (s.cap x y z).h2o_total ((s.cap x y z).E * dt) } =
        soilEvap c i dt { s with h2o_total := evapH2o s.h2o_total (s.E * dt) } := rfl
      rw [e1]
      cases soilEvap c i dt { s with h2o_total := evapH2o s.h2o_total (s.E * dt) } with
      | error e => exact rfl
      | ok w =>
        simp only [pure_ok, bind_ok]
        rw [if_pos (by exact h1), if_pos (by exact h1)]
        refine RelE.same (pdiv (s.E * dt + w + s.h2o_total - evapH2o (evapH2o s.h2o_total (s.E * dt)) w) s.rho) fun q => ?_
        rw [adj_snow_hold]
        exact cap_adj_snow x y z c (q / 2) (s.E * dt + w)
            { s with h2o_total := evapH2o (evapH2o s.h2o_total (s.E * dt)) w, E_s := s.E * dt + w }

theorem cap_compact (v x y z : ℝ) (c : Env) (i : InputData) (s : Snow) :
    RelE SameCap (h2o_compact c i s) (h2o_compact (c.hold v) i (s.cap x y z)) := by
  unfold h2o_compact
  by_cases h : s.snowcover = false ∨ s.rho > 550
  · rw [if_pos h, if_pos (show (s.cap x y z).snowcover = false ∨ (s.cap x y z).rho > 550 from h)]
    exact ⟨x, y, z, rfl⟩
  · rw [if_neg h, if_neg (show ¬ ((s.cap x y z).snowcover = false ∨ (s.cap x y z).rho > 550) from h)]
    refine RelE.same (h2oAdded i s) fun w => ?_
    by_cases h' : w > 0.000001
    · rw [if_pos h', if_pos h']
      refine RelE.same (pdiv 0.4 w) fun b => ?_
      refine RelE.same (pdiv (550 - s.rho) (1 + b)) fun q => ?_
      refine RelE.same (pdiv s.m_s (s.rho + q)) fun d => ?_
      exact cap_adj_layers x y z c { s with rho := s.rho + q, z_s := d }
    · rw [if_neg h', if_neg h']
      exact ⟨x, y, z, rfl⟩

/-- The routines of the mass balance before the runoff. -/
def beforeRunoff (c : Env) (i : InputData) (dt : ℝ) (s : Snow) : Except Err Snow := do
  let s ← time_compact c dt s
  let s ← precip_event c i s
  let s ← snowmelt c dt s
  let s ← evap_cond c i dt s
  h2o_compact c i s

theorem cap_beforeRunoff (v : ℝ) (c : Env) (i : InputData) (dt : ℝ) {s t : Snow} (hs : SameCap s t)
    (h : i.precip_now = true → i.h2o_sat_snow = 0) :
    RelE SameCap (beforeRunoff c i dt s) (beforeRunoff (c.hold v) i dt t) := by
  obtain ⟨x, y, z, rfl⟩ := hs
  unfold beforeRunoff
  refine RelE.bind (cap_time_compact v x y z c dt s) ?_
  rintro s _ ⟨x, y, z, rfl⟩
  refine RelE.bind (cap_precip v x y z c i s h) ?_
  rintro s _ ⟨x, y, z, rfl⟩
  refine RelE.bind (cap_snowmelt v x y z c dt s) ?_
  rintro s _ ⟨x, y, z, rfl⟩
  refine RelE.bind (cap_evap v x y z c i dt s) ?_
  rintro s _ ⟨x, y, z, rfl⟩
  exact cap_compact v x y z c i s

theorem cap_adjust (x y z : ℝ) (s : Snow) : RelE SameCap s.adjust_layer_temps (s.cap x y z).adjust_layer_temps := by
  unfold Snow.adjust_layer_temps
  rw [show (s.cap x y z).layer_count = s.layer_count from rfl]
  by_cases h1 : s.layer_count = 1
  · rw [if_pos h1, if_pos h1]
    exact RelE.same (new_tsno s.m_s_0 s.t_s_0 s.cc_s_0) fun t => ⟨x, y, z, rfl⟩
  · rw [if_neg h1, if_neg h1]
    by_cases h2 : s.layer_count = 2
    · rw [if_pos h2, if_pos h2]
      by_cases h3 : s.isothermal
      · rw [if_pos h3, if_pos (show (s.cap x y z).isothermal from h3)]
        exact ⟨x, y, z, rfl⟩
      · rw [if_neg h3, if_neg (show ¬ (s.cap x y z).isothermal from h3)]
        refine RelE.same (new_tsno s.m_s_0 s.t_s_0 s.cc_s_0) fun t0 => ?_
        refine RelE.same (new_tsno s.m_s_l s.t_s_l s.cc_s_l) fun tl => ?_
        exact RelE.same (new_tsno s.m_s s.t_s s.cc_s) fun t => ⟨x, y, z, rfl⟩
    · rw [if_neg h2, if_neg h2]
      exact ⟨x, y, z, rfl⟩

/-- Physical states that agree except for the variables that report the capacity. -/
def SameCapP (p q : Phys) : Prop :=
  SameCap p.snow q.snow ∧ q.input1 = p.input1 ∧ q.init_ustar = p.init_ustar ∧ q.init_factor = p.init_factor

theorem cap_h_le (v x y z : ℝ) (c : Env) (p : Phys) : h_le (c.hold v) { p with snow := p.snow.cap x y z } =
    (h_le c p).map fun w => (w.1, { w.2 with snow := w.2.snow.cap x y z }) := by
  unfold h_le
  dsimp only
  cases p.input1.sat_vp with
  | error e => rfl
  | ok u =>
    simp only [bind_ok]
    show (p.snow.e_s_0 >>= _) = _
    cases p.snow.e_s_0 with
    | error e => rfl
    | ok es =>
      simp only [bind_ok]
      show (hle1 { press := c.P_a, air_temp := (if p.input1.e_a > u then { p.input1 with e_a := u } else p.input1).t_a, surface_temp := p.snow.t_s_0, za := (if c.relative_hts = true then c.z_t else c.z_t - p.snow.z_s), ea := (if p.input1.e_a > u then { p.input1 with e_a := u } else p.input1).e_a, es := es, zq := (if c.relative_hts = true then c.z_t else c.z_t - p.snow.z_s), wind_speed := (if p.input1.e_a > u then { p.input1 with e_a := u } else p.input1).u, zu := (if c.relative_hts = true then c.z_u else c.z_u - p.snow.z_s), z0 := c.z_0, init_ustar := p.init_ustar, init_factor := p.init_factor } >>= _) = _
      cases hle1 { press := c.P_a, air_temp := (if p.input1.e_a > u then { p.input1 with e_a := u } else p.input1).t_a, surface_temp := p.snow.t_s_0, za := (if c.relative_hts = true then c.z_t else c.z_t - p.snow.z_s), ea := (if p.input1.e_a > u then { p.input1 with e_a := u } else p.input1).e_a, es := es, zq := (if c.relative_hts = true then c.z_t else c.z_t - p.snow.z_s), wind_speed := (if p.input1.e_a > u then { p.input1 with e_a := u } else p.input1).u, zu := (if c.relative_hts = true then c.z_u else c.z_u - p.snow.z_s), z0 := c.z_0, init_ustar := p.init_ustar, init_factor := p.init_factor } with
      | error e => rfl
      | ok r =>
        simp only [bind_ok]
        by_cases hr : r.status ≠ 0
        · rw [if_pos hr, if_pos hr]
          rfl
        · rw [if_neg hr, if_neg hr]
          rfl

theorem cap_energy (v : ℝ) (c : Env) (dt : ℝ) {p q : Phys} (h : SameCapP p q) :
    RelE SameCapP (energy_balance c dt p) (energy_balance (c.hold v) dt q) := by
  obtain ⟨⟨x, y, z, h1⟩, h2, h3, h4⟩ := h
  have hq : q = { p with snow := p.snow.cap x y z } := by
    cases q
    simp only at h1 h2 h3 h4
    rw [h1, h2, h3, h4]
  rw [hq]
  unfold energy_balance
  by_cases h : p.snow.layer_count > 0
  · rw [if_pos h, if_pos (show (p.snow.cap x y z).layer_count > 0 from h)]
    rw [cap_h_le]
    cases h_le c p with
    | error e => exact rfl
    | ok w =>
      obtain ⟨r, q⟩ := w
      simp only [Except.map, bind_ok]
      refine RelE.same (heat_transfer c q.input1 q.snow) fun g => ?_
      refine RelE.same (advec q.input1 dt q.snow) fun M => ?_
      exact ⟨⟨x, y, z, rfl⟩, rfl, rfl, rfl⟩
  · rw [if_neg h, if_neg (show ¬ (p.snow.cap x y z).layer_count > 0 from h)]
    exact ⟨⟨x, y, z, rfl⟩, rfl, rfl, rfl⟩

end

end Pysnobal
