import Verif.Lemmas.NanNum

/-! # On numbers, the snow physics with missing values is the snow physics without: `NanSnobal.lean` -/

namespace Pysnobal

noncomputable section

open Classical

namespace Nan

theorem bind_ext {α β : Type} {m : Except Err α} {f g : α → Except Err β} (h : ∀ a, f a = g a) : (m >>= f) = m >>= g := by
  rw [funext h]

theorem ite_ext {α : Type} {p : Prop} {d1 d2 : Decidable p} {a a' b b' : α} (ha : a = a') (hb : b = b') :
    @ite α p d1 a b = @ite α p d2 a' b' := by
  subst ha; subst hb
  by_cases h : p <;> simp [h]

theorem Snow.ofReal_ite (p : Prop) [Decidable p] (a b : Pysnobal.Snow) :
    Snow.ofReal (if p then a else b) = if p then Snow.ofReal a else Snow.ofReal b := by split <;> rfl

theorem layer_count_s (s : Pysnobal.Snow) : (Snow.ofReal s).layer_count = s.layer_count := by
  unfold Snow.layer_count Pysnobal.Snow.layer_count Snow.ofReal
  nnum [map_ok]
theorem cc_s_s (s : Pysnobal.Snow) : (Snow.ofReal s).cc_s = some s.cc_s := rfl
theorem isothermal_s (s : Pysnobal.Snow) : (Snow.ofReal s).isothermal ↔ s.isothermal := by
  unfold Snow.isothermal Pysnobal.Snow.isothermal
  nnum [cc_s_s]
theorem layer_mass_s (s : Pysnobal.Snow) : (Snow.ofReal s).layer_mass = .ofReal s.layer_mass := rfl
theorem calc_layers_s (c : Env) (s : Pysnobal.Snow) : (Snow.ofReal s).calc_layers c = .ofReal (s.calc_layers c) := by
  unfold Snow.calc_layers Pysnobal.Snow.calc_layers
  nnum [Snow.ofReal]
  split_ifs <;> rfl
theorem dry_snow_density_s (s : Pysnobal.Snow) :
    (Snow.ofReal s).dry_snow_density = s.dry_snow_density.map some := by
  unfold Snow.dry_snow_density Pysnobal.Snow.dry_snow_density
  nnum [Snow.ofReal]
theorem kts_s (s : Pysnobal.Snow) : (Snow.ofReal s).kts = some s.kts := rfl
theorem e_s_0_s (s : Pysnobal.Snow) : (Snow.ofReal s).e_s_0 = s.e_s_0.map some := sati_s _
theorem e_s_l_s (s : Pysnobal.Snow) : (Snow.ofReal s).e_s_l = s.e_s_l.map some := sati_s _
theorem adjust_layer_temps_s (s : Pysnobal.Snow) :
    (Snow.ofReal s).adjust_layer_temps = s.adjust_layer_temps.map Snow.ofReal := by
  unfold Snow.adjust_layer_temps Pysnobal.Snow.adjust_layer_temps
  nnum [layer_count_s, isothermal_s, cc_s_s]
  nnum [Snow.ofReal, new_tsno_s]
theorem cold_content_s (t m : ℝ) : cold_content (some t) (some m) = some (Pysnobal.cold_content t m) := by
  unfold cold_content Pysnobal.cold_content
  nnum [cp_ice_s, heat_stor_s]
theorem adj_layers_s (c : Env) (s : Pysnobal.Snow) : adj_layers c (.ofReal s) = .ofReal (Pysnobal.adj_layers c s) := by
  unfold adj_layers Pysnobal.adj_layers
  simp only [layer_count_s, calc_layers_s, layer_mass_s]
  generalize s.calc_layers c = t
  generalize s.layer_count = n
  nnum [Snow.ofReal, cold_content_s]
  split_ifs <;> rfl
theorem adj_snow_s (c : Env) (dz dm : ℝ) (s : Pysnobal.Snow) :
    adj_snow c (some dz) (some dm) (.ofReal s) = .ofReal (Pysnobal.adj_snow c dz dm s) := by
  unfold adj_snow Pysnobal.adj_snow
  have e : ∀ z m r : ℝ, adj_layers c { Snow.ofReal s with z_s := some z, m_s := some m, rho := some r } =
    .ofReal (Pysnobal.adj_layers c { s with z_s := z, m_s := m, rho := r }) := fun z m r =>
      adj_layers_s c { s with z_s := z, m_s := m, rho := r }
  have e1 : (Snow.ofReal s).z_s = some s.z_s := rfl
  have e2 : (Snow.ofReal s).m_s = some s.m_s := rfl
  nnum [e1, e2, e, ne_eq]
  split_ifs <;> rfl
theorem initBare_s (s : Pysnobal.Snow) : initBare (.ofReal s) = .ofReal (Pysnobal.initBare s) := by
  unfold initBare Pysnobal.initBare
  nnum [Snow.ofReal]
theorem initCold_s (s : Pysnobal.Snow) : initCold (.ofReal s) = .ofReal (Pysnobal.initCold s) := by
  unfold initCold Pysnobal.initCold
  nnum [layer_count_s]
  nnum [Snow.ofReal, cold_content_s]
theorem initWater_s (c : Env) (s : Pysnobal.Snow) :
    initWater c (.ofReal s) = (Pysnobal.initWater c s).map Snow.ofReal := by
  unfold initWater Pysnobal.initWater
  have e : ({ Snow.ofReal s with h2o_vol := (Snow.ofReal s).h2o_sat * some c.max_h2o_vol } : Snow) =
    .ofReal { s with h2o_vol := s.h2o_sat * c.max_h2o_vol } := rfl
  simp only [e, dry_snow_density_s, bind_map, map_bind]
  rfl
theorem initLayers_s (c : Env) (s : Pysnobal.Snow) :
    initLayers c (.ofReal s) = (Pysnobal.initLayers c s).map Snow.ofReal := by
  unfold initLayers Pysnobal.initLayers
  nnum [layer_count_s, initBare_s, initCold_s, initWater_s]
theorem init_snow_s (c : Env) (s : Pysnobal.Snow) :
    init_snow c (.ofReal s) = (Pysnobal.init_snow c s).map Snow.ofReal := by
  unfold init_snow Pysnobal.init_snow
  have e : ({ Snow.ofReal s with m_s := (Snow.ofReal s).rho * (Snow.ofReal s).z_s } : Snow) =
    .ofReal { s with m_s := s.rho * s.z_s } := rfl
  rw [e, calc_layers_s, initLayers_s]
theorem compactRate_s (dt : ℝ) (s : Pysnobal.Snow) :
    compactRate dt (.ofReal s) = (Pysnobal.compactRate dt s).map some := by
  unfold compactRate Pysnobal.compactRate
  nnum [Snow.ofReal]
theorem time_compact_s (c : Env) (dt : ℝ) (s : Pysnobal.Snow) :
    time_compact c dt (.ofReal s) = (Pysnobal.time_compact c dt s).map Snow.ofReal := by
  unfold time_compact Pysnobal.time_compact
  have e1 : (Snow.ofReal s).rho = some s.rho := rfl
  have e2 : (Snow.ofReal s).m_s = some s.m_s := rfl
  have e3 : (Snow.ofReal s).t_s = some s.t_s := rfl
  have e4 : (Snow.ofReal s).snowcover = s.snowcover := rfl
  nnum [compactRate_s, e1, e2, e3, e4]
  split_ifs
  · rfl
  · exact bind_ext fun a => bind_ext fun b => bind_ext fun d => bind_ext fun z => congrArg Except.ok
      (adj_layers_s c { s with rho := s.rho + (b + d) * s.rho, z_s := z })
  · exact bind_ext fun a => bind_ext fun b => bind_ext fun d => bind_ext fun z => congrArg Except.ok
      (adj_layers_s c { s with rho := s.rho + (b + d) * s.rho, z_s := z })

/-! ### Functions that read the forcing -/

theorem precip_event_s (c : Env) (d : NInput) (i : InputData) (h : d.ReadsAs i) (s : Pysnobal.Snow) :
    precip_event c d (.ofReal s) = (Pysnobal.precip_event c i s).map Snow.ofReal := by
  obtain ⟨_, _, _, _, _, _, h7, h8⟩ := h
  unfold precip_event Pysnobal.precip_event
  rw [h7]
  cases hp : i.precip_now with
  | false => rfl
  | true =>
    obtain ⟨r1, r2, r3, r4, r5, r6, r7, r8⟩ := h8 hp
    have e4 : (Snow.ofReal s).snowcover = s.snowcover := rfl
    nnum [r1, r2, r3, r4, r5, r6, r7, r8, e4, adj_snow_s]
    cases s.snowcover with
    | true => rfl
    | false =>
      simp only [if_true, Bool.false_eq_true, if_false]
      split_ifs with hm
      · exact (congrArg (fun m => m >>= _) (init_snow_s c { s with z_s := i.z_snow, rho := i.rho_snow, t_s := i.t_snow, t_s_0 := i.t_snow, t_s_l := i.t_snow, h2o_sat := i.h2o_sat_snow, snowcover := false })).trans
          (bind_map _ _ _)
      · rfl

theorem meltQ0_s (dt : ℝ) (s : Pysnobal.Snow) : meltQ0 dt (.ofReal s) = some (Pysnobal.meltQ0 dt s) := rfl
theorem meltQl_s (dt : ℝ) (s : Pysnobal.Snow) : meltQl dt (.ofReal s) = some (Pysnobal.meltQl dt s) := by
  unfold meltQl Pysnobal.meltQl
  nnum [layer_count_s]
  nnum [Snow.ofReal, Energy.ofReal]
theorem meltLayers_s (dt : ℝ) (s : Pysnobal.Snow) :
    meltLayers dt (.ofReal s) = .ofReal (Pysnobal.meltLayers dt s) := by
  unfold meltLayers Pysnobal.meltLayers
  nnum [meltQ0_s, meltQl_s, melt_s]
  generalize Pysnobal.meltQ0 dt s = Q0
  generalize Pysnobal.meltQl dt s = Ql
  have e : ∀ m cc : ℝ, ({ Snow.ofReal s with melt := some m, cc_s_0 := some cc } : Snow) =
    .ofReal { s with melt := m, cc_s_0 := cc } := fun _ _ => rfl
  have ea : ∀ (s : Pysnobal.Snow) (m cc : ℝ), ({ Snow.ofReal s with melt := some m, cc_s_l := some cc } : Snow) =
    .ofReal { s with melt := m, cc_s_l := cc } := fun _ _ _ => rfl
  have e2 : ∀ (s : Pysnobal.Snow), (Snow.ofReal s).melt = some s.melt := fun _ => rfl
  have e3 : ∀ m cc : ℝ, ({ s with melt := m, cc_s_0 := cc } : Pysnobal.Snow).layer_count = s.layer_count := fun _ _ => rfl
  by_cases k1 : 0 < Q0 <;> by_cases k2 : Q0 = 0 <;> by_cases k3 : s.layer_count = 2 <;> by_cases k4 : 0 < Ql <;>
    by_cases k5 : Ql = 0 <;> simp only [k1, k2, k3, k4, k5, if_true, if_false, gt_iff_lt, e, layer_count_s, e3, lt_self_iff_false] <;> rfl
theorem refreezeSurf_s (q : ℝ) (s : Pysnobal.Snow) :
    refreezeSurf (some q) (.ofReal s) = (Pysnobal.refreezeSurf q s).map fun r => (Snow.ofReal r.1, some r.2) := by
  unfold refreezeSurf Pysnobal.refreezeSurf
  nnum [Snow.ofReal, melt_s, lh_fus_s]
theorem refreezeLower_s (q r : ℝ) (s : Pysnobal.Snow) :
    refreezeLower (some q) (.ofReal s) (some r) =
      (Pysnobal.refreezeLower q s r).map fun r => (Snow.ofReal r.1, some r.2) := by
  unfold refreezeLower Pysnobal.refreezeLower
  nnum [layer_count_s]
  nnum [Snow.ofReal, melt_s, lh_fus_s]
theorem refreezeSnap_s (r : ℝ) (s : Pysnobal.Snow) :
    refreezeSnap (.ofReal s) (some r) = .ofReal (Pysnobal.refreezeSnap s r) := by
  unfold refreezeSnap Pysnobal.refreezeSnap
  nnum [Snow.ofReal]
  split_ifs <;> rfl
theorem snowmelt_s (c : Env) (dt : ℝ) (s : Pysnobal.Snow) :
    snowmelt c dt (.ofReal s) = (Pysnobal.snowmelt c dt s).map Snow.ofReal := by
  unfold snowmelt Pysnobal.snowmelt
  have e4 : (Snow.ofReal s).snowcover = s.snowcover := rfl
  have e2 : ∀ (s : Pysnobal.Snow), (Snow.ofReal s).melt = some s.melt := fun _ => rfl
  have e3 : ∀ (s : Pysnobal.Snow), (Snow.ofReal s).rho = some s.rho := fun _ => rfl
  nnum [e4, meltQ0_s, meltQl_s, meltLayers_s, refreezeSurf_s, refreezeLower_s, refreezeSnap_s, e2, e3, adj_snow_s]
  rfl
theorem evapH2o_s (a b : ℝ) : evapH2o (some a) (some b) = some (Pysnobal.evapH2o a b) := by
  unfold evapH2o Pysnobal.evapH2o
  nnum [map_ok]
theorem soilEvap_s (c : Env) (d : NInput) (i : InputData) (h : d.ReadsAs i) (dt : ℝ) (s : Pysnobal.Snow) :
    soilEvap c d dt (.ofReal s) = (Pysnobal.soilEvap c i dt s).map some := by
  obtain ⟨_, _, _, _, _, h6, _, _⟩ := h
  unfold soilEvap Pysnobal.soilEvap
  have e3 : (Snow.ofReal s).t_s_0 = some s.t_s_0 := rfl
  have e4 : (Snow.ofReal s).t_s_l = some s.t_s_l := rfl
  simp only [layer_count_s]
  by_cases hl : s.layer_count = 2
  · simp only [hl, if_true]
    nnum [h6, e_s_l_s, e4, spec_hum_s, gas_density_s, diffusion_coef_s, vapor_flux_s, sati_s, InputData.e_g]
  · simp only [hl, if_false]
    nnum [h6, e_s_0_s, e3, spec_hum_s, gas_density_s, diffusion_coef_s, vapor_flux_s, sati_s, InputData.e_g]
theorem evap_cond_none (c : Env) (d : NInput) (dt : ℝ) (s : Snow) (h : s.snowcover = true) (hl : s.layer_count = 0) :
    evap_cond c d dt s = .ok { s with h2o_total := evapH2o s.h2o_total (s.E * dt), E_s := s.E * dt + 0 } := by
  unfold evap_cond
  rw [if_neg (by simp [h])]
  dsimp only
  rw [if_pos (show Snow.layer_count { s with h2o_total := evapH2o s.h2o_total (s.E * dt) } = 0 from hl)]
  simp only [bind_ok, pure_ok]
  exact if_neg (fun h => absurd (hl ▸ h) (lt_irrefl 0))
theorem evap_cond_some (c : Env) (d : NInput) (dt : ℝ) (s : Snow) (h : s.snowcover = true) (hl : s.layer_count ≠ 0) :
    evap_cond c d dt s = (do
      let l ← soilEvap c d dt { s with h2o_total := evapH2o s.h2o_total (s.E * dt) }
      let q ← pdiv (s.E * dt + l + s.h2o_total - evapH2o (evapH2o s.h2o_total (s.E * dt)) l) s.rho
      .ok (adj_snow c (q / 2) (s.E * dt + l) { s with h2o_total := evapH2o (evapH2o s.h2o_total (s.E * dt)) l, E_s := s.E * dt + l })) := by
  unfold evap_cond
  rw [if_neg (by simp [h])]
  dsimp only
  rw [if_neg (show ¬Snow.layer_count { s with h2o_total := evapH2o s.h2o_total (s.E * dt) } = 0 from hl)]
  cases soilEvap c d dt { s with h2o_total := evapH2o s.h2o_total (s.E * dt) } with
  | error e => rfl
  | ok l => exact if_pos (Nat.pos_of_ne_zero hl)
theorem real_evap_none (c : Env) (d : InputData) (dt : ℝ) (s : Pysnobal.Snow) (h : s.snowcover = true)
    (hl : s.layer_count = 0) : Pysnobal.evap_cond c d dt s =
      .ok { s with h2o_total := Pysnobal.evapH2o s.h2o_total (s.E * dt), E_s := s.E * dt + 0 } := by
  unfold Pysnobal.evap_cond
  rw [if_neg (by simp [h])]
  dsimp only
  rw [if_pos (show Pysnobal.Snow.layer_count { s with h2o_total := Pysnobal.evapH2o s.h2o_total (s.E * dt) } = 0 from hl)]
  simp only [bind_ok, pure_ok]
  exact if_neg (fun h => absurd (hl ▸ h) (lt_irrefl 0))
theorem real_evap_some (c : Env) (d : InputData) (dt : ℝ) (s : Pysnobal.Snow) (h : s.snowcover = true)
    (hl : s.layer_count ≠ 0) :
    Pysnobal.evap_cond c d dt s = (do
      let l ← Pysnobal.soilEvap c d dt { s with h2o_total := Pysnobal.evapH2o s.h2o_total (s.E * dt) }
      let q ← Pysnobal.pdiv (s.E * dt + l + s.h2o_total - Pysnobal.evapH2o (Pysnobal.evapH2o s.h2o_total (s.E * dt)) l) s.rho
      .ok (Pysnobal.adj_snow c (q / 2) (s.E * dt + l) { s with h2o_total := Pysnobal.evapH2o (Pysnobal.evapH2o s.h2o_total (s.E * dt)) l, E_s := s.E * dt + l })) := by
  unfold Pysnobal.evap_cond
  rw [if_neg (by simp [h])]
  dsimp only
  rw [if_neg (show ¬Pysnobal.Snow.layer_count { s with h2o_total := Pysnobal.evapH2o s.h2o_total (s.E * dt) } = 0 from hl)]
  cases Pysnobal.soilEvap c d dt { s with h2o_total := Pysnobal.evapH2o s.h2o_total (s.E * dt) } with
  | error e => rfl
  | ok l => exact if_pos (Nat.pos_of_ne_zero hl)
theorem evap_cond_s (c : Env) (d : NInput) (i : InputData) (h : d.ReadsAs i) (dt : ℝ) (s : Pysnobal.Snow) :
    evap_cond c d dt (.ofReal s) = (Pysnobal.evap_cond c i dt s).map Snow.ofReal := by
  have e2 : (Snow.ofReal s).E = some s.E := rfl
  have e3 : (Snow.ofReal s).h2o_total = some s.h2o_total := rfl
  have e1 : (Snow.ofReal s).rho = some s.rho := rfl
  cases hc : s.snowcover with
  | false =>
    unfold evap_cond Pysnobal.evap_cond
    rw [if_pos hc, if_pos (show (Snow.ofReal s).snowcover = false from hc)]
    rfl
  | true =>
    by_cases hl : s.layer_count = 0
    · rw [evap_cond_none c d dt _ hc ((layer_count_s s).trans hl), real_evap_none c i dt s hc hl]
      nnum [e2, e3, evapH2o_s]
      rfl
    · rw [evap_cond_some c d dt _ hc (fun h => hl ((layer_count_s s).symm.trans h)), real_evap_some c i dt s hc hl]
      nnum [e2, e3, evapH2o_s]
      refine (congrArg (fun m => m >>= _) (soilEvap_s c d i h dt
        { s with h2o_total := Pysnobal.evapH2o s.h2o_total (s.E * dt) })).trans ((bind_map _ _ _).trans (bind_ext fun l => ?_))
      nnum [e1, evapH2o_s]
      exact bind_ext fun q => congrArg Except.ok (adj_snow_s c (q / 2) (s.E * dt + l)
        { s with h2o_total := Pysnobal.evapH2o (Pysnobal.evapH2o s.h2o_total (s.E * dt)) l, E_s := s.E * dt + l })
theorem h2oAdded_s (d : NInput) (i : InputData) (h : d.ReadsAs i) (s : Pysnobal.Snow) :
    h2oAdded d (.ofReal s) = (Pysnobal.h2oAdded i s).map some := by
  obtain ⟨_, _, _, _, _, _, h7, h8⟩ := h
  unfold h2oAdded Pysnobal.h2oAdded
  rw [h7]
  cases hp : i.precip_now with
  | false => nnum [Snow.ofReal]; simp
  | true => nnum [Snow.ofReal, (h8 hp).2.2.1]
theorem h2o_compact_s (c : Env) (d : NInput) (i : InputData) (h : d.ReadsAs i) (s : Pysnobal.Snow) :
    h2o_compact c d (.ofReal s) = (Pysnobal.h2o_compact c i s).map Snow.ofReal := by
  unfold h2o_compact Pysnobal.h2o_compact
  have e1 : (Snow.ofReal s).rho = some s.rho := rfl
  have e2 : (Snow.ofReal s).m_s = some s.m_s := rfl
  have e4 : (Snow.ofReal s).snowcover = s.snowcover := rfl
  nnum [h2oAdded_s d i h, e1, e2, e4]
  exact ite_ext rfl (bind_ext fun a => ite_ext (bind_ext fun b => bind_ext fun q => bind_ext fun z =>
    congrArg Except.ok (adj_layers_s c { s with rho := s.rho + q, z_s := z })) rfl)
theorem runoff_s (c : Env) (s : Pysnobal.Snow) : runoff c (.ofReal s) = (Pysnobal.runoff c s).map Snow.ofReal := by
  unfold runoff Pysnobal.runoff
  have e1 : (Snow.ofReal s).z_s = some s.z_s := rfl
  have e2 : (Snow.ofReal s).m_s = some s.m_s := rfl
  have e3 : (Snow.ofReal s).h2o_total = some s.h2o_total := rfl
  have e4 : (Snow.ofReal s).snowcover = s.snowcover := rfl
  nnum [e1, e2, e3, e4, layer_count_s, h2o_left_s]
  refine ite_ext rfl (bind_ext fun r => ?_)
  generalize Pysnobal.h2o_left s.z_s r c.max_h2o_vol = w
  exact ite_ext (congrArg Except.ok (adj_snow_s c 0 (-(s.h2o_total - w)) { s with h2o_max := w, swi := s.h2o_total - w, h2o := w, h2o_sat := 1, h2o_vol := c.max_h2o_vol }))
    (bind_ext fun q => rfl)
theorem mass_balance_s (c : Env) (d : NInput) (i : InputData) (h : d.ReadsAs i) (dt : ℝ) (s : Pysnobal.Snow) :
    mass_balance c d dt (.ofReal s) = (Pysnobal.mass_balance c i dt s).map Snow.ofReal := by
  unfold mass_balance Pysnobal.mass_balance
  have e4 : ∀ s : Pysnobal.Snow, (Snow.ofReal s).snowcover = s.snowcover := fun _ => rfl
  nnum [time_compact_s, precip_event_s c d i h, snowmelt_s, evap_cond_s c d i h, h2o_compact_s c d i h, runoff_s, e4,
    adjust_layer_temps_s]
theorem net_radiation_s (d : NInput) (i : InputData) (h : d.ReadsAs i) (s : Pysnobal.Snow) :
    net_radiation d (.ofReal s) = some (Pysnobal.net_radiation i s) := by
  unfold net_radiation
  rw [h.1, h.2.1]
  rfl
theorem advec_s (d : NInput) (i : InputData) (h : d.ReadsAs i) (dt : ℝ) (s : Pysnobal.Snow) :
    advec d dt (.ofReal s) = (Pysnobal.advec i dt s).map some := by
  obtain ⟨_, _, _, _, _, _, h7, h8⟩ := h
  unfold advec Pysnobal.advec
  rw [h7]
  cases hp : i.precip_now with
  | false => rfl
  | true =>
    obtain ⟨r1, r2, r3, r4, r5, r6, r7, r8⟩ := h8 hp
    nnum [Snow.ofReal, r2, r3, r6, r7, cp_water_s, cp_ice_s, heat_stor_s]
theorem g_soil_s (c : Env) (d : NInput) (i : InputData) (h : d.ReadsAs i) (b : Bool) (s : Pysnobal.Snow) :
    g_soil c d b (.ofReal s) = (Pysnobal.g_soil c i b s).map some := by
  obtain ⟨_, _, _, _, _, h6, _, _⟩ := h
  unfold g_soil Pysnobal.g_soil
  have e3 : (Snow.ofReal s).t_s_0 = some s.t_s_0 := rfl
  have e4 : (Snow.ofReal s).t_s_l = some s.t_s_l := rfl
  have e5 : (Snow.ofReal s).z_s_0 = some s.z_s_0 := rfl
  have e6 : (Snow.ofReal s).z_s_l = some s.z_s_l := rfl
  have e : ∀ k t p e : ℝ, efcon (some k) (some t) (some p) (some (some e)) = (Pysnobal.efcon k t p (some e)).map some :=
    fun k t p e => efcon_s k t p (some e)
  cases b <;> simp only [Bool.false_eq_true, if_true, if_false] <;>
    nnum [h6, e_s_l_s, e_s_0_s, e3, e4, e5, e6, kts_s, sati_s, InputData.e_g, e, ssxfr_s]
theorem g_snow_s (c : Env) (s : Pysnobal.Snow) : g_snow c (.ofReal s) = (Pysnobal.g_snow c s).map some := by
  unfold g_snow Pysnobal.g_snow
  have e3 : (Snow.ofReal s).t_s_0 = some s.t_s_0 := rfl
  have e4 : (Snow.ofReal s).t_s_l = some s.t_s_l := rfl
  have e5 : (Snow.ofReal s).z_s_0 = some s.z_s_0 := rfl
  have e6 : (Snow.ofReal s).z_s_l = some s.z_s_l := rfl
  have e : ∀ k t p e : ℝ, efcon (some k) (some t) (some p) (some (some e)) = (Pysnobal.efcon k t p (some e)).map some :=
    fun k t p e => efcon_s k t p (some e)
  nnum [e_s_l_s, e_s_0_s, e3, e4, e5, e6, kts_s, e, ssxfr_s]
theorem heat_transfer_s (c : Env) (d : NInput) (i : InputData) (h : d.ReadsAs i) (s : Pysnobal.Snow) :
    heat_transfer c d (.ofReal s) = (Pysnobal.heat_transfer c i s).map fun r => (some r.1, some r.2) := by
  unfold heat_transfer Pysnobal.heat_transfer
  nnum [layer_count_s, g_soil_s c d i h, g_snow_s]
theorem below_thold_s (t : ℝ) (s : Pysnobal.Snow) : below_thold t (.ofReal s) = Pysnobal.below_thold t s := by
  unfold below_thold Pysnobal.below_thold
  rw [layer_count_s]
  nnum [Snow.ofReal]

end Nan

end

end Pysnobal
