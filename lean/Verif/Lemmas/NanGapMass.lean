import Verif.Lemmas.NanGap
import Verif.Props.Progress

/-! # The mass balance of a step with blank weather completes -/

namespace Pysnobal

noncomputable section

open Classical

namespace Nan

variable {c : Env} {dt : ℝ} {i : NInput}

/-- The snow with other fluxes. -/
def Snow.flux (x : NVal) (en : Energy) (s : Snow) : Snow := { s with E := x, en := en }

theorem adj_layers_flux (x : NVal) (en : Energy) (s : Snow) : adj_layers c (s.flux x en) = (adj_layers c s).flux x en := by
  have h1 : (s.flux x en).calc_layers c = (s.calc_layers c).flux x en := by
    unfold Snow.calc_layers Snow.flux
    dsimp only
    split_ifs <;> rfl
  have h2 : ∀ t : Snow, (t.flux x en).layer_count = t.layer_count := fun _ => rfl
  unfold adj_layers
  dsimp only
  rw [h1, h2, h2]
  generalize s.calc_layers c = t
  by_cases h : t.layer_count = 0
  · rw [if_pos h, if_pos h]
    split <;> rfl
  · rw [if_neg h, if_neg h]
    have h3 : (t.flux x en).layer_mass = t.layer_mass.flux x en := rfl
    rw [h3, h2]
    split_ifs <;> rfl

theorem time_compact_flux (x : NVal) (en : Energy) (s : Snow) :
    time_compact c dt (s.flux x en) = (time_compact c dt s).map (Snow.flux x en) := by
  unfold time_compact
  have e1 : (s.flux x en).rho = s.rho := rfl
  have e2 : (s.flux x en).m_s = s.m_s := rfl
  have e3 : (s.flux x en).t_s = s.t_s := rfl
  have e4 : (s.flux x en).snowcover = s.snowcover := rfl
  have e5 : compactRate dt (s.flux x en) = compactRate dt s := rfl
  rw [e1, e2, e3, e4, e5]
  split
  · rfl
  · dsimp only
    simp only [map_bind]
    refine bind_ext fun rate => bind_ext fun d1 => bind_ext fun d2 => ?_
    refine bind_ext fun z => ?_
    rw [map_pure, pure_ok]
    exact congrArg Except.ok (adj_layers_flux x en { s with rho := s.rho + (d1 + d2) * s.rho, z_s := z })

/-- Fields that melting leaves alone. -/
structure Kept (s t : Snow) : Prop where
  flag : t.snowcover = s.snowcover
  lc : t.layer_count = s.layer_count
  z : t.z_s = s.z_s
  m : t.m_s = s.m_s
  rho : t.rho = s.rho
  surf : t.t_s_0 = s.t_s_0
  mean : t.t_s = s.t_s
  low : t.t_s_l = s.t_s_l

theorem Kept.trans {s t u : Snow} (h : Kept s t) (k : Kept t u) : Kept s u :=
  ⟨k.flag.trans h.flag, k.lc.trans h.lc, k.z.trans h.z, k.m.trans h.m, k.rho.trans h.rho, k.surf.trans h.surf,
    k.mean.trans h.mean, k.low.trans h.low⟩

theorem meltLayers_kept (s : Snow) : Kept s (meltLayers dt s) := by
  unfold meltLayers
  dsimp only
  split_ifs <;> exact ⟨rfl, rfl, rfl, rfl, rfl, rfl, rfl, rfl⟩

theorem refreezeSurf_kept {q : NVal} {s : Snow} {z : ℝ} (hz : s.z_s = some z) (h : z ≠ 0) :
    ∃ t, refreezeSurf q s = .ok t ∧ Kept s t.1 := by
  unfold refreezeSurf
  split
  · obtain ⟨f, hf⟩ := div_ok_ne s.z_s_0 h
    unfold pdiv
    rw [← hz] at hf
    rw [hf, bind_ok]
    dsimp only
    split <;> exact ⟨_, rfl, rfl, rfl, rfl, rfl, rfl, rfl, rfl, rfl⟩
  · exact ⟨_, rfl, rfl, rfl, rfl, rfl, rfl, rfl, rfl, rfl⟩

theorem refreezeLower_kept {q r : NVal} {s : Snow} {z : ℝ} (hz : s.z_s = some z) (h : z ≠ 0) :
    ∃ t, refreezeLower q s r = .ok t ∧ Kept s t.1 := by
  unfold refreezeLower
  split
  · obtain ⟨f, hf⟩ := div_ok_ne s.z_s_l h
    unfold pdiv
    rw [← hz] at hf
    rw [hf, bind_ok]
    dsimp only
    split <;> exact ⟨_, rfl, rfl, rfl, rfl, rfl, rfl, rfl, rfl, rfl⟩
  · exact ⟨_, rfl, rfl, rfl, rfl, rfl, rfl, rfl, rfl, rfl⟩

theorem refreezeSnap_kept {r : NVal} {s : Snow} : Kept s (refreezeSnap s r) := by
  unfold refreezeSnap
  split <;> exact ⟨rfl, rfl, rfl, rfl, rfl, rfl, rfl, rfl⟩

/-- What recomputing the layers leaves of a snowcover that stays. -/
theorem adj_layers_stay {s : Snow} {z m : ℝ} (hz : s.z_s = some z) (hm : s.m_s = some m) (hmax : 0 < c.max_z_s_0)
    (h : (adj_layers c s).snowcover = true) :
    z ≠ 0 ∧ c.small_threshold < m ∧ (adj_layers c s).rho = s.rho ∧ (adj_layers c s).t_s_0 = s.t_s_0 ∧
    ((adj_layers c s).t_s_l = s.t_s_l ∨ (adj_layers c s).t_s_l = s.t_s ∨ (adj_layers c s).t_s_l = some (MIN_SNOW_TEMP + FREEZE)) ∧
    0 < (adj_layers c s).layer_count := by
  have hk : (s.calc_layers c).rho = s.rho ∧ (s.calc_layers c).t_s_0 = s.t_s_0 ∧ (s.calc_layers c).t_s = s.t_s ∧
      (s.calc_layers c).t_s_l = s.t_s_l := by
    unfold Snow.calc_layers; dsimp only; split <;> exact ⟨rfl, rfl, rfl, rfl⟩
  have zz : ¬(0 : NVal) <ₙ (0 : NVal) := fun k => lt_irrefl _ ((NVal.lt_some 0 0).mp k)
  have hz0 : (s.calc_layers c).layer_count ≠ 0 → z ≠ 0 ∧ c.small_threshold < m := by
    intro hl
    unfold Snow.calc_layers at hl
    rw [hz, hm] at hl
    split at hl
    · refine absurd ?_ hl
      unfold Snow.layer_count
      dsimp only
      simp only [if_neg zz]
    · rename_i hmt
      refine ⟨?_, not_le.mp (fun k => hmt ((NVal.le_some _ _).mpr k))⟩
      rintro rfl
      apply hl
      have h1 : ¬(some 0 : NVal) <ₙ (some 0 - some c.max_z_s_0 : NVal) := by
        rw [sub_s, NVal.lt_some]; linarith
      have h2 : ¬(0 : NVal) <ₙ (some 0 - some c.max_z_s_0 : NVal) := h1
      unfold Snow.layer_count
      dsimp only
      have z3 : ¬(0 : NVal) <ₙ (some 0 : NVal) := zz
      simp only [if_neg h2, ite_self, if_neg zz, if_neg z3]
  revert h
  unfold adj_layers
  dsimp only
  generalize s.calc_layers c = t at hk hz0 ⊢
  obtain ⟨k1, k2, k3, k4⟩ := hk
  by_cases hl : t.layer_count = 0
  · rw [if_pos hl]
    intro h
    revert h
    split <;> exact fun h => absurd h (by simp)
  · rw [if_neg hl]
    obtain ⟨j1, j2⟩ := hz0 hl
    intro _
    have hl' : 0 < t.layer_count := Nat.pos_of_ne_zero hl
    split_ifs
    · exact ⟨j1, j2, k1, k2, .inr (.inl k3), hl'⟩
    · exact ⟨j1, j2, k1, k2, .inr (.inr rfl), hl'⟩
    · exact ⟨j1, j2, k1, k2, .inl k4, hl'⟩

/-- A temperature that is there, above absolute zero and not above freezing. -/
def Cold (x : NVal) : Prop := ∃ t, x = some t ∧ 0 < t ∧ t ≤ FREEZE

/-- Melting goes through whatever is missing of the fluxes. -/
theorem snowmelt_gap {s : Snow} (hc : c.OK) (hf : s.snowcover = true) (hl : 0 < s.layer_count) {z r m : ℝ} (hz : s.z_s = some z)
    (hz0 : z ≠ 0) (hr : s.rho = some r) (hr0 : r ≠ 0) (hm : s.m_s = some m) (h0 : Cold s.t_s_0) (h1 : Cold s.t_s)
    (h2 : Cold s.t_s_l) :
    ∃ s', snowmelt c dt s = .ok s' ∧ (s'.snowcover = true → 0 < s'.layer_count ∧ (∃ r', s'.rho = some r' ∧ r' ≠ 0) ∧
      Cold s'.t_s_0 ∧ Cold s'.t_s_l) := by
  have k1 := meltLayers_kept (dt := dt) s
  obtain ⟨⟨t1, r1⟩, e1, k2⟩ := refreezeSurf_kept (q := meltQ0 dt s) (k1.z.trans hz) hz0
  have k3 := k1.trans k2
  obtain ⟨⟨t2, r2⟩, e2, k4⟩ := refreezeLower_kept (q := meltQl dt s) (r := r1) (k3.z.trans hz) hz0
  have k5 := (k3.trans k4).trans (refreezeSnap_kept (r := r2) (s := t2))
  unfold snowmelt
  rw [if_neg (by rw [hf]; simp)]
  dsimp only
  rw [e1, bind_ok]
  dsimp only
  rw [e2, bind_ok]
  dsimp only
  generalize refreezeSnap t2 r2 = t at k5 ⊢
  split
  · rename_i hw
    obtain ⟨_, w, hx, hw, hlt⟩ := hw
    have hx' : (some 0 : NVal) = some _ := hx
    cases hx'
    have hq : pdiv ((-1) * t.melt) t.rho = .ok (some (-1 * w / r)) := by
      rw [hw, k5.rho, hr]
      show NVal.div (some (-1 * w)) (some r) = _
      rw [pdiv_s, pdiv_of_ne hr0]
      rfl
    rw [hq, bind_ok]
    refine ⟨_, rfl, ?_⟩
    have hd : -1 * w / r ≠ 0 := div_ne_zero (by linarith) hr0
    have hzz : t.z_s + some (-1 * w / r) = some (z + -1 * w / r) := by rw [k5.z, hz]; rfl
    have hmm : t.m_s + (0 : NVal) = some (m + 0) := by rw [k5.m, hm]; rfl
    have hdz : ¬(some (-1 * w / r) : NVal) =ₙ 0 := fun k => hd ((NVal.eq_some _ _).mp k)
    have hcold : ∀ x : NVal, (x = t.t_s_l ∨ x = t.t_s ∨ x = some (MIN_SNOW_TEMP + FREEZE)) → Cold x := by
      rintro x (rfl | rfl | rfl)
      · rw [k5.low]; exact h2
      · rw [k5.mean]; exact h1
      · exact ⟨_, rfl, t_none_ok.1, t_none_ok.2⟩
    unfold adj_snow
    dsimp only
    rw [hzz, hmm, if_pos hdz]
    obtain ⟨ρ, hρ⟩ : ∃ ρ : NVal, ρ = if ¬(some (z + -1 * w / r) : NVal) =ₙ 0 then (some (m + 0) : NVal) / (some (z + -1 * w / r) : NVal) else 0 := ⟨_, rfl⟩
    rw [← hρ]
    split
    · intro hs
      obtain ⟨j1, j2, j3, j4, j5, j6⟩ := adj_layers_stay (c := c) (z := (m + 0) / MAX_SNOW_DENSITY) (m := m + 0) rfl rfl hc.max_z hs
      refine ⟨j6, ⟨MAX_SNOW_DENSITY, j3, by norm_num [MAX_SNOW_DENSITY]⟩, ?_, hcold _ j5⟩
      rw [j4]
      show Cold t.t_s_0
      rw [k5.surf]; exact h0
    · intro hs
      obtain ⟨j1, j2, j3, j4, j5, j6⟩ := adj_layers_stay (c := c) (z := z + -1 * w / r) (m := m + 0) rfl rfl hc.max_z hs
      refine ⟨j6, ⟨(m + 0) / (z + -1 * w / r), ?_, ?_⟩, ?_, hcold _ j5⟩
      · rw [j3]
        show ρ = _
        have hne : ¬(some (z + -1 * w / r) : NVal) =ₙ 0 := fun k => j1 ((NVal.eq_some _ _).mp k)
        rw [hρ, if_pos hne]
        rfl
      · exact div_ne_zero (lt_of_le_of_lt hc.small j2).ne' j1
      · rw [j4]
        show Cold t.t_s_0
        rw [k5.surf]; exact h0
  · refine ⟨_, rfl, fun _ => ⟨by rw [k5.lc]; exact hl, ⟨r, k5.rho.trans hr, hr0⟩, ?_, ?_⟩⟩
    · rw [k5.surf]; exact h0
    · rw [k5.low]; exact h2

/-- The exchange with the soil goes through with the ground temperature missing or not. -/
theorem soilEvap_gap {d : NInput} {j : InputData} (hj : SoilOK c j) (hd : Given d.t_g j.t_g) {s : Snow} (h0 : Cold s.t_s_0)
    (h2 : Cold s.t_s_l) : ∃ v, soilEvap c d dt s = .ok v := by
  have key : ∀ T, Cold T → ∃ v, (do
      let e_s ← sati T
      let t_bar := (d.t_g + T) / 2
      let q_s_l ← spec_hum e_s c.P_a
      let e_g ← sati d.t_g
      let q_g ← spec_hum e_g c.P_a
      let rho_air ← gas_density c.P_a MOL_AIR t_bar
      let k ← diffusion_coef c.P_a t_bar
      let E_l ← vapor_flux rho_air k (q_g - q_s_l) c.z_g
      pure (E_l * dt) : Except Err NVal) = .ok v := by
    rintro T ⟨x, rfl, hx, hx'⟩
    obtain ⟨v, hv⟩ := soilExchange_prog hj (dt := dt) hx hx'
    unfold soilExchange InputData.e_g at hv
    obtain ⟨es, a1, hv⟩ := bind_eq_ok.mp hv
    obtain ⟨qs, a2, hv⟩ := bind_eq_ok.mp hv
    obtain ⟨eg, a3, hv⟩ := bind_eq_ok.mp hv
    obtain ⟨qg, a4, hv⟩ := bind_eq_ok.mp hv
    obtain ⟨ra, a5, hv⟩ := bind_eq_ok.mp hv
    obtain ⟨k, a6, hv⟩ := bind_eq_ok.mp hv
    obtain ⟨el, a7, hv⟩ := bind_eq_ok.mp hv
    rw [sati_s, a1, map_ok, bind_ok]
    dsimp only
    rw [spec_hum_s, a2, map_ok, bind_ok]
    rcases hd with h | h
    · rw [h, sati_n, bind_ok, spec_hum_n, bind_ok]
      have hP : c.P_a ≠ 0 := by linarith [hj.press]
      have t1 : (none + some x : NVal) / (2 : NVal) = none := by rw [n_add, n_div]
      rw [t1, diffusion_n hP]
      unfold gas_density vapor_flux pdiv
      rw [mul_n, pdiv_n, bind_ok, bind_ok, n_sub]
      obtain ⟨y, hy⟩ := div_ok_ne none hj.z_g
      rw [hy]
      exact ⟨_, rfl⟩
    · have t1 : (some j.t_g + some x : NVal) / (2 : NVal) = some ((j.t_g + x) / 2) := rfl
      rw [h, sati_s, a3, map_ok, bind_ok, spec_hum_s, a4, map_ok, bind_ok, t1, gas_density_s, a5, map_ok, bind_ok,
        diffusion_coef_s, a6, map_ok, bind_ok, sub_s, vapor_flux_s, a7, map_ok, bind_ok]
      exact ⟨_, rfl⟩
  unfold soilEvap Snow.e_s_l Snow.e_s_0
  by_cases hl : s.layer_count = 2
  · simp only [hl, if_true]
    exact key _ h2
  · simp only [hl, if_false]
    exact key _ h0

/-- The mass balance goes through with the fluxes missing, if one of the terms of evaporation is. -/
theorem mass_gap (hc : c.OK) (hdt : 0 < dt) {s : Pysnobal.Snow} (hi : Inv c s) (hf : s.snowcover = true) (hl : 0 < s.layer_count) (hm : 0 < s.m_s)
    (hF : s.Frozen) {d : NInput} {j : InputData} (hj : SoilOK c j) (hd : Given d.t_g j.t_g) (hp : d.precip_now = false)
    (x : NVal) (en : Energy) (hn : x = none ∨ d.t_g = none) :
    ∃ s', mass_balance c d dt ((Snow.ofReal s).flux x en) = .ok s' := by
  have h0 := (hi.lc_pos_iff hc.max_z).mp hl
  obtain ⟨s1, k1⟩ := time_compact_prog (c := c) hdt (s := s) (fun _ => ⟨(inv_rho_pos hi h0 hm).1, hm⟩)
  have i1 := time_compact_inv hc.max_z hi k1
  have e1 : time_compact c dt ((Snow.ofReal s).flux x en) = .ok ((Snow.ofReal s1).flux x en) := by
    rw [time_compact_flux, time_compact_s, k1]; rfl
  obtain ⟨s2, hs2⟩ : ∃ s2 : Snow, s2 = { (Snow.ofReal s1).flux x en with h2o_total := some s1.h2o_total + some s1.h2o } := ⟨_, rfl⟩
  have e2 : precip_event c d ((Snow.ofReal s1).flux x en) = .ok s2 := by
    unfold precip_event
    rw [if_neg (by rw [hp]; simp), hs2]
    rfl
  have tail : ∀ s4 : Snow, s4.snowcover = false → ∃ s', (do
      let s ← h2o_compact c d s4
      let s ← runoff c s
      if s.snowcover then s.adjust_layer_temps else pure s : Except Err Snow) = .ok s' := by
    intro s4 h4
    unfold h2o_compact runoff
    rw [if_pos (.inl h4), bind_ok, if_pos (.inl h4), bind_ok]
    dsimp only
    rw [h4]
    exact ⟨_, rfl⟩
  have evap : ∀ s3 : Snow, s3.E = x → (s3.snowcover = true → 0 < s3.layer_count ∧ (∃ r', s3.rho = some r' ∧ r' ≠ 0) ∧
      Cold s3.t_s_0 ∧ Cold s3.t_s_l) → ∃ s4, evap_cond c d dt s3 = .ok s4 ∧ s4.snowcover = false := by
    intro s3 hE h3
    by_cases hcov : s3.snowcover = true
    · obtain ⟨g1, ⟨r, g2, g3⟩, g4, g5⟩ := h3 hcov
      obtain ⟨s4, h4⟩ : ∃ s4, evap_cond c d dt s3 = .ok s4 := by
        rw [evap_cond_some _ _ _ _ hcov g1.ne']
        obtain ⟨v, hv⟩ := soilEvap_gap (dt := dt) hj hd (s := { s3 with h2o_total := evapH2o s3.h2o_total (s3.E * (some dt : NVal)) }) g4 g5
        rw [hv, bind_ok, g2]
        obtain ⟨y, hy⟩ := div_ok_ne (s3.E * (some dt : NVal) + v + s3.h2o_total - evapH2o (evapH2o s3.h2o_total (s3.E * (some dt : NVal))) v) g3
        unfold pdiv
        rw [hy, bind_ok]
        exact ⟨_, rfl⟩
      obtain ⟨b, _⟩ := evap_cond_nan hcov g1 (by rw [hE]; exact hn) h4
      exact ⟨s4, h4, b.2.1⟩
    · unfold evap_cond
      rw [if_pos (by simpa using hcov)]
      exact ⟨_, rfl, by simpa using hcov⟩
  have mel : ∃ s3, snowmelt c dt s2 = .ok s3 ∧ (s3.snowcover = true → 0 < s3.layer_count ∧ (∃ r', s3.rho = some r' ∧ r' ≠ 0) ∧
      Cold s3.t_s_0 ∧ Cold s3.t_s_l) := by
    by_cases hs1 : s1.snowcover = true
    · have st : Stay c s s.m_s s1 := by
        rcases time_compact_out hc.max_z hi k1 with ⟨q1, _⟩ | ⟨_, q2, _⟩ | ⟨_, q2⟩
        · rw [hf] at q1; cases q1
        · exact q2
        · rw [q2.snowcover] at hs1; cases hs1
      have F1 := ((SameTemps.rfl' s).stay st).frozen hF
      have z1 := i1.flag hs1
      have m1 : 0 < s1.m_s := by rw [st.m_s]; exact hm
      obtain ⟨r1, zz1⟩ := inv_rho_pos i1 z1 m1
      refine snowmelt_gap hc (by rw [hs2]; exact hs1) ?_ (z := s1.z_s) (r := s1.rho) (m := s1.m_s) (by rw [hs2]; rfl) zz1.ne' (by rw [hs2]; rfl) r1.ne'
        (by rw [hs2]; rfl) ⟨s1.t_s_0, by rw [hs2]; rfl, F1.surf⟩ ⟨s1.t_s, by rw [hs2]; rfl, F1.mean⟩ ⟨s1.t_s_l, by rw [hs2]; rfl, F1.lower⟩
      rw [hs2]
      exact (layer_count_s s1).symm ▸ (i1.lc_pos_iff hc.max_z).mpr z1
    · have hs2' : s2.snowcover = false := by rw [hs2]; show s1.snowcover = false; simpa using hs1
      unfold snowmelt
      rw [if_pos hs2']
      exact ⟨_, rfl, fun h => absurd (hs2'.symm.trans h) (by simp)⟩
  obtain ⟨s3, e3, k3⟩ := mel
  have hE : s3.E = x := (snowmelt_E e3).trans ((precip_event_E e2).trans rfl)
  obtain ⟨s4, e4, k4⟩ := evap s3 hE k3
  unfold mass_balance
  rw [e1, bind_ok, e2, bind_ok, e3, bind_ok, e4, bind_ok]
  exact tail s4 k4

/-- The pack with which the energy balance of a run step starts. -/
def startPack (s : Pysnobal.Snow) : Pysnobal.Snow := { s with h2o_total := 0, snowcover := decide (s.layer_count > 0) }

/-- A dry run step with blanks completes, and leaves no snow, if the turbulent fluxes can be computed with the blanks
filled in. -/
theorem step_gap (hc : c.OK) (hdt : 0 < dt) {p : Phys} {q : Pysnobal.Phys} {dl : NInput} (h : EnergyStart c q.input1 q.snow)
    (hl : 0 < q.snow.layer_count) (hs : p.snow = Snow.ofReal q.snow) (hi : p.input1.Gaps q.input1)
    (h1 : p.init_ustar = q.init_ustar.map some) (h2 : p.init_factor = q.init_factor.map some) (hp : q.input1.precip_now = false)
    (he : q.input1.e_a < c.P_a) (hT : (if c.relative_hts then c.z_t else c.z_t - q.snow.z_s) ≠ 5.9 * c.z_0)
    (hU : (if c.relative_hts then c.z_u else c.z_u - q.snow.z_s) ≠ 5.9 * c.z_0)
    (hn : p.input1.u = none ∨ p.input1.t_a = none ∨ p.input1.e_a = none ∨ p.input1.t_g = none)
    (ht : ∃ r, Pysnobal.h_le c { q with snow := startPack q.snow } = .ok r) :
    ∃ p', stepPhys c dt dl p = .ok p' ∧ p'.snow.layer_count = 0 ∧ p'.input1.precip_now = false := by
  have hst : EnergyStart c q.input1 (startPack q.snow) := by
    refine ⟨start_inv hc.max_z h.inv, h.soil, h.depth, h.cool, h.mass, fun hl => ?_⟩
    have f := h.frozen hl
    exact ⟨f.surf, f.mean, f.lower⟩
  obtain ⟨q', hq'⟩ := (C52_energy_balance_completes c hc dt hdt { q with snow := startPack q.snow } hst hl).mpr ht
  have hpn : p.input1.precip_now = false := hi.now.trans hp
  have hbeg : (p.begin dl).snow = Snow.ofReal (startPack q.snow) := by
    unfold Phys.begin startPack
    dsimp only
    rw [hs, layer_count_s]
    rfl
  have hfor : (p.begin dl).input1 = p.input1 := by
    unfold Phys.begin Phys.forcing
    rw [if_neg (by rw [hpn]; simp)]
  obtain ⟨p1, x, en, e1, k1, k2, k3⟩ := energy_gap (p := p.begin dl) hq' hbeg (by rw [hfor]; exact hi) h1 h2 hp he hT hU
  have hE : x = none ∨ p1.input1.t_g = none := by
    have hlb : 0 < (p.begin dl).snow.layer_count := by rw [hbeg, layer_count_s]; exact hl
    have hx : p1.snow.E = x := by rw [k1]
    rw [k2, hfor]
    rcases hn with hn | hn | hn | hn
    · exact .inl (hx ▸ energy_balance_nan hlb (.inl (by rw [hfor]; exact hn)) e1)
    · exact .inl (hx ▸ energy_balance_nan hlb (.inr (.inl (by rw [hfor]; exact hn))) e1)
    · exact .inl (hx ▸ energy_balance_nan hlb (.inr (.inr (.inl (by rw [hfor]; exact hn)))) e1)
    · exact .inr hn
  obtain ⟨s', e2⟩ := mass_gap hc hdt hst.inv (s := startPack q.snow) (decide_eq_true hl) hl (hst.mass hl) (hst.frozen hl) (d := p1.input1) hst.soil
    (by rw [k2, hfor]; exact hi.t_g) k3 x en hE
  have e : stepPhys c dt dl p = .ok { p1 with snow := s' } := by
    have : stepPhys c dt dl p = (do
        let p ← energy_balance c dt (p.begin dl)
        let s ← mass_balance c p.input1 dt p.snow
        pure { p with snow := s }) := by
      unfold stepPhys Phys.begin Phys.forcing
      split <;> rfl
    rw [this, e1, bind_ok, k1]
    refine (congrArg (fun x : Except Err Snow => x >>= _) e2).trans ?_
    rfl
  refine ⟨_, e, ?_, k3⟩
  exact (step_nan (p := p) (fun h => absurd h (by rw [hs, layer_count_s]; exact hl.ne')) (fun h => absurd (hpn.symm.trans h) (by simp))
    (.inr (hn.imp id (.imp id (.imp id .inl)))) e).1

end Nan

end

end Pysnobal
