import Verif.Lemmas.NanStep

/-! # Run steps and data steps with a missing value -/

namespace Pysnobal

noncomputable section

open Classical

namespace Nan

variable {w : Prop} {c : Env} {dt : ℝ} {i : NInput}

theorem adj_layers_en (s : Snow) : (adj_layers c s).en = s.en := by
  have : (s.calc_layers c).en = s.en := by unfold Snow.calc_layers; split <;> rfl
  unfold adj_layers
  dsimp only
  split_ifs <;> exact this

theorem adj_snow_en (dz dm : NVal) (s : Snow) : (adj_snow c dz dm s).en = s.en := by
  unfold adj_snow
  dsimp only
  generalize (if ¬(s.z_s + dz) =ₙ 0 then (s.m_s + dm) / (s.z_s + dz) else 0) = ρ
  split
  · exact adj_layers_en _
  · split
    · exact adj_layers_en _
    · rfl

theorem time_compact_en {s s' : Snow} (e : time_compact c dt s = .ok s') : s'.en = s.en := by
  unfold time_compact at e
  split at e
  · cases e; rfl
  · obtain ⟨_, _, e⟩ := bind_eq_ok.mp e
    obtain ⟨_, _, e⟩ := bind_eq_ok.mp e
    obtain ⟨_, _, e⟩ := bind_eq_ok.mp e
    obtain ⟨_, _, e⟩ := bind_eq_ok.mp e
    cases e
    exact adj_layers_en _

theorem init_snow_en {s s' : Snow} (e : init_snow c s = .ok s') : s'.en = s.en := by
  have hc : ∀ s : Snow, (s.calc_layers c).en = s.en := by intro s; unfold Snow.calc_layers; split <;> rfl
  unfold init_snow initLayers at e
  split at e
  · cases e; exact hc _
  · unfold initWater at e
    obtain ⟨_, _, e⟩ := bind_eq_ok.mp e
    cases e; exact hc _

theorem precip_event_en {s s' : Snow} (e : precip_event c i s = .ok s') : s'.en = s.en := by
  unfold precip_event at e
  split at e
  · split at e
    · simp only [bind_ok, pure_ok] at e
      cases e
      exact adj_snow_en _ _ _
    · split at e
      · obtain ⟨t, ht, e⟩ := bind_eq_ok.mp e
        cases e
        have := init_snow_en ht
        exact this
      · simp only [bind_ok, pure_ok] at e
        cases e
        rfl
  · cases e
    rfl


/-! ### A run step -/

/-- The forcing of a run step. -/
def Phys.forcing (p : Phys) (dl : NInput) : NInput :=
  if p.input1.precip_now then p.input1.update_precip_deltas dl else p.input1

/-- The state in which the energy balance of a run step starts. -/
def Phys.begin (p : Phys) (dl : NInput) : Phys :=
  { p with input1 := p.forcing dl, snow := { p.snow with h2o_total := 0, snowcover := decide (p.snow.layer_count > 0) } }

theorem stepPhys_parts {dl : NInput} {p p' : Phys} (e : stepPhys c dt dl p = .ok p') :
    ∃ q, energy_balance c dt (p.begin dl) = .ok q ∧ mass_balance c q.input1 dt q.snow = .ok p'.snow ∧
      p'.input1 = q.input1 := by
  unfold stepPhys at e
  obtain ⟨q, e1, e⟩ := bind_eq_ok.mp e
  obtain ⟨s, e2, e⟩ := bind_eq_ok.mp e
  cases e
  refine ⟨q, ?_, e2, rfl⟩
  rw [← e1]
  unfold Phys.begin Phys.forcing
  split <;> rfl

theorem forcing_weather (p : Phys) (dl : NInput) : (p.forcing dl).S_n = p.input1.S_n ∧
    (p.forcing dl).I_lw = p.input1.I_lw ∧ (p.forcing dl).t_a = p.input1.t_a ∧ (p.forcing dl).e_a = p.input1.e_a ∧
    (p.forcing dl).u = p.input1.u ∧ (p.forcing dl).t_g = p.input1.t_g ∧
    (p.forcing dl).precip_now = p.input1.precip_now ∧
    (p.input1.precip_now = true → (p.forcing dl).m_snow = dl.m_snow) := by
  unfold Phys.forcing
  split
  · exact ⟨rfl, rfl, rfl, rfl, rfl, rfl, rfl, fun _ => rfl⟩
  · rename_i h
    exact ⟨rfl, rfl, rfl, rfl, rfl, rfl, rfl, fun k => absurd k h⟩

theorem h_le_phys {p p' : Phys} {r : HleOut} (h : h_le c p = .ok (r, p')) :
    p'.snow = p.snow ∧ (p'.input1 = p.input1 ∨ ∃ x, p'.input1 = { p.input1 with e_a := x }) := by
  unfold h_le at h
  obtain ⟨sv, _, h⟩ := bind_eq_ok.mp h
  obtain ⟨es, _, h⟩ := bind_eq_ok.mp h
  obtain ⟨r', _, h⟩ := bind_eq_ok.mp h
  dsimp only at h
  split at h
  · cases h
  · cases h
    refine ⟨rfl, ?_⟩
    dsimp only
    split
    · exact .inr ⟨_, rfl⟩
    · exact .inl rfl

/-- What the energy balance leaves alone. -/
theorem energy_balance_keeps {p q : Phys} (e : energy_balance c dt p = .ok q) :
    q.snow.snowcover = p.snow.snowcover ∧ q.snow.layer_count = p.snow.layer_count ∧ q.snow.m_s = p.snow.m_s ∧
    q.snow.t_s = p.snow.t_s ∧ q.snow.rho = p.snow.rho ∧ q.snow.h2o_total = p.snow.h2o_total ∧
    (q.input1 = p.input1 ∨ ∃ x, q.input1 = { p.input1 with e_a := x }) := by
  unfold energy_balance at e
  split at e
  · obtain ⟨⟨r, p1⟩, e1, e⟩ := bind_eq_ok.mp e
    obtain ⟨k1, k2⟩ := h_le_phys e1
    obtain ⟨⟨G, G0⟩, _, e⟩ := bind_eq_ok.mp e
    obtain ⟨M, _, e⟩ := bind_eq_ok.mp e
    cases e
    dsimp only at k1 k2 ⊢
    rw [k1]
    exact ⟨rfl, rfl, rfl, rfl, rfl, rfl, k2⟩
  · cases e
    exact ⟨rfl, rfl, rfl, rfl, rfl, rfl, .inl rfl⟩

theorem energy_balance_nan {p q : Phys} (hl : 0 < p.snow.layer_count)
    (hn : p.input1.u = none ∨ p.input1.t_a = none ∨ p.input1.e_a = none ∨ p.snow.t_s_0 = none)
    (e : energy_balance c dt p = .ok q) : q.snow.E = none := by
  unfold energy_balance at e
  rw [if_pos hl] at e
  obtain ⟨⟨r, p1⟩, e1, e⟩ := bind_eq_ok.mp e
  have := (h_le_nan e1 hn).1
  obtain ⟨⟨G, G0⟩, _, e⟩ := bind_eq_ok.mp e
  obtain ⟨M, _, e⟩ := bind_eq_ok.mp e
  cases e
  exact this

theorem energy_balance_rad {p q : Phys} (hl : 0 < p.snow.layer_count)
    (hn : p.input1.S_n = none ∨ p.input1.I_lw = none) (e : energy_balance c dt p = .ok q) :
    q.snow.en.delta_Q_0 = none := by
  unfold energy_balance at e
  rw [if_pos hl] at e
  obtain ⟨⟨r, p1⟩, e1, e⟩ := bind_eq_ok.mp e
  obtain ⟨⟨G, G0⟩, _, e⟩ := bind_eq_ok.mp e
  obtain ⟨M, _, e⟩ := bind_eq_ok.mp e
  cases e
  dsimp only
  have : net_radiation p.input1 p.snow = none := by
    unfold net_radiation
    rcases hn with hn | hn
    · rw [hn, n_add]
    · rw [hn]; simp only [n_sub, mul_n, add_n]
  rw [this]
  simp only [n_add]

theorem mass_balance_bare {s s' : Snow} (hc : s.snowcover = false) (hl : s.layer_count = 0)
    (hw : i.precip_now = true → ¬(some 0 : NVal) <ₙ i.m_snow) (e : mass_balance c i dt s = .ok s') :
    s'.layer_count = 0 ∧ s'.m_s = s.m_s := by
  unfold mass_balance at e
  obtain ⟨s1, e1, e⟩ := bind_eq_ok.mp e
  obtain ⟨s2, e2, e⟩ := bind_eq_ok.mp e
  obtain ⟨s3, e3, e⟩ := bind_eq_ok.mp e
  obtain ⟨s4, e4, e⟩ := bind_eq_ok.mp e
  obtain ⟨s5, e5, e⟩ := bind_eq_ok.mp e
  obtain ⟨s6, e6, e⟩ := bind_eq_ok.mp e
  unfold time_compact at e1
  rw [if_pos (.inl hc)] at e1
  cases e1
  have h2 : s2.snowcover = false ∧ s2.layer_count = 0 ∧ s2.m_s = s.m_s := by
    unfold precip_event at e2
    split at e2
    · rename_i hp
      rw [if_neg (by rw [hc]; simp), if_neg (show ¬(0 : NVal) <ₙ i.m_snow from hw hp)] at e2
      cases e2
      exact ⟨hc, hl, rfl⟩
    · cases e2
      exact ⟨hc, hl, rfl⟩
  obtain ⟨k1, k2, k3⟩ := h2
  unfold snowmelt at e3
  rw [if_pos k1] at e3
  cases e3
  unfold evap_cond at e4
  rw [if_pos k1] at e4
  cases e4
  have h5 := h2o_compact_bare (s := { s2 with melt := 0, E_s := 0 }) k1 e5
  subst h5
  have h6 := runoff_bare (s := { s2 with melt := 0, E_s := 0 }) k1 e6
  subst h6
  rw [if_neg (by rw [show s2.snowcover = false from k1]; simp)] at e
  cases e
  exact ⟨k2, k3⟩

/-- Missing wind, air temperature, humidity, ground temperature or surface temperature: no snow lies at the end of the
step. -/
theorem step_nan {dl : NInput} {p p' : Phys} (hB : p.snow.layer_count = 0 → p.snow.m_s = some 0)
    (hw : p.input1.precip_now = true → ¬(some 0 : NVal) <ₙ dl.m_snow)
    (hn : p.snow.layer_count = 0 ∨ p.input1.u = none ∨ p.input1.t_a = none ∨ p.input1.e_a = none ∨
      p.input1.t_g = none ∨ p.snow.t_s_0 = none)
    (e : stepPhys c dt dl p = .ok p') :
    p'.snow.layer_count = 0 ∧ p'.snow.m_s = some 0 ∧ (0 < p.snow.layer_count →
      p'.snow.E_s = some 0 ∨
      (Bare p'.snow ∧ p'.snow.z_s = none ∧ p'.snow.E_s = none ∧ ¬(some 0 : NVal) <ₙ p'.snow.swi)) := by
  obtain ⟨q, e1, e2, _⟩ := stepPhys_parts e
  obtain ⟨w1, w2, w3, w4, w5, w6, w7, w8⟩ := forcing_weather p dl
  obtain ⟨k1, k2, k3, _, _, _, k7⟩ := energy_balance_keeps e1
  have k1' : q.snow.snowcover = decide (0 < p.snow.layer_count) := k1
  have k2' : q.snow.layer_count = p.snow.layer_count := k2
  have k3' : q.snow.m_s = p.snow.m_s := k3
  have hq : q.input1.t_g = p.input1.t_g ∧ q.input1.precip_now = p.input1.precip_now ∧
      q.input1.m_snow = (p.forcing dl).m_snow := by
    rcases k7 with k7 | ⟨x, k7⟩
    · rw [k7]; exact ⟨w6, w7, rfl⟩
    · rw [k7]; exact ⟨w6, w7, rfl⟩
  have hw' : q.input1.precip_now = true → ¬(some 0 : NVal) <ₙ q.input1.m_snow := by
    intro h
    rw [hq.2.1] at h
    rw [hq.2.2, w8 h]
    exact hw h
  by_cases hl : p.snow.layer_count = 0
  · obtain ⟨j1, j2⟩ := mass_balance_bare (by rw [k1', hl]; rfl) (k2'.trans hl) hw' e2
    exact ⟨j1, j2.trans (k3'.trans (hB hl)), fun h => absurd hl h.ne'⟩
  · have hl' := Nat.pos_of_ne_zero hl
    have hcov : Cov False q.snow := .inl ⟨by rw [k1']; exact decide_eq_true hl', by rw [k2']; exact hl'⟩
    have hE : q.snow.E = none ∨ q.input1.t_g = none := by
      rcases hn with hn | hn | hn | hn | hn | hn
      · exact absurd hn hl
      · exact .inl (energy_balance_nan (p := p.begin dl) hl' (.inl (w5.trans hn)) e1)
      · exact .inl (energy_balance_nan (p := p.begin dl) hl' (.inr (.inl (w3.trans hn))) e1)
      · exact .inl (energy_balance_nan (p := p.begin dl) hl' (.inr (.inr (.inl (w4.trans hn)))) e1)
      · exact .inr (hq.1.trans hn)
      · exact .inl (energy_balance_nan (p := p.begin dl) hl' (.inr (.inr (.inr hn))) e1)
    obtain ⟨j1, j2, j3⟩ := mass_balance_nan hw' hcov hE e2
    exact ⟨j1, j2, fun _ => j3⟩

/-- The invariant of every step: no layer, no mass. -/
theorem step_mass {dl : NInput} {p p' : Phys} (hB : p.snow.layer_count = 0 → p.snow.m_s = some 0)
    (e : stepPhys c dt dl p = .ok p') : p'.snow.layer_count = 0 → p'.snow.m_s = some 0 := by
  obtain ⟨q, e1, e2, _⟩ := stepPhys_parts e
  obtain ⟨k1, k2, k3, _, _, _, k7⟩ := energy_balance_keeps e1
  have k1' : q.snow.snowcover = decide (0 < p.snow.layer_count) := k1
  have k2' : q.snow.layer_count = p.snow.layer_count := k2
  have k3' : q.snow.m_s = p.snow.m_s := k3
  have hcov : Cov True q.snow := by
    by_cases hl : p.snow.layer_count = 0
    · exact .inr ⟨by rw [k1', hl]; rfl, fun _ => k3'.trans (hB hl), fun h => absurd trivial h⟩
    · exact .inl ⟨by rw [k1']; exact decide_eq_true (Nat.pos_of_ne_zero hl), by rw [k2']; exact Nat.pos_of_ne_zero hl⟩
  rcases mass_balance_cov (fun _ _ => trivial) hcov e2 with ⟨_, h⟩ | ⟨_, h, _⟩
  · exact fun h0 => absurd h0 h.ne'
  · exact h

/-! ### Missing radiation -/

theorem adj_layers_cc {s : Snow} (h : (adj_layers c s).snowcover = true) : (adj_layers c s).cc_s_0 = s.cc_s_0 := by
  have hc : (s.calc_layers c).cc_s_0 = s.cc_s_0 := by unfold Snow.calc_layers; split <;> rfl
  revert h
  unfold adj_layers
  dsimp only
  split
  · split <;> exact fun h => absurd h (by simp)
  · split_ifs <;> exact fun _ => hc

theorem adj_snow_cc {dz dm : NVal} {s : Snow} (h : (adj_snow c dz dm s).snowcover = true) :
    (adj_snow c dz dm s).cc_s_0 = s.cc_s_0 := by
  revert h
  unfold adj_snow
  dsimp only
  generalize (if ¬(s.z_s + dz) =ₙ 0 then (s.m_s + dm) / (s.z_s + dz) else 0) = ρ
  split
  · exact adj_layers_cc
  · split
    · exact adj_layers_cc
    · exact fun _ => rfl

theorem snowmelt_cc {s s' : Snow} (hc : s.snowcover = true) (hq : s.en.delta_Q_0 = none)
    (e : snowmelt c dt s = .ok s') (h : s'.snowcover = true) : s'.cc_s_0 = none := by
  unfold snowmelt at e
  rw [if_neg (by simp [hc])] at e
  obtain ⟨⟨t1, r1⟩, e1, e⟩ := bind_eq_ok.mp e
  obtain ⟨⟨t2, r2⟩, e2, e⟩ := bind_eq_ok.mp e
  dsimp only at e e2
  have hQ : meltQ0 dt s = none := by
    unfold meltQ0
    rw [hq, n_mul, n_add]
  have h0 : (meltLayers dt s).cc_s_0 = none := by
    unfold meltLayers
    dsimp only
    rw [hQ, if_neg (NVal.lt_none _), if_neg (NVal.none_eq _)]
    split_ifs <;> rfl
  have h1 : t1.cc_s_0 = none := by
    unfold refreezeSurf at e1
    rw [if_neg (by rw [h0]; exact fun h => NVal.none_lt _ h.1)] at e1
    cases e1
    exact h0
  have h2 : t2.cc_s_0 = none := by
    unfold refreezeLower at e2
    split at e2
    · obtain ⟨_, _, e2⟩ := bind_eq_ok.mp e2
      dsimp only at e2
      split at e2 <;> cases e2 <;> exact h1
    · cases e2; exact h1
  have h3 : (refreezeSnap t2 r2).cc_s_0 = none := by
    unfold refreezeSnap
    split <;> exact h2
  split at e
  · obtain ⟨q, _, e⟩ := bind_eq_ok.mp e
    cases e
    exact (adj_snow_cc h).trans h3
  · cases e
    exact h3

/-- Cold content missing as long as the flag is set. -/
def Rad (s : Snow) : Prop := s.snowcover = true → s.cc_s_0 = none

theorem adj_layers_flag {s : Snow} (h : (adj_layers c s).snowcover = true) : s.snowcover = true := by
  have hc : (s.calc_layers c).snowcover = s.snowcover := by unfold Snow.calc_layers; split <;> rfl
  revert h
  unfold adj_layers
  dsimp only
  split
  · split <;> exact fun h => absurd h (by simp)
  · split_ifs <;> exact fun h => hc ▸ h

theorem adj_snow_flag {dz dm : NVal} {s : Snow} (h : (adj_snow c dz dm s).snowcover = true) : s.snowcover = true := by
  revert h
  unfold adj_snow
  dsimp only
  generalize (if ¬(s.z_s + dz) =ₙ 0 then (s.m_s + dm) / (s.z_s + dz) else 0) = ρ
  split
  · exact adj_layers_flag
  · split
    · exact adj_layers_flag
    · exact fun h => h

theorem evap_cond_rad {s s' : Snow} (h : Rad s) (e : evap_cond c i dt s = .ok s') : Rad s' := by
  intro hs
  by_cases hc : s.snowcover = true
  · by_cases hl : s.layer_count = 0
    · rw [evap_cond_none c i dt s hc hl] at e
      cases e
      exact h hc
    · rw [evap_cond_some c i dt s hc hl] at e
      obtain ⟨_, _, e⟩ := bind_eq_ok.mp e
      obtain ⟨_, _, e⟩ := bind_eq_ok.mp e
      cases e
      exact (adj_snow_cc hs).trans (h hc)
  · unfold evap_cond at e
    rw [if_pos (by simpa using hc)] at e
    cases e
    exact absurd hs hc

theorem h2o_compact_rad {s s' : Snow} (h : Rad s) (e : h2o_compact c i s = .ok s') : Rad s' := by
  intro hs
  unfold h2o_compact at e
  split at e
  · cases e; exact h hs
  · obtain ⟨_, _, e⟩ := bind_eq_ok.mp e
    split at e
    · obtain ⟨_, _, e⟩ := bind_eq_ok.mp e
      obtain ⟨_, _, e⟩ := bind_eq_ok.mp e
      obtain ⟨_, _, e⟩ := bind_eq_ok.mp e
      cases e
      have k := adj_layers_flag hs
      exact (adj_layers_cc hs).trans (h k)
    · cases e; exact h hs

theorem runoff_rad {s s' : Snow} (h : Rad s) (e : runoff c s = .ok s') : Rad s' := by
  intro hs
  unfold runoff at e
  split at e
  · cases e; exact h hs
  · obtain ⟨_, _, e⟩ := bind_eq_ok.mp e
    dsimp only at e
    split at e
    · cases e
      have k := adj_snow_flag hs
      exact (adj_snow_cc hs).trans (h k)
    · obtain ⟨_, _, e⟩ := bind_eq_ok.mp e
      cases e
      exact h hs

theorem new_tsno_nan {a b r : NVal} (e : new_tsno a b none = .ok r) : r = none := by
  unfold new_tsno at e
  obtain ⟨t, ht, e⟩ := bind_eq_ok.mp e
  have := pdiv_nan ht (.inl rfl)
  subst this
  exact (Except.ok.inj e).symm

theorem adjust_nan {s s' : Snow} (hl : 0 < s.layer_count) (hc : s.cc_s_0 = none)
    (e : s.adjust_layer_temps = .ok s') : s'.t_s_0 = none ∧ s'.t_s = none := by
  have hcc : s.cc_s = none := by unfold Snow.cc_s; rw [hc, n_add]
  unfold Snow.adjust_layer_temps at e
  split at e
  · obtain ⟨t, ht, e⟩ := bind_eq_ok.mp e
    cases e
    rw [hc] at ht
    exact ⟨new_tsno_nan ht, new_tsno_nan ht⟩
  · split at e
    · rw [if_neg (by unfold Snow.isothermal; rw [hcc]; exact NVal.none_eq _)] at e
      obtain ⟨t, ht, e⟩ := bind_eq_ok.mp e
      obtain ⟨_, _, e⟩ := bind_eq_ok.mp e
      obtain ⟨t', ht', e⟩ := bind_eq_ok.mp e
      cases e
      rw [hc] at ht
      rw [hcc] at ht'
      exact ⟨new_tsno_nan ht, new_tsno_nan ht'⟩
    · rename_i h1 h2
      exfalso
      unfold Snow.layer_count at h1 h2 hl
      split_ifs at h1 h2 hl <;> simp_all

/-- Missing radiation: at the end of the step no snow lies or its temperatures are missing. -/
theorem step_rad {dl : NInput} {p p' : Phys} (hB : p.snow.layer_count = 0 → p.snow.m_s = some 0)
    (hw : p.input1.precip_now = true → ¬(some 0 : NVal) <ₙ dl.m_snow)
    (hn : p.input1.S_n = none ∨ p.input1.I_lw = none) (e : stepPhys c dt dl p = .ok p') :
    p'.snow.layer_count = 0 ∨ (p'.snow.t_s_0 = none ∧ p'.snow.t_s = none ∧ p'.snow.cc_s_0 = none) := by
  by_cases hl : p.snow.layer_count = 0
  · exact .inl (step_nan hB hw (.inl hl) e).1
  have hl' := Nat.pos_of_ne_zero hl
  obtain ⟨q, e1, e2, _⟩ := stepPhys_parts e
  obtain ⟨w1, w2, w3, w4, w5, w6, w7, w8⟩ := forcing_weather p dl
  obtain ⟨k1, k2, k3, _, _, _, k7⟩ := energy_balance_keeps e1
  have k1' : q.snow.snowcover = decide (0 < p.snow.layer_count) := k1
  have k2' : q.snow.layer_count = p.snow.layer_count := k2
  have hw' : q.input1.precip_now = true → ¬(some 0 : NVal) <ₙ q.input1.m_snow := by
    intro h
    rcases k7 with k7 | ⟨x, k7⟩
    · rw [k7] at h ⊢
      have h' : p.input1.precip_now = true := w7 ▸ h
      have := hw h'
      rwa [← w8 h'] at this
    · rw [k7] at h ⊢
      have h' : p.input1.precip_now = true := w7 ▸ h
      have := hw h'
      rwa [← w8 h'] at this
  have hcov : Cov False q.snow := .inl ⟨by rw [k1']; exact decide_eq_true hl', by rw [k2']; exact hl'⟩
  have hq := energy_balance_rad (p := p.begin dl) hl' (hn.imp w1.trans w2.trans) e1
  have hfin := mass_balance_cov (fun a b => hw' a b) hcov e2
  unfold mass_balance at e2
  obtain ⟨s1, f1, e2⟩ := bind_eq_ok.mp e2
  obtain ⟨s2, f2, e2⟩ := bind_eq_ok.mp e2
  obtain ⟨s3, f3, e2⟩ := bind_eq_ok.mp e2
  obtain ⟨s4, f4, e2⟩ := bind_eq_ok.mp e2
  obtain ⟨s5, f5, e2⟩ := bind_eq_ok.mp e2
  obtain ⟨s6, f6, e2⟩ := bind_eq_ok.mp e2
  have hen : s2.en.delta_Q_0 = none := by rw [precip_event_en f2, time_compact_en f1]; exact hq
  have h3 : Rad s3 := by
    by_cases hc : s2.snowcover = true
    · exact snowmelt_cc hc hen f3
    · unfold snowmelt at f3
      rw [if_pos (by simpa using hc)] at f3
      cases f3
      exact fun h => absurd h hc
  have h6 := runoff_rad (h2o_compact_rad (evap_cond_rad h3 f4) f5) f6
  rcases hfin with ⟨j1, j2⟩ | ⟨_, _, j⟩
  · split at e2
    · rename_i hs
      obtain ⟨m1, m2, _⟩ := adjust_layer_temps_same e2
      obtain ⟨a, b⟩ := adjust_nan (m2 ▸ j2) (h6 hs) e2
      refine .inr ⟨a, b, ?_⟩
      have : p'.snow.cc_s_0 = s6.cc_s_0 := by
        unfold Snow.adjust_layer_temps at e2
        split at e2
        · obtain ⟨_, _, e2⟩ := bind_eq_ok.mp e2
          exact (congrArg Snow.cc_s_0 (Except.ok.inj e2)).symm
        · split at e2
          · split at e2
            · exact (congrArg Snow.cc_s_0 (Except.ok.inj e2)).symm
            · obtain ⟨_, _, e2⟩ := bind_eq_ok.mp e2
              obtain ⟨_, _, e2⟩ := bind_eq_ok.mp e2
              obtain ⟨_, _, e2⟩ := bind_eq_ok.mp e2
              exact (congrArg Snow.cc_s_0 (Except.ok.inj e2)).symm
          · exact (congrArg Snow.cc_s_0 (Except.ok.inj e2)).symm
      rw [this]
      exact h6 hs
    · rename_i hs
      have := Except.ok.inj e2
      rw [← this] at j1
      exact absurd j1 hs
  · exact .inl (j not_false)

/-- With a missing snow temperature, a snowcover not yet at the density limit leaves as water in the next step. -/
theorem step_drain {dl : NInput} {p p' : Phys} {m ρ : ℝ} (hl : 0 < p.snow.layer_count) (ht : p.snow.t_s = none)
    (hm : p.snow.m_s = some m) (h0 : 0 < m) (hth : c.small_threshold < m) (hρ : p.snow.rho = some ρ) (hρ' : ρ < RHO_MAX)
    (hp : p.input1.precip_now = false) (e : stepPhys c dt dl p = .ok p') :
    Bare p'.snow ∧ p'.snow.z_s = none ∧ p'.snow.swi = some m ∧ p'.snow.melt = some 0 ∧ p'.snow.E_s = some 0 := by
  obtain ⟨q, e1, e2, _⟩ := stepPhys_parts e
  obtain ⟨w1, w2, w3, w4, w5, w6, w7, w8⟩ := forcing_weather p dl
  obtain ⟨k1, k2, k3, k4, k5, k6, k7⟩ := energy_balance_keeps e1
  have k1' : q.snow.snowcover = decide (0 < p.snow.layer_count) := k1
  have k3' : q.snow.m_s = some m := k3.trans hm
  have k4' : q.snow.t_s = none := k4.trans ht
  have k5' : q.snow.rho = some ρ := k5.trans hρ
  have k6' : q.snow.h2o_total = some 0 := k6
  have hp' : q.input1.precip_now = false := by
    rcases k7 with k7 | ⟨x, k7⟩ <;> rw [k7] <;> exact w7.trans hp
  have hsc : q.snow.snowcover = true := by rw [k1']; exact decide_eq_true hl
  unfold mass_balance at e2
  obtain ⟨s1, f1, e2⟩ := bind_eq_ok.mp e2
  obtain ⟨s2, f2, e2⟩ := bind_eq_ok.mp e2
  obtain ⟨s3, f3, e2⟩ := bind_eq_ok.mp e2
  obtain ⟨s4, f4, e2⟩ := bind_eq_ok.mp e2
  obtain ⟨s5, f5, e2⟩ := bind_eq_ok.mp e2
  obtain ⟨s6, f6, e2⟩ := bind_eq_ok.mp e2
  have h1 : Bare s1 ∧ s1.z_s = none ∧ s1.h2o_total = some m := by
    unfold time_compact at f1
    rw [if_neg (by rw [hsc, k5', NVal.le_some]; simp [hρ'])] at f1
    obtain ⟨rate, _, f1⟩ := bind_eq_ok.mp f1
    obtain ⟨d1, hd1, f1⟩ := bind_eq_ok.mp f1
    obtain ⟨d2, hd2, f1⟩ := bind_eq_ok.mp f1
    obtain ⟨z, hz, f1⟩ := bind_eq_ok.mp f1
    have hd : d1 = none := pdiv_nan hd1 (.inl (by rw [k4']; simp only [sub_n, mul_n, nexp_n]))
    subst hd
    have hz' : z = none := pdiv_nan hz (.inr (by simp only [n_add, n_mul, add_n]))
    subst hz'
    cases f1
    obtain ⟨a, b, _, _, d⟩ := adj_layers_nan (c := c) (s := { q.snow with rho := q.snow.rho + (none + d2) * q.snow.rho, z_s := none }) rfl
      (by rw [k3', NVal.le_some]; exact not_le.mpr hth)
    refine ⟨a, b, d.trans ?_⟩
    dsimp only
    rw [k3', k6', if_pos ((NVal.lt_some _ _).mpr h0), add_s, zero_add]
  obtain ⟨b, bz, bh⟩ := h1
  unfold precip_event at f2
  rw [if_neg (by rw [hp']; simp)] at f2
  cases f2
  have b2 : Bare { s1 with h2o_total := s1.h2o_total + s1.h2o } := b
  unfold snowmelt at f3
  rw [if_pos b2.2.1] at f3
  cases f3
  unfold evap_cond at f4
  rw [if_pos b2.2.1] at f4
  cases f4
  have h5 := h2o_compact_bare (s := { s1 with h2o_total := s1.h2o_total + s1.h2o, melt := 0, E_s := 0 }) b.2.1 f5
  subst h5
  have h6 := runoff_bare (s := { s1 with h2o_total := s1.h2o_total + s1.h2o, melt := 0, E_s := 0 }) b.2.1 f6
  subst h6
  rw [if_neg (by rw [show s1.snowcover = false from b.2.1]; simp)] at e2
  have e3 := Except.ok.inj e2
  rw [← e3]
  refine ⟨b, bz, ?_, rfl, rfl⟩
  show s1.h2o_total + s1.h2o = some m
  rw [bh, b.2.2.2.2.2.1, add_s, add_zero]

end Nan

end

end Pysnobal
