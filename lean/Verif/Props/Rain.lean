import Verif.Props.Radiation

/-! # C88: warmer rain never means less melt -/

namespace Pysnobal

noncomputable section

/-! ## Specification -/

/-- The heat `m` kg/m² of rain at `t` gives off in cooling to `T`, with the specific heat of water at `t` (J/m²). -/
def rainHeat (m t T : ℝ) : ℝ := (4217.7 - 2.55 * (t - 273.16)) * m * (t - T)

/-- What a run step of length `dt` leaves (`s`), and what it would have left (`s'`) with rain that brings `δ` W/m² more; `pack` says whether
there was snow at its start. -/
structure WarmerRain (dt δ : ℝ) (pack : Bool) (s s' : Snow) : Prop where
  /-- no other flux changes -/
  fluxes : s'.en.H = s.en.H ∧ s'.en.L_v_E = s.en.L_v_E ∧ s'.en.G = s.en.G ∧ s'.en.G_0 = s.en.G_0 ∧ s'.en.R_n = s.en.R_n ∧ s'.E = s.E
  balance : pack = true → s'.en.M = s.en.M + δ ∧ s'.en.delta_Q_0 = s.en.delta_Q_0 + δ ∧ s'.en.delta_Q = s.en.delta_Q + δ
  /-- rain on bare ground brings no heat to any snow -/
  bare : pack = false → s'.en.M = 0 ∧ s.en.M = 0
  /-- no less melts, and no more than the additional energy can melt -/
  melt : s.melt ≤ s'.melt
  melt_bound : 333600 * (s'.melt - s.melt) ≤ δ * dt
  /-- the surface layer is left no colder -/
  cold : s.snowcover = true → s'.snowcover = true → s.cc_s_0 ≤ s'.cc_s_0
  /-- and no less liquid water is retained or runs off, if the exchange of vapour with the soil is the same -/
  water : s.snowcover = true → s'.snowcover = true → s.E_s = s'.E_s → s.h2o + s.swi ≤ s'.h2o + s'.swi

/-! ## The heat of the rain -/

theorem rainHeat_sub (m t t' T : ℝ) : rainHeat m t' T - rainHeat m t T = m * (t' - t) * (4914.258 - 2.55 * (t + t' - T)) := by
  unfold rainHeat; ring

/-- Up to the boiling point, warmer rain brings more heat: at least 3000 J per kg and degree. -/
theorem rainHeat_mono {m t t' T : ℝ} (hm : 0 ≤ m) (h : t ≤ t') (hb : t' ≤ BOIL) (hT : 0 ≤ T) :
    3000 * m * (t' - t) ≤ rainHeat m t' T - rainHeat m t T := by
  rw [rainHeat_sub]
  unfold BOIL at hb
  have h1 : 3000 ≤ 4914.258 - 2.55 * (t + t' - T) := by norm_num at hb ⊢; linarith
  have h2 : 0 ≤ m * (t' - t) := mul_nonneg hm (by linarith)
  nlinarith

/-- The forcing with another temperature of rain. -/
def InputData.rained (tr tp : ℝ) (i : InputData) : InputData := { i with t_rain := tr, t_pp := tp }

def Energy.plusM (δ : ℝ) (e : Energy) : Energy :=
  { e with M := e.M + δ, delta_Q_0 := e.delta_Q_0 + δ, delta_Q := e.delta_Q + δ }

theorem h_le_rained (c : Env) (tr tp : ℝ) (p : Phys) :
    h_le c { p with input1 := p.input1.rained tr tp } =
      (h_le c p).map fun q => (q.1, { q.2 with input1 := q.2.input1.rained tr tp }) := by
  unfold h_le
  rw [map_bind_err]
  refine bind_ext_err (x := p.input1.sat_vp) fun sv => ?_
  have e1 : ∀ i' : InputData, i' = (if p.input1.e_a > sv then { p.input1 with e_a := sv } else p.input1) →
      (if (p.input1.rained tr tp).e_a > sv then { p.input1.rained tr tp with e_a := sv } else p.input1.rained tr tp) = i'.rained tr tp := by
    intro i' h
    rw [h]
    show (if p.input1.e_a > sv then _ else _) = _
    split <;> rfl
  dsimp only
  rw [e1 _ rfl, map_bind_err]
  refine bind_ext_err fun es => ?_
  rw [map_bind_err]
  refine bind_ext_err fun r => ?_
  dsimp only
  split <;> rfl

theorem h_le_keeps {c : Env} {p q : Phys} {r : HleOut} (h : h_le c p = .ok (r, q)) :
    q.snow = p.snow ∧ q.input1.precip_now = p.input1.precip_now ∧ q.input1.m_rain = p.input1.m_rain ∧ q.input1.t_rain = p.input1.t_rain := by
  unfold h_le at h
  obtain ⟨sv, _, h⟩ := bind_eq_ok.mp h
  obtain ⟨es, _, h⟩ := bind_eq_ok.mp h
  obtain ⟨r', _, h⟩ := bind_eq_ok.mp h
  dsimp only at h
  split at h
  · cases h
  · simp only [pure_ok, bind_ok, Except.ok.injEq, Prod.mk.injEq] at h
    rw [← h.2]
    dsimp only
    split <;> exact ⟨rfl, rfl, rfl, rfl⟩

theorem advec_rained {i : InputData} {dt tr δ : ℝ} (tp : ℝ) {s : Snow} (hdt : dt ≠ 0)
    (hδ : δ * dt = if i.precip_now then rainHeat i.m_rain tr s.t_s_0 - rainHeat i.m_rain i.t_rain s.t_s_0 else 0) :
    advec (i.rained tr tp) dt s = (advec i dt s).map (· + δ) := by
  unfold advec
  show (if i.precip_now = true then _ else _) = _
  split at hδ
  · rename_i hp
    rw [if_pos hp, if_pos hp, pdiv_of_ne hdt, pdiv_of_ne hdt]
    show Except.ok _ = Except.ok _
    congr 1
    have e : δ = (rainHeat i.m_rain tr s.t_s_0 - rainHeat i.m_rain i.t_rain s.t_s_0) / dt := by rw [← hδ]; field_simp
    rw [e]
    unfold rainHeat heat_stor cp_water CP_W0 FREEZE InputData.rained
    dsimp only
    ring
  · rename_i hp
    rw [if_neg hp, if_neg hp]
    have : δ = 0 := by
      rcases mul_eq_zero.mp hδ with h | h
      · exact h
      · exact absurd h hdt
    rw [this]
    simp [Except.map]

theorem energy_balance_rained (c : Env) (dt tp : ℝ) {tr δ : ℝ} (hdt : dt ≠ 0) (p : Phys)
    (hδ : p.snow.layer_count > 0 → δ * dt = if p.input1.precip_now then rainHeat p.input1.m_rain tr p.snow.t_s_0 - rainHeat p.input1.m_rain p.input1.t_rain p.snow.t_s_0 else 0) :
    energy_balance c dt { p with input1 := p.input1.rained tr tp } =
      (energy_balance c dt p).map fun q => { q with
        input1 := q.input1.rained tr tp
        snow := q.snow.setEn (if p.snow.layer_count > 0 then q.snow.en.plusM δ else q.snow.en) } := by
  unfold energy_balance
  show (if p.snow.layer_count > 0 then _ else _) = _
  by_cases hl : p.snow.layer_count > 0
  · have hδ := hδ hl
    rw [if_pos hl, if_pos hl, h_le_rained]
    have hn : net_radiation (p.input1.rained tr tp) p.snow = net_radiation p.input1 p.snow := rfl
    dsimp only
    rw [hn]
    cases hh : h_le c p with
    | error e => rfl
    | ok q =>
      obtain ⟨r, q⟩ := q
      obtain ⟨a1, a2, a3, a4⟩ := h_le_keeps hh
      rw [← a1, ← a2, ← a3, ← a4] at hδ
      have ea := advec_rained tp hdt hδ
      show (heat_transfer c q.input1 q.snow >>= fun a => (advec (q.input1.rained tr tp) dt q.snow >>= _)) =
        (heat_transfer c q.input1 q.snow >>= fun a => (advec q.input1 dt q.snow >>= _)).map _
      rw [ea]
      cases heat_transfer c q.input1 q.snow with
      | error e => rfl
      | ok a =>
        cases advec q.input1 dt q.snow with
        | error e => rfl
        | ok M =>
          obtain ⟨G, G0⟩ := a
          show Except.ok _ = Except.ok _
          simp only [hl, if_true, Snow.setEn, Energy.plusM, Except.ok.injEq, Phys.mk.injEq, Snow.mk.injEq, Energy.mk.injEq, true_and, and_true]
          constructor <;> ring
  · rw [if_neg hl, if_neg hl]
    show Except.ok _ = Except.ok _
    simp only [hl, if_false, Snow.setEn]

theorem applied_rained (dl : InputData) (tr tp : ℝ) (i : InputData) : applied dl (i.rained tr tp) = (applied dl i).rained tr tp := by
  unfold applied
  show (if i.precip_now then _ else _) = _
  split <;> rfl

/-! ## The step -/

theorem rain_step {g : Config} {c : Env} {dt : ℝ} {d : InputData} {lv : Level} {p p1 p2 : Phys} {tr tp δ : ℝ} (hc : c.OK)
    (hv : c.max_h2o_vol = g.max_h2o) (hdt : 0 < dt) (hi : Inv c p.snow) (hh : 0 ≤ p.snow.h2o)
    (h1 : stepPhys c dt d p = .ok p1) (hf : p1.input1.precip_now = true → StepForcing p1.input1)
    (hδ : p.snow.layer_count > 0 → δ * dt = if p1.input1.precip_now then rainHeat p1.input1.m_rain tr p.snow.t_s_0 - rainHeat p1.input1.m_rain p.input1.t_rain p.snow.t_s_0 else 0)
    (hδ0 : 0 ≤ δ)
    (h2 : stepPhys c dt d { p with input1 := p.input1.rained tr tp } = .ok p2) :
    WarmerRain dt δ (decide (p.snow.layer_count > 0)) p1.snow p2.snow := by
  have hmax := hc.max_z
  obtain ⟨s0, s1, s2, s3, s4, s5, s6, k⟩ := step_chain hmax hi h1
  obtain ⟨s0', s1', s2', s3', s4', s5', s6', k'⟩ := step_chain (p := { p with input1 := p.input1.rained tr tp }) hmax hi h2
  -- the fluxes
  have he := energy_balance_rained c dt tp (tr := tr) (δ := δ) hdt.ne' ⟨{ p.snow with h2o_total := 0, snowcover := decide (p.snow.layer_count > 0) }, applied d p.input1, p.init_ustar, p.init_factor⟩
    (by
      have hin := k.input
      have e1 : p1.input1.precip_now = (applied d p.input1).precip_now := by rw [hin]
      have e2 : p1.input1.m_rain = (applied d p.input1).m_rain := by rw [hin]
      have e3 : (applied d p.input1).t_rain = p.input1.t_rain := by unfold applied; split <;> rfl
      rw [← e1, ← e2, e3]; exact hδ)
  have ke := k.eb
  have ke' := k'.eb
  dsimp only at ke ke' he
  rw [applied_rained] at ke'
  rw [ke', ke] at he
  have he := Except.ok.inj he
  obtain ⟨e', hee⟩ : ∃ e', e' = if p.snow.layer_count > 0 then s0.en.plusM δ else s0.en := ⟨_, rfl⟩
  have hs0 : s0' = s0.setEn e' := by
    have := congrArg Phys.snow he
    rw [hee]; exact this
  have hin : p2.input1 = p1.input1.rained tr tp := congrArg Phys.input1 he
  have lift : ∀ {f : Snow → Except Err Snow} (_ : ∀ e s, f (s.setEn e) = (f s).map (Snow.setEn e)) {a a' b b' : Snow},
      f a = .ok b → f a' = .ok b' → a' = a.setEn e' → b' = b.setEn e' ∧ b.en = a.en := by
    intro f hf a a' b b' h h' ea
    have q1 := hf e' a
    rw [← ea, h', h] at q1
    have q2 := hf a.en a
    have e0 : a.setEn a.en = a := rfl
    rw [e0] at q2
    have q3 : Except.ok b = (Except.ok b : Except Err Snow).map (Snow.setEn a.en) := by
      have q4 := q2
      rw [h] at q4
      exact q4
    have q5 : b = b.setEn a.en := Except.ok.inj q3
    have q6 : b.en = (b.setEn a.en).en := congrArg Snow.en q5
    exact ⟨Except.ok.inj q1, q6⟩
  obtain ⟨hs1, en1⟩ := lift (fun e s => time_compact_setEn c e dt s) k.tc k'.tc hs0
  have hpe' : precip_event c p1.input1 s1' = .ok s2' := by
    have := k'.pe
    rw [hin] at this
    exact this
  obtain ⟨hs2, en2⟩ := lift (fun e s => precip_event_setEn c e p1.input1 s) k.pe hpe' hs1
  have en20 : s2.en = s0.en := by rw [en2, en1]
  have en2' : s2'.en = e' := by rw [hs2]; rfl
  -- the melt stage
  obtain ⟨m1, n1, o1, _⟩ := k.melt_en hmax
  obtain ⟨m2, n2, o2, _⟩ := k'.melt_en hmax
  have hmelt : ∀ {a b : Snow}, Inv c a → snowmelt c dt a = .ok b → b.en = a.en ∧ b.E = a.E ∧
      ((a.snowcover = false ∧ b.melt = 0) ∨ (a.snowcover = true ∧ ∃ t r, MeltRes dt a t r ∧ b.melt = t.melt)) := by
    intro a b hi h
    rcases snowmelt_out hmax hi h with ⟨hf, e⟩ | ⟨hf, t, r, hm, _, h3⟩
    · rw [e]; exact ⟨rfl, rfl, .inl ⟨hf, rfl⟩⟩
    · have ht : t.en = a.en ∧ t.E = a.E := by rw [hm.frame]; exact ⟨rfl, rfl⟩
      rcases h3 with ⟨st, _⟩ | hg
      · exact ⟨st.en.trans ht.1, st.E.trans ht.2, .inr ⟨hf, t, r, hm, st.melt⟩⟩
      · exact ⟨hg.en.trans ht.1, hg.E.trans ht.2, .inr ⟨hf, t, r, hm, hg.melt⟩⟩
  obtain ⟨en3, E3, c3⟩ := hmelt k.i2 k.sm
  obtain ⟨en3', E3', c3'⟩ := hmelt k'.i2 k'.sm
  have ena : p1.snow.en = s0.en := by rw [n1, en3, en20]
  have enb : p2.snow.en = e' := by rw [n2, en3', en2']
  have hfix : e'.H = s0.en.H ∧ e'.L_v_E = s0.en.L_v_E ∧ e'.G = s0.en.G ∧ e'.G_0 = s0.en.G_0 ∧ e'.R_n = s0.en.R_n := by
    rw [hee]; split <;> exact ⟨rfl, rfl, rfl, rfl, rfl⟩
  obtain ⟨δ', hδ', hq⟩ : ∃ δ', (0 ≤ δ' ∧ δ' ≤ δ * dt) ∧ e'.delta_Q_0 * dt = s2.en.delta_Q_0 * dt + δ' := by
    rw [hee, en20]
    split
    · exact ⟨δ * dt, ⟨mul_nonneg hδ0 hdt.le, le_refl _⟩, by show (s0.en.delta_Q_0 + δ) * dt = _; ring⟩
    · exact ⟨0, ⟨le_refl _, mul_nonneg hδ0 hdt.le⟩, by ring⟩
  have hG : e'.G - e'.G_0 = s2.en.G - s2.en.G_0 := by rw [hfix.2.2.1, hfix.2.2.2.1, en20]
  have hE : p2.snow.E = p1.snow.E := by
    rw [o1, o2, E3, E3', hs2]; rfl
  have hcov : s2'.snowcover = s2.snowcover := by rw [hs2]; rfl
  have hmm : p1.snow.melt ≤ p2.snow.melt ∧ 333600 * (p2.snow.melt - p1.snow.melt) ≤ δ * dt := by
    rw [m1, m2]
    rcases c3 with ⟨f, e⟩ | ⟨f, t, r, hm, e⟩ <;> rcases c3' with ⟨f', e''⟩ | ⟨f', t', r', hm', e''⟩
    · rw [e, e'', sub_self, mul_zero]
      exact ⟨le_refl _, mul_nonneg hδ0 hdt.le⟩
    · rw [hcov, f] at f'; cases f'
    · rw [hcov, f] at f'; cases f'
    · rw [hs2] at hm'
      obtain ⟨a1, a2, _⟩ := melt_mono hm hm' hδ'.1 hG hq
      rw [e, e'']
      rw [lf_eq] at a2
      exact ⟨a1, a2.trans hδ'.2⟩
  have fin : ∀ {q q' : Phys} {a0 a1 a2 a3 a4 a5 a6 t : Snow}, StepChain c dt d q q' a0 a1 a2 a3 a4 a5 a6 → Stay c t a2.m_s a3 →
      q'.snow.snowcover = true → q'.snow.cc_s_0 = t.cc_s_0 ∧ q'.snow.melt = t.melt := by
    intro q q' a0 a1 a2 a3 a4 a5 a6 t k st hs
    obtain ⟨f6, f5, f4, f3, _⟩ := k.persist hmax hs
    obtain ⟨_, _, el, w, _, hw, hE, st4, _⟩ := k.flag4 hmax f4
    obtain ⟨_, st5, _⟩ := k.flag5 hmax f5
    obtain ⟨_, _, _, d4, d5, d6, _, _, _, den, dcc, _⟩ := k.drained hmax f5
    refine ⟨?_, ((k.melt_en hmax).1).trans st.melt⟩
    rw [k.frame7]
    show a6.cc_s_0 = _
    rw [dcc, st5.cc0, st4.cc0]; exact st.cc0
  have hf2 : p2.input1.precip_now = true → StepForcing p2.input1 := by
    rw [hin]
    intro h
    obtain ⟨b1, b2, b3, b4, b5, b6, b7, b8⟩ := hf h
    exact ⟨b1, b2, b3, b4, b5, b6, b7, b8⟩
  have both : p1.snow.snowcover = true → p2.snow.snowcover = true → p1.snow.cc_s_0 ≤ p2.snow.cc_s_0 ∧
      (p1.snow.E_s = p2.snow.E_s → p1.snow.h2o + p1.snow.swi ≤ p2.snow.h2o + p2.snow.swi) := by
    intro c1 c2
    obtain ⟨r0, rl, w, wb, _, t, hm, st, _⟩ := k.ledgers (g := g) (x := ⟨lv, p, p1⟩) hc hv hdt hh hf c1
    obtain ⟨r0', rl', w', wb', _, t', hm', st', _⟩ :=
      k'.ledgers (g := g) (x := ⟨lv, { p with input1 := p.input1.rained tr tp }, p2⟩) hc hv hdt hh hf2 c2
    obtain ⟨_, _, _, _, f2, _⟩ := k.persist hmax c1
    have h02 := k.i2.flag f2
    have hz2 := k.i2.z_pos h02
    have b2 := k.books2 hc hh hf
    obtain ⟨g1, g2⟩ := fin k st c1
    obtain ⟨g1', g2'⟩ := fin k' st' c2
    rw [hs2] at hm'
    obtain ⟨_, _, a3⟩ := melt_mono hm hm' hδ'.1 hG hq
    obtain ⟨a4, a5⟩ := a3 hz2 h02.le k.i2.zl k.i2.sum b2.total
    refine ⟨by rw [g1, g1']; exact a4, fun hes => ?_⟩
    have hl := wb.left
    have hl' := wb'.left
    have ho := wb.out
    have ho' := wb'.out
    have hbd := wb.bound
    dsimp only at hl hl' ho ho' hbd
    have hwi : waterIn g ⟨lv, { p with input1 := p.input1.rained tr tp }, p2⟩ = waterIn g ⟨lv, p, p1⟩ := by
      unfold waterIn
      dsimp only
      rw [hin]
      rfl
    rw [hwi, g2'] at hl'
    rw [g2] at hl hbd
    rw [ho, ho', hE, ← hes]
    have hX : p.snow.h2o + waterIn g ⟨lv, p, p1⟩ + t.melt - (r0 + rl) ≤ p.snow.h2o + waterIn g ⟨lv, p, p1⟩ + t'.melt - (r0' + rl') := by linarith
    have hw0 : 0 ≤ w ∧ w ≤ w' := by
      rw [hl, hl']
      split
      · split
        · exact ⟨le_refl _, le_refl _⟩
        · rename_i n; exact ⟨le_refl _, by linarith⟩
      · rename_i n
        rw [if_neg (by linarith)]
        exact ⟨by linarith, hX⟩
    exact afterVapour_mono _ (afterVapour_nonneg' _ hw0.1) (afterVapour_mono _ hw0.1 hw0.2)
  refine ⟨?_, ?_, ?_, hmm.1, hmm.2, fun c1 c2 => (both c1 c2).1, fun c1 c2 => (both c1 c2).2⟩
  · rw [ena, enb]
    exact ⟨hfix.1, hfix.2.1, hfix.2.2.1, hfix.2.2.2.1, hfix.2.2.2.2, hE⟩
  · intro hp
    rw [ena, enb, hee, if_pos (of_decide_eq_true hp)]
    exact ⟨rfl, rfl, rfl⟩
  · intro hp
    have h0 := of_decide_eq_false hp
    have hz : s0.en = Energy.zero := (k.fluxes (by omega)).2
    rw [ena, enb, hee, if_neg h0, hz]
    exact ⟨rfl, rfl⟩

theorem rain_core {g : Config} {c : Env} {dt : ℝ} {d : InputData} {lv : Level} {p p1 p2 : Phys} {tr tp : ℝ} (hc : c.OK)
    (hv : c.max_h2o_vol = g.max_h2o) (hdt : 0 < dt) (hi : Inv c p.snow) (hh : 0 ≤ p.snow.h2o)
    (h1 : stepPhys c dt d p = .ok p1) (hf : p1.input1.precip_now = true → StepForcing p1.input1)
    (hp : p1.input1.precip_now = true) (ht : p.input1.t_rain ≤ tr) (hb : tr ≤ BOIL)
    (h2 : stepPhys c dt d { p with input1 := p.input1.rained tr tp } = .ok p2) :
    ∃ δ, WarmerRain dt δ (decide (p.snow.layer_count > 0)) p1.snow p2.snow ∧
      (p.snow.layer_count > 0 → δ * dt = rainHeat p1.input1.m_rain tr p.snow.t_s_0 - rainHeat p1.input1.m_rain p.input1.t_rain p.snow.t_s_0 ∧
        3000 * p1.input1.m_rain * (tr - p.input1.t_rain) ≤ δ * dt) := by
  have hr := (hf hp).rain
  by_cases hl : p.snow.layer_count > 0
  · obtain ⟨_, _, _, _, _, _, _, k⟩ := step_chain hc.max_z hi h1
    have hm := rainHeat_mono hr ht hb (k.temps hl).1.le
    have e : (rainHeat p1.input1.m_rain tr p.snow.t_s_0 - rainHeat p1.input1.m_rain p.input1.t_rain p.snow.t_s_0) / dt * dt =
        rainHeat p1.input1.m_rain tr p.snow.t_s_0 - rainHeat p1.input1.m_rain p.input1.t_rain p.snow.t_s_0 := by field_simp
    have h0 : 0 ≤ 3000 * p1.input1.m_rain * (tr - p.input1.t_rain) := mul_nonneg (by positivity) (by linarith)
    refine ⟨_, rain_step (g := g) (lv := lv) hc hv hdt hi hh h1 hf (fun _ => by rw [if_pos hp]; exact e) (div_nonneg (by linarith) hdt.le) h2, fun _ => ⟨e, ?_⟩⟩
    rw [e]; exact hm
  · refine ⟨0, ?_, fun h => absurd h hl⟩
    exact rain_step (g := g) (lv := lv) hc hv hdt hi hh h1 hf (fun h => absurd h hl) (le_refl _) h2

/-- C88, run steps: in every run step of every simulation with admissible data, if the rain had been warmer (`t'`, at most the boiling point,
instead of its temperature) and the step had been completed as well: the rain would have brought at least 3000 J more per kg and degree to a
pack; no other flux would have changed, no less snow would have melted, the surface layer would have been left no colder, and no less water
would have been retained or run off. -/
theorem C88_warmer_rain_step (g : Config) (hg : g.Tiled) (ha : g.AdmissibleStart) (rows : List Rec)
    (hr : ∀ r ∈ rows, r.Admissible) (ls : List (List (RStep Phys))) (m : Model)
    (h : RunTrace g rows ls m) : ∃ c ts, mkEnv g = .ok c ∧ parse_time_steps g = .ok ts ∧
      ∀ l ∈ ls, ∀ x ∈ l, ∃ d, stepPhys c (ts x.lv).time_step d x.pre = .ok x.post ∧
        ∀ t' y, x.post.input1.precip_now = true → x.pre.input1.t_rain ≤ t' → t' ≤ BOIL →
          stepPhys c (ts x.lv).time_step d { x.pre with input1 := { x.pre.input1 with t_rain := t' } } = .ok y →
          ∃ δ, WarmerRain (ts x.lv).time_step δ (decide (x.pre.snow.layer_count > 0)) x.post.snow y.snow ∧
            (x.pre.snow.layer_count > 0 → δ * (ts x.lv).time_step =
                rainHeat x.post.input1.m_rain t' x.pre.snow.t_s_0 - rainHeat x.post.input1.m_rain x.pre.input1.t_rain x.pre.snow.t_s_0 ∧
              3000 * x.post.input1.m_rain * (t' - x.pre.input1.t_rain) ≤ δ * (ts x.lv).time_step) := by
  obtain ⟨c, ts, hc, hts, ho, ht, hx⟩ := trace_closed hg ha hr h
  refine ⟨c, ts, hc, hts, fun l hl x hxl => ?_⟩
  obtain ⟨d, ⟨h1, h1'⟩, _, hf, h3, _⟩ := hx l hl x hxl
  refine ⟨d, h3, fun t' y hp htt hb h2 => ?_⟩
  exact rain_core (g := g) (lv := x.lv) ho (mkEnv_ok hc).2.2.1 (ht.step_pos x.lv) h1 h1' h3 hf hp htt hb h2

/-! ## Records -/

/-- What two output records of the same data step say, the second of a run with rain that brings `δ` W/m² more during that step (of length
`dt`).  `pack`: there was snow at its start; `covered`: there still is, in both runs. -/
structure WarmerRainRecord (dt δ : ℝ) (pack covered : Prop) (o o' : OutRec) : Prop where
  stamp : o'.date_time = o.date_time
  fluxes : o'.H_bar = o.H_bar ∧ o'.L_v_E_bar = o.L_v_E_bar ∧ o'.G_bar = o.G_bar ∧ o'.G_0_bar = o.G_0_bar ∧ o'.R_n_bar = o.R_n_bar
  balance : pack → o'.M_bar = o.M_bar + δ ∧ o'.delta_Q_0_bar = o.delta_Q_0_bar + δ ∧ o'.delta_Q_bar = o.delta_Q_bar + δ
  melt : o.melt_sum ≤ o'.melt_sum
  melt_bound : 333600 * (o'.melt_sum - o.melt_sum) ≤ δ * dt
  cold : covered → o.cc_s_0 ≤ o'.cc_s_0
  water : covered → o.E_s_sum = o'.E_s_sum → o.h2o + o.swi_sum ≤ o'.h2o + o'.swi_sum

/-- C88, records: two runs with the same records up to `a`, in which it rains, in the second at a greater temperature `t'`; each run completes one more data step, with any further record.  Rain
below freezing counts as rain at the freezing point.  If neither this nor the preceding data step is divided (no layer is lighter than the
normal threshold when it starts), the records of both runs are the same except for the last, which shows, for the run with warmer rain, the
additional heat, as much or more melt, a surface layer no colder, and as much or more water. -/
theorem C88_warmer_rain_record (g : Config) (hg : g.Tiled) (ha : g.AdmissibleStart) (L : List Rec) (a b b' : Rec) (t' : ℝ)
    (hr : ∀ r ∈ L ++ [a, b], r.Admissible) (wet : 0 < a.m_pp * (1 - a.percent_snow)) (hm : 0 < a.m_pp) (htt : a.t_pp ≤ t') (hbo : t' ≤ BOIL)
    (before : L = [] ∨ ∃ m0, simulate g L = .ok m0 ∧ m0.phys.snow.NoThinLayer g.norm_threshold)
    (m1 : Model) (h1 : simulate g (L ++ [a]) = .ok m1) (now : m1.phys.snow.NoThinLayer g.norm_threshold)
    (m m' : Model) (h : simulate g (L ++ [a, b]) = .ok m) (h' : simulate g (L ++ [{ a with t_pp := t' }, b']) = .ok m') :
    ∃ out o o' δ, m.output_list = out ++ [o] ∧ m'.output_list = out ++ [o'] ∧
      WarmerRainRecord (g.norm_time_step * 60) δ (m1.phys.snow.layer_count > 0)
        (m.phys.snow.snowcover = true ∧ m'.phys.snow.snowcover = true) o o' ∧
      (m1.phys.snow.layer_count > 0 → δ * (g.norm_time_step * 60) =
          rainHeat (a.m_pp * (1 - a.percent_snow)) (max t' 273.16) m1.phys.snow.t_s_0 -
            rainHeat (a.m_pp * (1 - a.percent_snow)) (max a.t_pp 273.16) m1.phys.snow.t_s_0 ∧
        3000 * (a.m_pp * (1 - a.percent_snow)) * (max t' 273.16 - max a.t_pp 273.16) ≤ δ * (g.norm_time_step * 60)) := by
  obtain ⟨c, ts, ia, ib, m1_, ls, l, hc, hts, na, nb, e1, hd, htr, hex⟩ := simulate_last h
  rw [h1] at e1
  cases e1
  obtain ⟨c', ts', ia', ib', m1', ls', l', hc', hts', na', nb', e1', hd', _, _⟩ := simulate_last h'
  rw [hc] at hc'; cases hc'
  rw [hts] at hts'; cases hts'
  have ht := parse_tile hg hts
  have hthr : (ts .normal).threshold = g.norm_threshold := by
    unfold parse_time_steps at hts
    obtain ⟨a, _, hts⟩ := bind_eq_ok.mp hts
    obtain ⟨b, _, hts⟩ := bind_eq_ok.mp hts
    obtain ⟨d, _, hts⟩ := bind_eq_ok.mp hts
    simp only [pure_ok, Except.ok.injEq] at hts
    rw [← hts]
  -- the runs agree up to here
  have same : m1'.setIn ia = m1.setIn ia := by
    rcases before with rfl | ⟨m0, h0, hb0⟩
    · obtain ⟨_, i1, _, mm, a1, a2, a3, a4, a5⟩ := simulate_ok (r := a) (rs := []) h1
      obtain ⟨_, i1', _, mm', b1, b2, b3, b4, b5⟩ := simulate_ok (r := { a with t_pp := t' }) (rs := []) e1'
      rw [a3] at b3; cases b3
      simp only [runSteps, Except.ok.injEq] at a5 b5
      subst a5 b5
      unfold mkModel at a4 b4
      obtain ⟨s, hs, a4⟩ := bind_eq_ok.mp a4
      obtain ⟨s', hs', b4⟩ := bind_eq_ok.mp b4
      rw [hs] at hs'; cases hs'
      simp only [pure_ok, Except.ok.injEq] at a4 b4
      rw [← a4, ← b4]; rfl
    · obtain ⟨K, z, rfl⟩ : ∃ K z, L = K ++ [z] := by
        rcases List.eq_nil_or_concat L with rfl | ⟨K, z, e⟩
        · simp [simulate] at h0
        · exact ⟨K, z, by rw [e, List.concat_eq_append]⟩
      rw [List.append_assoc] at h1 e1'
      obtain ⟨c2, ts2, iz, i2, n1, _, _, a1, a2, a3, a4, a5, a6, _, _⟩ := simulate_last h1
      obtain ⟨c3, ts3, iz', i3, n1', _, _, b1, b2, b3, b4, b5, b6, _, _⟩ := simulate_last e1'
      rw [hc] at a1 b1; cases a1; cases b1
      rw [hts] at a2 b2; cases a2; cases b2
      rw [a3] at b3; cases b3
      rw [h0] at a5 b5; cases a5; cases b5
      have := data_normal_setIn (c := c) (all := g.output_all) ht a3 i2 i3 ia (m := m0) (by rw [hthr]; exact below_of_noThin hb0)
      rw [a6, b6] at this
      exact (Except.ok.inj this).symm
  have hd2 : do_data_tstep c ts g.output_all ia' ib' m1 = .ok m' := by
    have q1 : do_data_tstep c ts g.output_all ia' ib' m1' = do_data_tstep c ts g.output_all ia' ib' (m1'.setIn ia) := rfl
    have q2 : do_data_tstep c ts g.output_all ia' ib' (m1.setIn ia) = do_data_tstep c ts g.output_all ia' ib' m1 := rfl
    rw [← q2, ← same, ← q1]; exact hd'
  have hb : below_thold (ts .normal).threshold m1.phys.snow = false := by rw [hthr]; exact below_of_noThin now
  obtain ⟨p1, s1⟩ := do_data_normal_inv ht na hb hd
  obtain ⟨p2, s2⟩ := do_data_normal_inv ht na' hb hd2
  have h0 := C10_nothing_pending g hg _ _ h1
  have f1 := do_data_normal (all := g.output_all) ht na h0 hb s1
  have f2 := do_data_normal (all := g.output_all) ht na' h0 hb s2
  rw [hd] at f1
  rw [hd2] at f2
  have f1 := Except.ok.inj f1
  have f2 := Except.ok.inj f2
  have wet' : 0 < a.m_pp - a.m_pp * a.percent_snow := by rw [show a.m_pp - a.m_pp * a.percent_snow = a.m_pp * (1 - a.percent_snow) by ring]; exact wet
  have clip : ∀ x : ℝ, (if x < FREEZE then FREEZE else x) = max x 273.16 := by
    intro x
    unfold FREEZE
    split
    · rename_i h; exact (max_eq_right h.le).symm
    · rename_i h; exact (max_eq_left (not_lt.mp h)).symm
  have hra : ia.t_rain = max a.t_pp 273.16 ∧ ia.m_rain = a.m_pp * (1 - a.percent_snow) ∧ ia.precip_now = true := by
    rw [(new_ok na).1]
    unfold Rec.toInput
    simp only [hm, wet', true_and, if_true, clip, decide_true, and_true]
    ring
  have hia : ia' = ia.rained (max t' 273.16) (max t' 273.16) := by
    rw [(new_ok na).1, (new_ok na').1]
    unfold Rec.toInput InputData.rained
    simp only [hm, wet', true_and, if_true, clip, true_or]
  rw [stepPhys_precip c _ _ (show ia'.update_precip_deltas _ = ia'.update_precip_deltas (deltaRec ia ib 1).toInput by rw [hia]; unfold InputData.update_precip_deltas InputData.rained deltaRec Rec.toInput; rfl)] at s2
  obtain ⟨_, w1, w2, _⟩ := executed_normal (all := g.output_all) ht na h0 hb s1
  have hll := (Executed.unique hex w2).1
  obtain ⟨c4, ts4, d1, d2, ho, _, hx⟩ := trace_closed hg ha hr htr
  rw [hc] at d1; cases d1
  rw [hts] at d2; cases d2
  obtain ⟨_, ⟨i1, i2⟩, _, hf, _, _⟩ := hx l (by simp) (⟨.normal, { m1.phys with input1 := ia }, p1⟩ : RStep Phys) (by rw [hll]; simp)
  obtain ⟨_, _, _, _, _, _, _, kk⟩ := step_chain ho.max_z i1 s1
  have hpost : p1.input1.precip_now = true ∧ p1.input1.m_rain = a.m_pp * (1 - a.percent_snow) := by
    rw [kk.input]
    dsimp only
    unfold applied
    rw [if_pos hra.2.2]
    refine ⟨hra.2.2, ?_⟩
    show (deltaRec ia ib 1).toInput.m_rain = _
    rw [(new_ok na).1]
    unfold deltaRec Rec.toInput
    dsimp only
    ring
  obtain ⟨δ, key, amount⟩ := rain_core (g := g) (lv := .normal) (p := { m1.phys with input1 := ia }) (tr := max t' 273.16) (tp := max t' 273.16) ho (mkEnv_ok hc).2.2.1 (ht.step_pos .normal) i1 i2 s1 hf
    hpost.1 (by dsimp only; rw [hra.1]; exact max_le_max htt (le_refl _)) (max_le hbo (by norm_num [BOIL])) (by rw [hia] at s2; exact s2)
  dsimp only at amount
  rw [hpost.2, hra.1] at amount
  have hdt : (ts .normal).time_step = g.norm_time_step * 60 := by
    obtain ⟨_, _, en, _, _⟩ := parse_ok hts
    rw [en]
    push_cast
    ring
  rw [hdt] at key amount
  have k1 : m.phys.snow = p1.snow := by rw [f1]
  have k2 : m'.phys.snow = p2.snow := by rw [f2]
  refine ⟨m1.output_list, _, _, δ, by rw [f1], by rw [f2], ?_, amount⟩
  rw [k1, k2]
  exact ⟨rfl, ⟨key.fluxes.1, key.fluxes.2.1, key.fluxes.2.2.1, key.fluxes.2.2.2.1, key.fluxes.2.2.2.2.1⟩,
    fun h => key.balance (decide_eq_true h), key.melt, key.melt_bound, fun h => key.cold h.1 h.2, fun h => key.water h.1 h.2⟩

end
end Pysnobal
