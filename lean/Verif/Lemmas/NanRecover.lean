import Verif.Lemmas.NanGapRun

/-! # What is left of a missing value: turbulent fluxes from a missing first guess -/

namespace Pysnobal

noncomputable section

open Classical

/-- A loop that stops before its last pass does not need it. -/
theorem hleLoop_shorter {k : HleConst} : ∀ {n it it' j : ℕ} {s s' : HleSt}, hleLoop k (n + 1) it s = .ok (j, s') → j < it + n →
    hleLoop k n it' s = .ok (j + it' - it, s') ∧ it ≤ j := by
  intro n
  induction n with
  | zero =>
    intro it it' j s s' h hj
    unfold hleLoop at h
    obtain ⟨s1, h1, h⟩ := bind_eq_ok.mp h
    split at h
    · cases h; omega
    · unfold hleLoop at h
      cases h; omega
  | succ n ih =>
    intro it it' j s s' h hj
    unfold hleLoop at h ⊢
    obtain ⟨s1, h1, h⟩ := bind_eq_ok.mp h
    rw [h1, bind_ok]
    by_cases hc : hleConverged s.lo s1.lo = true
    · rw [if_pos hc] at h ⊢
      cases h
      rw [Nat.add_comm, Nat.add_sub_cancel]
      exact ⟨rfl, le_refl _⟩
    · rw [if_neg hc] at h ⊢
      obtain ⟨h2, h3⟩ := ih (it' := it' + 1) h (by omega)
      rw [h2]
      refine ⟨?_, by omega⟩
      congr 2
      omega

/-- A loop that completes also completes with one pass less. -/
theorem hleLoop_prefix {k : HleConst} : ∀ {n it it' : ℕ} {s : HleSt} {r : ℕ × HleSt}, hleLoop k (n + 1) it s = .ok r →
    ∃ r', hleLoop k n it' s = .ok r' := by
  intro n
  induction n with
  | zero => exact fun _ => ⟨_, rfl⟩
  | succ n ih =>
    intro it it' s r h
    unfold hleLoop at h ⊢
    obtain ⟨s1, h1, h⟩ := bind_eq_ok.mp h
    rw [h1, bind_ok]
    by_cases hc : hleConverged s.lo s1.lo = true
    · rw [if_pos hc]; exact ⟨_, rfl⟩
    · rw [if_neg hc] at h ⊢
      exact ih h

namespace Nan

/-- The fluxes of neutral air. -/
def neutral (k : Pysnobal.HleConst) : Except Err Pysnobal.HleSt := do
  let ustar ← Pysnobal.pdiv (VON_KARMAN * k.wind_speed) k.ltsm
  let factor := VON_KARMAN * ustar * k.dens
  let e ← Pysnobal.pdiv (k.q_diff * factor * AV) k.ltsv
  let h ← Pysnobal.pdiv (k.t_diff * factor * CP_AIR * AH) k.ltsh
  pure { lo := none, ustar, factor, e, h }

/-- A missing flux guess is forgotten in one pass: the loop goes on from the fluxes of neutral air. -/
theorem hleStep_forgets {k : Pysnobal.HleConst} {s : HleSt} (h : hleLo (.ofReal k) s = none) :
    hleStep (.ofReal k) s = (neutral k).map HleSt.ofReal := by
  unfold hleStep neutral
  dsimp only
  rw [h]
  have h0 : ∀ x : ℝ, (some x : NVal) - (0 : NVal) = some x := fun x => by
    rw [zero_s, sub_s, sub_zero]
  have hz : ∀ code, psi 0 code = .ok (0 : NVal) := by
    intro code
    unfold psi
    rw [zero_s]
    simp
  have hc : ∀ f, k.t_diff * f * AH * CP_AIR = k.t_diff * f * CP_AIR * AH := fun f => by ring
  simp only [psiAt, hz, bind_ok, HleConst.ofReal, h0]
  nnum [hc]
  rfl

/-- `hle1` with a missing first guess: as with none, but one pass shorter. -/
theorem hleSolve_forgets {a : Pysnobal.HleIn} {k : Pysnobal.HleConst} {gu gf : Option NVal} (hg : gu = some none ∨ gf = some none)
    (ht : k.air_temp ≠ a.surface_temp) :
    hleSolve { HleIn.ofReal a with init_ustar := gu, init_factor := gf } (.ofReal k) =
      (neutral k >>= fun s => Pysnobal.hleLoop k (ITMAX - 1) 1 s).map fun r => (some r.1, HleSt.ofReal r.2) := by
  unfold hleSolve
  refine (if_neg (show ¬NVal.eq (some k.air_temp) (some a.surface_temp) by rw [NVal.eq_some]; exact ht)).trans ?_
  have loop : ∀ st : HleSt, st.lo = none → hleLo (.ofReal k) st = none →
      (hleLoop (.ofReal k) ITMAX 0 st >>= fun x => pure (some x.1, x.2)) =
      (neutral k >>= fun s => Pysnobal.hleLoop k (ITMAX - 1) 1 s).map fun r => (some r.1, HleSt.ofReal r.2) := by
    intro st h1 h2
    rw [show ITMAX = (ITMAX - 1) + 1 by norm_num [ITMAX]]
    unfold hleLoop
    rw [hleStep_forgets h2]
    cases neutral k with
    | error e => rfl
    | ok s0 =>
      rw [map_ok, bind_ok, bind_ok]
      rw [if_neg (by rw [h1]; simp [hleConverged]), hleLoop_s, Nat.add_sub_cancel, Nat.zero_add]
      cases Pysnobal.hleLoop k (ITMAX - 1) 1 s0 <;> rfl
  -- the division by the log profiles
  have zero : ∀ (x y : NVal) (F : NVal → NVal → Except Err (Option ℕ × HleSt)), (k.ltsv = 0 ∨ k.ltsh = 0) →
      (pdiv x (some k.ltsv) >>= fun e => pdiv y (some k.ltsh) >>= fun h => F e h) = .error .zeroDivision := by
    intro x y F h
    by_cases hv : k.ltsv = 0
    · rw [hv]; cases x <;> simp [NVal.div]
    · have hh : k.ltsh = 0 := h.resolve_left hv
      cases x <;> cases y <;> simp [pdiv, NVal.div, hv, hh]
  have pos : ∀ (x : NVal) (y : ℝ), y ≠ 0 → ∃ z, pdiv x (some y) = .ok z ∧ (x = none → z = none) := by
    intro x y h
    cases x with
    | none => exact ⟨none, div_none_ne h, fun _ => rfl⟩
    | some x => exact ⟨some (x / y), by rw [pdiv, pdiv_s, pdiv_of_ne h]; rfl, fun h => by cases h⟩
  have neut : (k.ltsv = 0 ∨ k.ltsh = 0) → neutral k = .error .zeroDivision := by
    intro h
    unfold neutral Pysnobal.pdiv
    by_cases hm : k.ltsm = 0
    · simp [hm]
    · by_cases hv : k.ltsv = 0
      · simp [hm, hv]
      · have hh : k.ltsh = 0 := h.resolve_left hv
        simp [hm, hv, hh]
  have fin : ∀ u f x y : NVal, u = none ∨ (x = none ∧ y = none) → (pdiv x (some k.ltsv) >>= fun e => pdiv y (some k.ltsh) >>= fun h =>
      hleLoop (.ofReal k) ITMAX 0 { lo := none, ustar := u, factor := f, e := e, h := h } >>= fun x => pure (some x.1, x.2)) =
      (neutral k >>= fun s => Pysnobal.hleLoop k (ITMAX - 1) 1 s).map fun r => (some r.1, HleSt.ofReal r.2) := by
    intro u f x y hx
    by_cases h : k.ltsv = 0 ∨ k.ltsh = 0
    · rw [zero x y _ h, neut h]; rfl
    · push Not at h
      obtain ⟨e, he, he'⟩ := pos x _ h.1
      obtain ⟨h', hh, hh'⟩ := pos y _ h.2
      rw [he, bind_ok, hh, bind_ok]
      refine loop _ rfl ?_
      unfold hleLo
      rcases hx with rfl | ⟨h1, h2⟩
      · simp only [n_mul, mul_n, n_div, div_n, n_add, add_n, ite_self]
      · rw [he' h1, hh' h2]
        simp only [n_mul, mul_n, n_div, div_n, n_add, add_n, ite_self]
  have start : ∀ u f : NVal, u = none ∨ f = none → (pdiv ((HleConst.ofReal k).q_diff * f * AV) (HleConst.ofReal k).ltsv >>= fun e =>
      pdiv ((HleConst.ofReal k).t_diff * f * CP_AIR * AH) (HleConst.ofReal k).ltsh >>= fun h =>
      hleLoop (.ofReal k) ITMAX 0 { lo := none, ustar := u, factor := f, e := e, h := h } >>= fun x => pure (some x.1, x.2)) =
      (neutral k >>= fun s => Pysnobal.hleLoop k (ITMAX - 1) 1 s).map fun r => (some r.1, HleSt.ofReal r.2) := by
    intro u f h
    refine fin u f _ _ (h.imp id fun h => ?_)
    subst h
    simp only [n_mul, mul_n, and_self]
  cases gu with
  | some u =>
    simp only [pure_ok, bind_ok]
    refine start u _ ?_
    rcases hg with h | h
    · exact .inl (Option.some.inj h)
    · subst h; exact .inr rfl
  | none =>
    have hf : gf = some none := hg.resolve_left (by simp)
    subst hf
    by_cases hm : k.ltsm = 0
    · have : neutral k = .error .zeroDivision := by unfold neutral Pysnobal.pdiv; simp [hm]
      rw [this]
      dsimp only [HleIn.ofReal, HleConst.ofReal]
      rw [hm, mul_s]
      simp [pdiv, NVal.div]
      rfl
    · have : pdiv (some VON_KARMAN * (HleIn.ofReal a).wind_speed) (HleConst.ofReal k).ltsm = .ok (some (VON_KARMAN * a.wind_speed / k.ltsm)) := by
        dsimp only [HleIn.ofReal, HleConst.ofReal]
        rw [mul_s, pdiv, pdiv_s, pdiv_of_ne hm]; rfl
      dsimp only
      refine (congrArg (fun x => x >>= _) this).trans ?_
      rw [bind_ok]
      exact start _ none (.inr rfl)

/-- A first guess is a pair of numbers (or none), or something is missing in it. -/
theorem guess_cases (gu gf : Option NVal) : (∃ u f : Option ℝ, gu = u.map some ∧ gf = f.map some) ∨ gu = some none ∨ gf = some none := by
  rcases gu with _ | _ | u
  · rcases gf with _ | _ | f
    · exact .inl ⟨none, none, rfl, rfl⟩
    · exact .inr (.inr rfl)
    · exact .inl ⟨none, some f, rfl, rfl⟩
  · exact .inr (.inl rfl)
  · rcases gf with _ | _ | f
    · exact .inl ⟨some u, none, rfl, rfl⟩
    · exact .inr (.inr rfl)
    · exact .inl ⟨some u, some f, rfl, rfl⟩

/-- `hle1` called with numbers and any first guess, even a missing one, returns numbers. -/
theorem hle1_any {a : Pysnobal.HleIn} {gu gf : Option NVal} {o : HleOut}
    (e : hle1 { HleIn.ofReal a with init_ustar := gu, init_factor := gf } = .ok o) : ∃ o', o = HleOut.ofReal o' := by
  rcases guess_cases gu gf with ⟨u, f, hu, hf⟩ | hg
  · have h := hle1_s { a with init_ustar := u, init_factor := f }
    rw [show HleIn.ofReal { a with init_ustar := u, init_factor := f } = { HleIn.ofReal a with init_ustar := gu, init_factor := gf } by
      rw [hu, hf]; rfl, e] at h
    cases hr : Pysnobal.hle1 { a with init_ustar := u, init_factor := f } with
    | error x => rw [hr] at h; cases h
    | ok o' => rw [hr] at h; exact ⟨o', Except.ok.inj h⟩
  · unfold hle1 at e
    obtain ⟨ea, e1, e⟩ := bind_eq_ok.mp e
    obtain ⟨k, e2, e⟩ := bind_eq_ok.mp e
    obtain ⟨⟨it, st⟩, e3, e⟩ := bind_eq_ok.mp e
    have e1' := (hleCheck_s a).symm.trans e1
    cases h1 : Pysnobal.hleCheck a with
    | error x => rw [h1] at e1'; cases e1'
    | ok ea' =>
      rw [h1] at e1'
      cases e1'
      have e2' := (hleConst_s a ea').symm.trans e2
      cases h2 : Pysnobal.hleConst a ea' with
      | error x => rw [h2] at e2'; cases e2'
      | ok k' =>
        rw [h2] at e2'
        cases e2'
        have fin : ∀ it (st : Pysnobal.HleSt), hleFinish { HleIn.ofReal a with init_ustar := gu, init_factor := gf } it (HleSt.ofReal st) = .ok o →
            ∃ o', o = HleOut.ofReal o' := by
          intro it st h
          have h' := (hleFinish_s a it st).symm.trans h
          cases h3 : Pysnobal.hleFinish a it st with
          | error x => rw [h3] at h'; cases h'
          | ok o' => rw [h3] at h'; exact ⟨o', (Except.ok.inj h').symm⟩
        by_cases ht : k'.air_temp = a.surface_temp
        · unfold hleSolve at e3
          have e3' := (if_pos (show NVal.eq (some k'.air_temp) (some a.surface_temp) by rw [NVal.eq_some]; exact ht)).symm.trans e3
          obtain ⟨_, _, e3'⟩ := bind_eq_ok.mp e3'
          obtain ⟨_, _, e3'⟩ := bind_eq_ok.mp e3'
          obtain ⟨_, _, e3'⟩ := bind_eq_ok.mp e3'
          have := congrArg Prod.fst (Except.ok.inj e3')
          have hit : it = none := this.symm
          subst hit
          cases e
        · rw [hleSolve_forgets hg ht] at e3
          cases h3 : (neutral k' >>= fun s => Pysnobal.hleLoop k' (ITMAX - 1) 1 s) with
          | error x => rw [h3] at e3; cases e3
          | ok r =>
            rw [h3] at e3
            cases e3
            exact fin _ _ e

/-- The snow and the forcing a step reads are numbers; of the first guess nothing is said. -/
structure Numeric (p : Phys) (s : Pysnobal.Snow) (i : InputData) : Prop where
  snow : p.snow = Snow.ofReal s
  input : p.input1.ReadsAs i

theorem h_le_any {c : Env} {p p' : Phys} {s : Pysnobal.Snow} {i : InputData} (h : Numeric p s i) {r : HleOut}
    (e : h_le c p = .ok (r, p')) : ∃ r' i', r = HleOut.ofReal r' ∧ Numeric p' s i' ∧ i'.precip_now = i.precip_now := by
  obtain ⟨h1, h2⟩ := h
  have hi := h2
  obtain ⟨w1, w2, w3, w4, w5, w6, w7, w8⟩ := hi
  unfold h_le at e
  rw [w3, sati_s] at e
  cases hs : Pysnobal.sati i.t_a with
  | error x => rw [hs] at e; cases e
  | ok sat =>
    rw [hs, map_ok, bind_ok] at e
    dsimp only at e
    have hi : NInput.ReadsAs (if NVal.lt (some sat) p.input1.e_a then { p.input1 with e_a := some sat } else p.input1)
        (if i.e_a > sat then { i with e_a := sat } else i) := by
      rw [w4]
      simp only [NVal.lt_some]
      split
      · exact ⟨w1, w2, w3, rfl, w5, w6, w7, w8⟩
      · exact h2
    have hn : (if i.e_a > sat then { i with e_a := sat } else i).precip_now = i.precip_now := by
      split <;> rfl
    revert hi hn e
    generalize (if NVal.lt (some sat) p.input1.e_a then { p.input1 with e_a := some sat } else p.input1) = d
    generalize (if i.e_a > sat then { i with e_a := sat } else i) = j
    intro e hi hn
    have hi' := hi
    obtain ⟨v1, v2, v3, v4, v5, v6, v7, v8⟩ := hi
    obtain ⟨es, e1, e⟩ := bind_eq_ok.mp e
    rw [h1, e_s_0_s] at e1
    cases hes : s.e_s_0 with
    | error x => rw [hes] at e1; cases e1
    | ok es' =>
      rw [hes] at e1
      cases e1
      obtain ⟨r', e2, e⟩ := bind_eq_ok.mp e
      have ez : (Snow.ofReal s).z_s = some s.z_s := rfl
      have et : (Snow.ofReal s).t_s_0 = some s.t_s_0 := rfl
      have key := @hle1_any { press := c.P_a, air_temp := j.t_a, surface_temp := s.t_s_0, za := (if c.relative_hts then c.z_t else c.z_t - s.z_s), ea := j.e_a, es := es', zq := (if c.relative_hts then c.z_t else c.z_t - s.z_s), wind_speed := j.u, zu := (if c.relative_hts then c.z_u else c.z_u - s.z_s), z0 := c.z_0, init_ustar := none, init_factor := none } p.init_ustar p.init_factor r'
      unfold HleIn.ofReal at key
      dsimp only at key
      rw [h1, ez, et, v3, v4, v5] at e2
      obtain ⟨o, ho⟩ := key (by
        rw [← e2]
        nnum [map_ok])
      by_cases hst : r'.status ≠ 0
      · rw [if_pos hst] at e; cases e
      · rw [if_neg hst] at e
        cases e
        exact ⟨o, j, ho, ⟨h1, hi'⟩, hn⟩

theorem energy_any {c : Env} {dt : ℝ} {p p' : Phys} {s : Pysnobal.Snow} {i : InputData} (h : Numeric p s i)
    (e : energy_balance c dt p = .ok p') : ∃ s' i', Numeric p' s' i' ∧ i'.precip_now = i.precip_now := by
  unfold energy_balance at e
  by_cases hl : p.snow.layer_count > 0
  · rw [if_pos hl] at e
    dsimp only at e
    rw [show net_radiation p.input1 p.snow = some (Pysnobal.net_radiation i s) by rw [h.snow]; exact net_radiation_s _ _ h.input s] at e
    obtain ⟨⟨r, q⟩, e1, e⟩ := bind_eq_ok.mp e
    obtain ⟨r', j, hr, hq, hj⟩ := h_le_any h e1
    subst hr
    dsimp only at e
    rw [hq.snow, heat_transfer_s c _ _ hq.input, advec_s _ _ hq.input] at e
    cases h2 : Pysnobal.heat_transfer c j s with
    | error x => rw [h2] at e; cases e
    | ok G =>
      cases h3 : Pysnobal.advec j dt s with
      | error x => rw [h2, h3] at e; cases e
      | ok M =>
        rw [h2, h3] at e
        have e := Except.ok.inj e
        subst e
        refine ⟨{ s with E := r'.e, en := ⟨Pysnobal.net_radiation i s, r'.h, r'.le, G.1, G.2, M, Pysnobal.net_radiation i s + r'.h + r'.le + G.2 + M + G.1 - G.2, Pysnobal.net_radiation i s + r'.h + r'.le + G.2 + M⟩ }, j, ⟨rfl, hq.input⟩, hj⟩
  · rw [if_neg hl] at e
    cases e
    refine ⟨{ s with E := 0, en := Pysnobal.Energy.zero }, i, ⟨?_, h.input⟩, rfl⟩
    dsimp only
    rw [h.snow]; rfl

theorem DeltaReads.update {d dl : NInput} {i il : InputData} (h : d.ReadsAs i) (hd : dl.DeltaReads i.precip_now il) :
    NInput.ReadsAs (if d.precip_now then d.update_precip_deltas dl else d)
      (if i.precip_now then i.update_precip_deltas il else i) := by
  rw [h.2.2.2.2.2.2.1]
  split
  · exact h.update hd
  · exact h

/-- A run step that starts from numbers, whatever the first guess, ends with numbers. -/
theorem step_any {c : Env} {dt : ℝ} {dl : NInput} {il : InputData} {p p' : Phys} {s : Pysnobal.Snow} {i : InputData}
    (h : Numeric p s i) (hd : dl.DeltaReads i.precip_now il) (e : stepPhys c dt dl p = .ok p') :
    ∃ s' i', Numeric p' s' i' ∧ i'.precip_now = i.precip_now := by
  obtain ⟨q, e1, e2, e3⟩ := stepPhys_parts e
  have hb : Numeric (p.begin dl) { s with h2o_total := 0, snowcover := decide (s.layer_count > 0) }
      (if i.precip_now then i.update_precip_deltas il else i) := by
    refine ⟨?_, DeltaReads.update h.input hd⟩
    unfold Phys.begin
    dsimp only
    rw [h.snow, layer_count_s]
    rfl
  obtain ⟨s1, i1, k, kn⟩ := energy_any hb e1
  rw [k.snow, mass_balance_s c _ _ k.input] at e2
  cases hm : Pysnobal.mass_balance c i1 dt s1 with
  | error x => rw [hm] at e2; cases e2
  | ok s2 =>
    rw [hm] at e2
    refine ⟨s2, i1, ⟨(Except.ok.inj e2).symm, by rw [e3]; exact k.input⟩, kn.trans ?_⟩
    split <;> rfl

/-! ### Snow falls on bare ground -/

/-- Initialising the snow cover overwrites everything but the totals of the step. -/
theorem init_snow_forgets (c : Env) (t : Pysnobal.Snow) (z0 zl c0 cl m m0 ml h hm hv a b d : NVal) :
    init_snow c { Snow.ofReal t with z_s_0 := z0, z_s_l := zl, cc_s_0 := c0, cc_s_l := cl, m_s := m, m_s_0 := m0, m_s_l := ml, h2o := h, h2o_max := hm, h2o_vol := hv, melt := a, E_s := b, swi := d } =
      (init_snow c (Snow.ofReal t)).map fun x => { x with melt := a, E_s := b, swi := d } := by
  unfold init_snow initLayers
  have e : Snow.calc_layers c { Snow.ofReal t with z_s_0 := z0, z_s_l := zl, cc_s_0 := c0, cc_s_l := cl, m_s := (Snow.ofReal t).rho * (Snow.ofReal t).z_s, m_s_0 := m0, m_s_l := ml, h2o := h, h2o_max := hm, h2o_vol := hv, melt := a, E_s := b, swi := d } =
      { Snow.calc_layers c { Snow.ofReal t with m_s := (Snow.ofReal t).rho * (Snow.ofReal t).z_s } with cc_s_0 := c0, cc_s_l := cl, m_s_0 := m0, m_s_l := ml, h2o := h, h2o_max := hm, h2o_vol := hv, melt := a, E_s := b, swi := d } := by
    unfold Snow.calc_layers
    dsimp only
    split <;> rfl
  dsimp only at e ⊢
  rw [e]
  generalize Snow.calc_layers c { Snow.ofReal t with m_s := (Snow.ofReal t).rho * (Snow.ofReal t).z_s } = x
  have el : Snow.layer_count { x with cc_s_0 := c0, cc_s_l := cl, m_s_0 := m0, m_s_l := ml, h2o := h, h2o_max := hm, h2o_vol := hv, melt := a, E_s := b, swi := d } = x.layer_count := rfl
  rw [el]
  split
  · rfl
  · unfold initWater initCold Snow.dry_snow_density
    dsimp only
    have e1 : Snow.layer_count { x with cc_s_0 := c0, cc_s_l := cl, m_s_0 := m0, m_s_l := ml, h2o := h, h2o_max := hm, h2o_vol := hv, melt := a, E_s := b, swi := d } = x.layer_count := rfl
    cases pdiv (x.rho - x.h2o_sat * some c.max_h2o_vol * some RHO_W0) (1 - x.h2o_sat * some c.max_h2o_vol * some RHO_W0 / some RHO_ICE) with
    | error y => rfl
    | ok y => rfl

theorem init_snow_cover {c : Env} {s s' : Snow} (e : init_snow c s = .ok s') : s'.snowcover = s.snowcover := by
  unfold init_snow initLayers at e
  have h : ∀ x : Snow, (x.calc_layers c).snowcover = x.snowcover := by
    intro x
    unfold Snow.calc_layers
    split <;> rfl
  split at e
  · cases e; exact h _
  · unfold initWater at e
    obtain ⟨d, _, e⟩ := bind_eq_ok.mp e
    cases e
    exact h _

/-- The precipitation a step reads, as numbers; of the weather nothing is said. -/
structure Falls (d : NInput) : Prop where
  now : d.precip_now = true
  snow : d.m_snow >ₙ 0
  m_pp : ∃ x, d.m_pp = some x
  m_snow : ∃ x, d.m_snow = some x
  m_rain : ∃ x, d.m_rain = some x
  z_snow : ∃ x, d.z_snow = some x
  h2o_sat : ∃ x, d.h2o_sat_snow = some x
  t_snow : ∃ x, d.t_snow = some x
  rho : ∃ x, d.rho_snow = some x

/-- The rest of the mass balance where there is no snow cover. -/
theorem tail_bare {c : Env} {d : NInput} {dt : ℝ} {s r : Snow} (hk : s.snowcover = false)
    (e : (do
      let s ← snowmelt c dt s
      let s ← evap_cond c d dt s
      let s ← h2o_compact c d s
      let s ← runoff c s
      if s.snowcover then s.adjust_layer_temps else pure s) = .ok r) :
    r = { s with melt := 0, E_s := 0, swi := s.h2o_total } := by
  unfold snowmelt evap_cond h2o_compact runoff at e
  simp only [hk, true_or, if_true, if_false, bind_ok, Bool.false_eq_true, pure_ok] at e
  rw [← Except.ok.inj e, hk]

/-- Snow that falls on bare ground makes a snow cover of numbers, whatever is missing in the state and in the weather. -/
theorem step_fall {c : Env} {dt : ℝ} {dl : NInput} {p p' : Phys} (hl : p.snow.layer_count = 0) (hf : Falls (p.forcing dl))
    (e : stepPhys c dt dl p = .ok p') : ∃ s, p'.snow = Snow.ofReal s := by
  obtain ⟨q, e1, e2, e3⟩ := stepPhys_parts e
  have hc : ({ p.snow with h2o_total := 0, snowcover := decide (p.snow.layer_count > 0) } : Snow).layer_count = 0 := hl
  unfold energy_balance at e1
  have e1 := (if_neg (show ¬(p.begin dl).snow.layer_count > 0 by
    rw [show (p.begin dl).snow.layer_count = 0 from hc]; simp)).symm.trans e1
  have e1 := Except.ok.inj e1
  subst e1
  dsimp only [Phys.begin] at e2
  rw [hl] at e2
  obtain ⟨w0, w1, _, ⟨ms, w2⟩, ⟨mr, w3⟩, ⟨z, w4⟩, ⟨h, w5⟩, ⟨t, w6⟩, ⟨rho, w7⟩⟩ := hf
  generalize p.forcing dl = d at w0 w1 w2 w3 w4 w5 w6 w7 e2
  unfold mass_balance at e2
  obtain ⟨s1, a1, e2⟩ := bind_eq_ok.mp e2
  unfold time_compact at a1
  rw [if_pos (.inl rfl)] at a1
  cases a1
  obtain ⟨s2, a2, e2⟩ := bind_eq_ok.mp e2
  unfold precip_event at a2
  rw [if_pos w0] at a2
  dsimp only at a2
  rw [if_neg (by simp), if_pos w1, w4, w5, w6, w7] at a2
  obtain ⟨s3, a3, a2⟩ := bind_eq_ok.mp a2
  cases a2
  have a4 := (init_snow_forgets c { h2o_sat := h, rho := rho, t_s := t, t_s_0 := t, t_s_l := t, z_s := z, z_s_0 := 0, z_s_l := 0, cc_s_0 := 0, cc_s_l := 0, m_s := 0, m_s_0 := 0, m_s_l := 0, h2o := 0, h2o_max := 0, h2o_total := 0, h2o_vol := 0, en := Pysnobal.Energy.zero, melt := 0, E := 0, E_s := 0, swi := 0, snowcover := false } p.snow.z_s_0 p.snow.z_s_l p.snow.cc_s_0 p.snow.cc_s_l p.snow.m_s p.snow.m_s_0 p.snow.m_s_l p.snow.h2o p.snow.h2o_max p.snow.h2o_vol p.snow.melt p.snow.E_s p.snow.swi).symm.trans a3
  have hk := init_snow_cover a3
  rw [init_snow_s] at a4
  cases hi : Pysnobal.init_snow c { h2o_sat := h, rho := rho, t_s := t, t_s_0 := t, t_s_l := t, z_s := z, z_s_0 := 0, z_s_l := 0, cc_s_0 := 0, cc_s_l := 0, m_s := 0, m_s_0 := 0, m_s_l := 0, h2o := 0, h2o_max := 0, h2o_total := 0, h2o_vol := 0, en := Pysnobal.Energy.zero, melt := 0, E := 0, E_s := 0, swi := 0, snowcover := false } with
  | error x => rw [hi] at a4; cases a4
  | ok r =>
    rw [hi] at a4
    have a4 := Except.ok.inj a4
    subst a4
    have hk : r.snowcover = false := hk
    have e2 := tail_bare (show _ = false from hk) e2
    rw [e2, w3]
    exact ⟨{ r with h2o_total := r.h2o_total + (r.h2o + mr), melt := 0, E_s := 0, swi := r.h2o_total + (r.h2o + mr) }, rfl⟩

/-- The water of a new snow cover: completes if the liquid water leaves room for ice. -/
theorem initWater_ok {c : Env} {x : Snow} {h : ℝ} (k : x.h2o_sat = some h) (hv : 1 - h * c.max_h2o_vol * RHO_W0 / RHO_ICE ≠ 0) :
    ∃ s, initWater c (initCold x) = .ok s ∧ s.m_s = x.m_s ∧ s.layer_count = x.layer_count := by
  unfold initWater initCold Snow.dry_snow_density
  dsimp only
  rw [k]
  obtain ⟨y, hy⟩ := div_ok_ne (x.rho - some h * some c.max_h2o_vol * some RHO_W0) hv
  have hy : pdiv (x.rho - some h * some c.max_h2o_vol * some RHO_W0) (1 - some h * some c.max_h2o_vol * some RHO_W0 / some RHO_ICE) = .ok y := hy
  rw [hy, bind_ok]
  exact ⟨_, rfl, rfl, rfl⟩

/-- Enough snow makes a layer. -/
theorem calc_layers_some {c : Env} {x : Snow} {m z rho : ℝ} (hm : x.m_s = some m) (hz : x.z_s = some z) (hr : x.rho = some rho)
    (h1 : c.small_threshold < m) (h2 : 0 < z) (h3 : 0 < c.max_z_s_0) : (x.calc_layers c).layer_count ≠ 0 := by
  have pos : ∀ a : ℝ, 0 < a → NVal.lt (some 0) (some a) := fun a ha => (NVal.lt_some _ _).mpr ha
  have key : ∀ y : Snow, NVal.lt (some 0) y.z_s_0 → y.layer_count ≠ 0 := by
    intro y hy
    unfold Snow.layer_count
    rw [if_pos (show y.z_s_0 >ₙ 0 from hy)]
    omega
  unfold Snow.calc_layers
  rw [hm, hz, hr, if_neg (by rw [show (some m : NVal) ≤ₙ some c.small_threshold ↔ m ≤ c.small_threshold from NVal.le_some _ _]; linarith)]
  apply key
  dsimp only
  by_cases hzl : (some z - some c.max_z_s_0 : NVal) >ₙ 0
  · rw [if_pos hzl]
    split
    · exact pos _ h2
    · exact pos _ h3
  · rw [if_neg hzl]
    split <;> exact pos _ h2

/-- Snow on bare ground: the run step completes, with a layer or without. -/
theorem step_fall_ok {c : Env} {dt : ℝ} {dl : NInput} {p : Phys} (hl : p.snow.layer_count = 0) (hf : Falls (p.forcing dl))
    (hmax : 0 < c.max_z_s_0)
    (hv : ∀ h, (p.forcing dl).h2o_sat_snow = some h → 1 - h * c.max_h2o_vol * RHO_W0 / RHO_ICE ≠ 0) :
    ∃ p', stepPhys c dt dl p = .ok p' ∧ (p'.snow.layer_count = 0 ∨ p'.snow.m_s = (p.forcing dl).rho_snow * (p.forcing dl).z_snow) ∧
      (∀ rho z : ℝ, (p.forcing dl).rho_snow = some rho → (p.forcing dl).z_snow = some z → 0 < z → c.small_threshold < rho * z → p'.snow.layer_count ≠ 0) := by
  suffices h : ∃ s, (energy_balance c dt (p.begin dl) >>= fun q => mass_balance c q.input1 dt q.snow) = .ok s ∧
      (s.layer_count = 0 ∨ s.m_s = (p.forcing dl).rho_snow * (p.forcing dl).z_snow) ∧
      (∀ rho z : ℝ, (p.forcing dl).rho_snow = some rho → (p.forcing dl).z_snow = some z → 0 < z → c.small_threshold < rho * z → s.layer_count ≠ 0) by
    obtain ⟨s, h, hm⟩ := h
    obtain ⟨q, h1, h2⟩ := bind_eq_ok.mp h
    refine ⟨{ q with snow := s }, ?_, hm⟩
    unfold stepPhys
    have hb : (if p.input1.precip_now then { p with input1 := p.input1.update_precip_deltas dl } else p) = { p with input1 := p.forcing dl } := by
      unfold Phys.forcing; split <;> rfl
    rw [hb]
    dsimp only
    have h1' : energy_balance c dt { p with input1 := p.forcing dl, snow := { p.snow with h2o_total := 0, snowcover := decide (Snow.layer_count { p.snow with h2o_total := 0 } > 0) } } = .ok q := h1
    rw [h1', bind_ok, h2, bind_ok]
    rfl
  have hc : (p.begin dl).snow.layer_count = 0 := hl
  unfold energy_balance
  rw [if_neg (by rw [hc]; simp), bind_ok]
  dsimp only [Phys.begin]
  rw [hl]
  obtain ⟨w0, w1, _, ⟨ms, w2⟩, ⟨mr, w3⟩, ⟨z, w4⟩, ⟨h, w5⟩, ⟨t, w6⟩, ⟨rho, w7⟩⟩ := hf
  have hv := hv h w5
  generalize p.forcing dl = d at w0 w1 w2 w3 w4 w5 w6 w7
  unfold mass_balance time_compact precip_event
  dsimp only
  rw [if_pos (.inl rfl), bind_ok, if_pos w0, if_neg (by simp), if_pos w1, w4, w5, w6, w7]
  obtain ⟨s', hi, hm⟩ : ∃ s', init_snow c { p.snow with z_s := some z, rho := some rho, t_s := some t, t_s_0 := some t, t_s_l := some t, h2o_sat := some h, h2o_total := 0, en := Energy.zero, E := 0, snowcover := decide ((0 : ℕ) > 0) } = .ok s' ∧
      (s'.layer_count = 0 ∨ s'.m_s = some rho * some z) ∧ (0 < z → c.small_threshold < rho * z → s'.layer_count ≠ 0) := by
    unfold init_snow initLayers
    have k : ∀ x : Snow, (x.calc_layers c).h2o_sat = x.h2o_sat ∧ (x.calc_layers c).m_s = x.m_s := by
      intro x
      unfold Snow.calc_layers
      split <;> exact ⟨rfl, rfl⟩
    have k := k { p.snow with z_s := some z, rho := some rho, t_s := some t, t_s_0 := some t, t_s_l := some t, h2o_sat := some h, h2o_total := 0, en := Energy.zero, E := 0, snowcover := decide ((0 : ℕ) > 0), m_s := some rho * some z }
    split
    · rename_i h0
      exact ⟨_, rfl, .inl h0, fun hz ht => absurd h0 (calc_layers_some (m := rho * z) (z := z) (rho := rho) rfl rfl rfl ht hz hmax)⟩
    · rename_i h0
      obtain ⟨s, h1, h2, h3⟩ := initWater_ok k.1 hv
      exact ⟨s, h1, .inr (h2.trans k.2), fun _ _ => by rw [h3]; exact h0⟩
  have hk := init_snow_cover hi
  rw [hi, bind_ok]
  unfold snowmelt evap_cond h2o_compact runoff
  have hk : s'.snowcover = false := hk
  simp only [hk, true_or, if_true, if_false, bind_ok, Bool.false_eq_true, pure_ok]
  refine ⟨_, rfl, hm.1, fun rho' z' e1 e2 hz ht => ?_⟩
  cases e1
  cases e2
  exact hm.2 hz ht

/-! ### A data step -/

variable {c : Env} {ts : Tsteps} {all : Bool} {dl : Level → NInput}

/-- The averages and sums so far, if there are any, are numbers. -/
def AccNum (a : AccT) : Prop := 0 < a.time_since_out → ∃ b, a = AccT.ofReal b

theorem accumulate_any {dt : ℝ} {s : Pysnobal.Snow} {a a' : AccT} (h : AccNum a)
    (e : accumulate dt (Snow.ofReal s) a = .ok a') : ∃ b, a' = AccT.ofReal b := by
  by_cases ht : a.time_since_out > 0
  · obtain ⟨b, rfl⟩ := h ht
    rw [accumulate_s] at e
    cases hb : Pysnobal.accumulate dt s b with
    | error x => rw [hb] at e; cases e
    | ok b' => rw [hb] at e; exact ⟨b', (Except.ok.inj e).symm⟩
  · unfold accumulate at e
    rw [if_neg ht] at e
    have e := Except.ok.inj e
    exact ⟨{ acc := { bar := s.en, melt_sum := s.melt, E_s_sum := s.E_s, swi_sum := some s.swi }, time_since_out := dt }, e.symm⟩

theorem snapshot_any {s : Pysnobal.Snow} {a : Pysnobal.Acc} {t : ℤ} {r : OutRec}
    (e : snapshot (Snow.ofReal s) (Acc.ofReal a) t = .ok r) : ∃ r', r = OutRec.ofReal r' := by
  rw [snapshot_s] at e
  cases h : Pysnobal.snapshot s a t with
  | error x => rw [h] at e; cases e
  | ok r' => rw [h] at e; exact ⟨r', (Except.ok.inj e).symm⟩

/-- From `l` to `l'` only records of numbers are added. -/
def AddsNum (l l' : List OutRec) : Prop := ∃ a : List Pysnobal.OutRec, l' = l ++ a.map OutRec.ofReal

theorem AddsNum.refl (l : List OutRec) : AddsNum l l := ⟨[], by simp⟩
theorem AddsNum.trans {l l' l'' : List OutRec} (h : AddsNum l l') (k : AddsNum l' l'') : AddsNum l l'' := by
  obtain ⟨a, rfl⟩ := h
  obtain ⟨b, rfl⟩ := k
  exact ⟨a ++ b, by simp⟩
theorem AddsNum.one (l : List OutRec) (r : Pysnobal.OutRec) : AddsNum l (l ++ [OutRec.ofReal r]) := ⟨[r], rfl⟩

/-- One run step whose physics ends with numbers. -/
theorem do_tstep_any {lv : Level} {st st1 : Model} (ha : AccNum st.acc)
    (hp : ∀ p, stepPhys c (ts lv).time_step (dl lv) st.phys = .ok p → ∃ s, p.snow = Snow.ofReal s)
    (e : (snobalSim c ts all dl).do_tstep lv st = .ok st1) :
    (∃ s, st1.phys.snow = Snow.ofReal s) ∧ (∃ b, st1.acc = AccT.ofReal b) ∧ AddsNum st.output_list st1.output_list := by
  obtain ⟨p, a, q1, q2, q3, q4, q5⟩ := do_tstep_ok e
  obtain ⟨s, hs⟩ := hp p q1
  have q2' : accumulate (ts lv).time_step p.snow st.acc = .ok a := q2
  rw [hs] at q2'
  obtain ⟨b, hb⟩ := accumulate_any ha q2'
  refine ⟨⟨s, by rw [q3]; exact hs⟩, ?_⟩
  rcases q5 with ⟨_, r, h1, h2, h3⟩ | ⟨_, h2, h3⟩
  · have h1' : snapshot p.snow a.acc (st.current_datetime + (ts lv).timedelta) = .ok r := h1
    rw [hs, hb] at h1'
    obtain ⟨r', hr⟩ := snapshot_any h1'
    refine ⟨⟨{ b with time_since_out := 0 }, ?_⟩, ?_⟩
    · rw [h3, hb]; rfl
    · rw [h2, hr]; exact .one _ _
  · exact ⟨⟨b, by rw [h3, hb]⟩, by rw [h2]; exact .refl _⟩

theorem runs_any {st st' : Model} {l : List (RStep Phys)} (h : (snobalSim c ts all dl).Runs st l st') {dl' : Level → InputData}
    {wet : Bool} (hd : ∀ lv, (dl lv).DeltaReads wet (dl' lv)) : ∀ s i, Numeric st.phys s i → i.precip_now = wet → AccNum st.acc →
    (∃ s i, Numeric st'.phys s i) ∧ AddsNum st.output_list st'.output_list ∧ AccNum st'.acc ∧
      (l ≠ [] → ∃ b, st'.acc = AccT.ofReal b) := by
  induction h with
  | nil => exact fun s i hn _ ha => ⟨⟨s, i, hn⟩, .refl _, ha, fun h => absurd rfl h⟩
  | @enter st st' l _ ih =>
    intro s i hn hw ha
    have key : ∃ i', Numeric ((snobalSim c ts all dl).enter .small st.phys) s i' ∧ i'.precip_now = wet := by
      simp only [snobalSim]
      split
      · exact ⟨i.update_precip_deltas (dl' .small), ⟨hn.snow, hn.input.update (by rw [hw]; exact hd .small)⟩, hw⟩
      · exact ⟨i, hn, hw⟩
    obtain ⟨i', k1, k2⟩ := key
    exact ih s i' k1 k2 ha
  | @step st st1 st2 l lv p hb hp hs hr ih =>
    intro s i hn hw ha
    have hp' : stepPhys c (ts lv).time_step (dl lv) st.phys = .ok p := hp
    obtain ⟨s', i', k1, k2⟩ := step_any hn (by rw [hw]; exact hd lv) hp'
    obtain ⟨_, ⟨b, hb'⟩, j3⟩ := do_tstep_any (all := all) ha (fun p2 h2 => by
      rw [hp'] at h2; cases h2; exact ⟨s', k1.snow⟩) hs
    obtain ⟨p2, a, q1, _, q3, _, _⟩ := do_tstep_ok hs
    have hpp : p2 = p := Except.ok.inj (q1.symm.trans hp)
    subst hpp
    have hw' : i'.precip_now = wet := k2.trans hw
    have hn1 : Numeric st1.phys s' (i'.add_deltas (dl' lv)) := by
      rw [q3]
      exact ⟨k1.snow, k1.input.add (by rw [hw']; exact hd lv)⟩
    obtain ⟨m1, m2, m3, m4⟩ := ih s' _ hn1 hw' (fun _ => ⟨b, hb'⟩)
    refine ⟨m1, j3.trans m2, m3, fun _ => ?_⟩
    by_cases hl : l = []
    · have : ∀ {x y : Model} {l : List (RStep Phys)}, (snobalSim c ts all dl).Runs x l y → l = [] → y.acc = x.acc := by
        intro x y l h
        induction h with
        | nil => exact fun _ => rfl
        | enter _ ih => exact fun h => ih h
        | step => intro h; cases h
      rw [this hr hl]
      exact ⟨b, hb'⟩
    · exact m4 hl

theorem data_runs (ht : TileOK ts) {i1 i2 : NInput} {m m' : Model} (e : do_data_tstep c ts all i1 i2 m = .ok m') :
    ∃ dl l mid, inputDeltas ts i1 i2 = .ok dl ∧
      (snobalSim c ts all dl).Runs { m with phys := { m.phys with input1 := i1 } } l mid ∧ l ≠ [] ∧
      (if all then m' = mid else (snobalSim c ts all dl).output mid = .ok m') := by
  unfold do_data_tstep at e
  obtain ⟨dl, hdl, e⟩ := bind_eq_ok.mp e
  obtain ⟨l, mid, h1, h2, h3⟩ := data_tstep_runs e
  refine ⟨dl, l, mid, hdl, h1, ?_, h3⟩
  have := h2.ne_nil (by simp [snobalSim, ht.n_normal]) (by have := ht.m_pos; simp [snobalSim]; omega)
    (by have := ht.s_pos; simp [snobalSim]; omega)
  exact fun h => this (by rw [h]; rfl)

/-- After a data step nothing is accumulated. -/
theorem data_zero (ht : TileOK ts) {i1 i2 : NInput} {m m' : Model} (e : do_data_tstep c ts all i1 i2 m = .ok m') :
    m'.acc.time_since_out = 0 := by
  obtain ⟨dl, l, mid, _, h1, hl, h3⟩ := data_runs ht e
  cases all with
  | false =>
    simp only [Bool.false_eq_true, if_false] at h3
    obtain ⟨r, _, rfl⟩ := output_ok h3
    rfl
  | true =>
    simp only [if_true] at h3
    subst h3
    have key : ∀ {x y : Model} {l : List (RStep Phys)}, (snobalSim c ts true dl).Runs x l y →
        (x.acc.time_since_out = 0 ∨ l ≠ []) → y.acc.time_since_out = 0 := by
      intro x y l h
      induction h with
      | nil => exact fun h => h.elim id fun h => absurd rfl h
      | enter _ ih => exact fun h => ih h
      | step _ _ hs _ ih =>
        intro _
        obtain ⟨p2, a, q1, _, q3, _, q5⟩ := do_tstep_ok hs
        rcases q5 with ⟨_, r, _, _, h3⟩ | ⟨h, _⟩
        · exact ih (.inl (by rw [h3]; rfl))
        · cases h
    exact key h1 (.inr hl)

/-- The end of a data step in which the snow is numbers. -/
theorem data_end {dl : Level → NInput} {l l' : List OutRec} {mid m' : Model} (hl : l' = mid.output_list) (ha : AddsNum l l')
    (hs : ∃ s, mid.phys.snow = Snow.ofReal s) (hb : ∃ b, mid.acc = AccT.ofReal b)
    (h : if all then m' = mid else (snobalSim c ts all dl).output mid = .ok m') :
    (∃ s, m'.phys.snow = Snow.ofReal s) ∧ AddsNum l m'.output_list := by
  obtain ⟨s, hs⟩ := hs
  obtain ⟨b, hb⟩ := hb
  subst hl
  cases all with
  | true => simp only [if_true] at h; subst h; exact ⟨⟨s, hs⟩, ha⟩
  | false =>
    simp only [Bool.false_eq_true, if_false] at h
    obtain ⟨r, hr, rfl⟩ := output_ok h
    have hr' : snapshot mid.phys.snow mid.acc.acc mid.current_datetime = .ok r := hr
    rw [hs, hb] at hr'
    obtain ⟨r', hr'⟩ := snapshot_any hr'
    subst hr'
    exact ⟨⟨s, hs⟩, ha.trans (.one _ _)⟩

theorem data_any (ht : TileOK ts) {d1 d2 : NInput} {i1 i2 : InputData} (h1 : d1.ReadsAs i1)
    (hd : RelE (fun dl dl' => ∀ lv : Level, (dl lv).DeltaReads i1.precip_now (dl' lv)) (inputDeltas ts d1 d2)
      (Pysnobal.inputDeltas ts i1 i2)) {m m' : Model} (hs : ∃ s, m.phys.snow = Snow.ofReal s) (h0 : m.acc.time_since_out = 0)
    (e : do_data_tstep c ts all d1 d2 m = .ok m') :
    (∃ s, m'.phys.snow = Snow.ofReal s) ∧ AddsNum m.output_list m'.output_list := by
  obtain ⟨s, hs⟩ := hs
  obtain ⟨dl, l, mid, hdl, hr, hl, h3⟩ := data_runs ht e
  rw [hdl] at hd
  cases hdl' : Pysnobal.inputDeltas ts i1 i2 with
  | error x => rw [hdl'] at hd; exact hd.elim
  | ok dl' =>
    rw [hdl'] at hd
    obtain ⟨⟨s', i', k1⟩, k2, _, k4⟩ := runs_any hr hd s i1 ⟨hs, h1⟩ rfl (fun h => absurd h0 h.ne')
    exact data_end rfl k2 ⟨s', k1.snow⟩ (k4 hl) h3

/-- Snow falls on bare ground at the start of a data step. -/
theorem data_fall (ht : TileOK ts) {d1 d2 : NInput} {m m' : Model} (hl : m.phys.snow.layer_count = 0)
    (h0 : m.acc.time_since_out = 0) (hf : ∀ dl, nDeltaFor d1 d2 (ts .normal) = .ok dl → Falls (d1.update_precip_deltas dl))
    (e : do_data_tstep c ts all d1 d2 m = .ok m') :
    (∃ s, m'.phys.snow = Snow.ofReal s) ∧ AddsNum m.output_list m'.output_list := by
  unfold do_data_tstep at e
  obtain ⟨dl, hdl, e⟩ := bind_eq_ok.mp e
  rw [data_tstep_eq] at e
  obtain ⟨mid, h1, h2⟩ := bind_eq_ok.mp e
  have hn : ((ts .normal).intervals).toNat = 1 := by rw [ht.n_normal]; rfl
  have hb : below_thold (ts .normal).threshold m.phys.snow = false := by
    unfold below_thold; rw [if_pos hl]
  unfold Sim.normalBlock at h1
  simp only [show (snobalSim c ts all dl).intervals .normal = (ts .normal).intervals from rfl, hn, iterM] at h1
  obtain ⟨mid', h1, h1'⟩ := bind_eq_ok.mp h1
  cases h1'
  have h1 := (if_neg (show ¬(below_thold (ts .normal).threshold m.phys.snow = true) by rw [hb]; simp)).symm.trans h1
  have hF := hf _ (inputDeltas_parts hdl .normal)
  have hF' : Falls (Phys.forcing { m.phys with input1 := d1 } (dl .normal)) := by
    unfold Phys.forcing
    rw [if_pos (show d1.precip_now = true from hF.now)]
    exact hF
  have hst : ∀ p, stepPhys c (ts .normal).time_step (dl .normal) { m.phys with input1 := d1 } = .ok p → ∃ s, p.snow = Snow.ofReal s :=
    fun p hp => step_fall (p := { m.phys with input1 := d1 }) hl hF' hp
  obtain ⟨k1, k2, k3⟩ := do_tstep_any (all := all) (st := { m with phys := { m.phys with input1 := d1 } }) (fun h => absurd h0 h.ne') hst h1
  refine data_end (all := all) (c := c) (ts := ts) (dl := dl) rfl k3 k1 k2 ?_
  cases all with
  | true => simp [snobalSim] at h2; exact h2.symm
  | false => simp only [Bool.false_eq_true, if_false]; exact h2

/-- A data step puts out at least one record. -/
theorem data_longer (ht : TileOK ts) {i1 i2 : NInput} {m m' : Model} (e : do_data_tstep c ts all i1 i2 m = .ok m') :
    m.output_list.length < m'.output_list.length := by
  obtain ⟨dl, l, mid, _, h1, hl, h3⟩ := data_runs ht e
  have key : ∀ {x y : Model} {l : List (RStep Phys)}, (snobalSim c ts all dl).Runs x l y →
      x.output_list.length ≤ y.output_list.length ∧ (all = true → l ≠ [] → x.output_list.length < y.output_list.length) := by
    intro x y l h
    induction h with
    | nil => exact ⟨le_refl _, fun _ h => absurd rfl h⟩
    | enter _ ih => exact ih
    | step _ _ hs _ ih =>
      obtain ⟨p2, a, q1, _, q3, _, q5⟩ := do_tstep_ok hs
      rcases q5 with ⟨_, r, _, h2, _⟩ | ⟨h, h2, _⟩
      · rw [h2, List.length_append, List.length_singleton] at ih
        exact ⟨by omega, fun _ _ => by omega⟩
      · rw [h2] at ih
        exact ⟨ih.1, fun h' => by rw [show all = false from h] at h'; cases h'⟩
  have k := key h1
  cases all with
  | false =>
    simp only [Bool.false_eq_true, if_false] at h3
    obtain ⟨r, _, rfl⟩ := output_ok h3
    have := k.1
    simp only [List.length_append, List.length_singleton]
    exact Nat.lt_succ_of_le this
  | true =>
    simp only [if_true] at h3
    subst h3
    exact k.2 rfl hl

end Nan

end

end Pysnobal
