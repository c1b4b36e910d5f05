import Verif.Lemmas.NanRecover

/-! # C79: after a blank, the next snowfall on bare ground makes the snow a set of numbers again

What a blank cell leaves behind is not only bare ground (C78): depths may stay NaN, and so may the first guess for the
turbulent fluxes of every later step.  Snowfall overwrites the first, and the second has no effect. -/

namespace Pysnobal

noncomputable section

open Classical

/-- Snow falls in the interval that starts with the row. -/
def NRec.Snowfall (n : NRec) : Prop := ∃ x y, n.m_pp = some x ∧ n.percent_snow = some y ∧ 0 < x ∧ 0 < y

namespace Nan

variable {c : Env} {ts : Tsteps} {all : Bool}

theorem snowfall_falls {n : NRec} {d1 d2 dl : NInput} {t : TstepInfo} (hN : 0 < t.intervals_per_timestep)
    (h : n.Snowfall) (h1 : NInput.new n = .ok d1) (hd : nDeltaFor d1 d2 t = .ok dl) : Falls (d1.update_precip_deltas dl) := by
  obtain ⟨x, y, hx, hy, px, py⟩ := h
  have hN' : (0 : ℝ) < t.intervals_per_timestep := by exact_mod_cast hN
  have hr : NVal.lt (some 0) n.rho_snow := by
    by_contra hr
    rw [nnew_eq, if_pos ⟨by rw [hx]; exact (NVal.lt_some _ _).mpr px, by
      rw [hx, hy, NVal.mul_some]; exact (NVal.lt_some _ _).mpr (mul_pos px py), hr⟩] at h1
    cases h1
  obtain ⟨_, rho, h0, hrho, _⟩ := hr
  rw [nDeltaFor_eq _ _ _ hN'.ne'] at hd
  have hd1 := nnew_ok h1
  have hdl := nnew_ok hd
  subst hd1
  subst hdl
  have f1 : n.toNInput.m_pp = some x := hx
  have f2 : n.toNInput.percent_snow = some y := hy
  have f3 : n.toNInput.rho_snow = some rho := hrho
  have pos : 0 < x / (t.intervals_per_timestep : ℝ) * y := mul_pos (div_pos px hN') py
  refine ⟨?_, ?_, ?_, ?_, ?_, ?_, ?_, ?_, ?_⟩
  · exact decide_eq_true (by rw [hx]; exact (NVal.lt_some _ _).mpr px)
  · show NVal.lt (some 0) (NVal.mul (n.toNInput.m_pp.map _) n.toNInput.percent_snow)
    rw [f1, f2]
    exact (NVal.lt_some _ _).mpr pos
  · exact ⟨x / (t.intervals_per_timestep : ℝ), by show n.toNInput.m_pp.map _ = _; rw [f1]; rfl⟩
  · refine ⟨x / (t.intervals_per_timestep : ℝ) * y, ?_⟩
    show NVal.mul (n.toNInput.m_pp.map _) n.toNInput.percent_snow = _
    rw [f1, f2]
    rfl
  · refine ⟨x / (t.intervals_per_timestep : ℝ) - x / (t.intervals_per_timestep : ℝ) * y, ?_⟩
    show NVal.sub (n.toNInput.m_pp.map _) (NVal.mul (n.toNInput.m_pp.map _) n.toNInput.percent_snow) = _
    rw [f1, f2]
    rfl
  · show ∃ z, (NRec.toNInput _).z_snow = some z
    unfold NRec.toNInput
    dsimp only
    split
    · rw [hx, hy, hrho]
      exact ⟨_, rfl⟩
    · exact ⟨_, rfl⟩
  · show ∃ z, n.toNInput.h2o_sat_snow = some z
    unfold NRec.toNInput
    dsimp only
    split <;> exact ⟨_, rfl⟩
  · show ∃ z, n.toNInput.t_snow = some z
    unfold NRec.toNInput
    dsimp only
    split
    · split
      · exact ⟨_, rfl⟩
      · rename_i hq
        have hq := not_not.mp (not_or.mp hq).2
        obtain ⟨w, _, hw, _⟩ := hq
        exact ⟨w, hw⟩
    · exact ⟨_, rfl⟩
  · exact ⟨rho, f3⟩

/-- The input increments of an interval of snowfall always exist. -/
theorem snowfall_deltas (ht : TileOK ts) {n : NRec} {d1 : NInput} (h : n.Snowfall) (h1 : NInput.new n = .ok d1) (d2 : NInput) :
    ∃ dl, inputDeltas ts d1 d2 = .ok dl := by
  obtain ⟨x, y, hx, hy, px, py⟩ := h
  have hr : NVal.lt (some 0) n.rho_snow := by
    by_contra hr
    rw [nnew_eq, if_pos ⟨by rw [hx]; exact (NVal.lt_some _ _).mpr px, by
      rw [hx, hy, NVal.mul_some]; exact (NVal.lt_some _ _).mpr (mul_pos px py), hr⟩] at h1
    cases h1
  have hd1 := nnew_ok h1
  have key : ∀ lv, ∃ i, nDeltaFor d1 d2 (ts lv) = .ok i := by
    intro lv
    have hN : (0 : ℝ) < (ts lv).intervals_per_timestep := by exact_mod_cast ht.ipt_pos lv
    rw [nDeltaFor_eq _ _ _ hN.ne', nnew_eq, if_neg (by subst hd1; exact fun k => k.2.2 hr)]
    exact ⟨_, rfl⟩
  obtain ⟨a, ha⟩ := key .normal
  obtain ⟨b, hb⟩ := key .medium
  obtain ⟨d, hd⟩ := key .small
  exact ⟨_, by unfold inputDeltas; rw [ha, bind_ok, hb, bind_ok, hd, bind_ok]; rfl⟩

theorem snowfall_sat {n : NRec} {d1 d2 dl : NInput} {t : TstepInfo} (hN : 0 < t.intervals_per_timestep)
    (h1 : NInput.new n = .ok d1) (hd : nDeltaFor d1 d2 t = .ok dl) {h : ℝ} (e : (d1.update_precip_deltas dl).h2o_sat_snow = some h) :
    h = 0 ∨ h = 1 := by
  have hd1 := nnew_ok h1
  subst hd1
  have e : n.toNInput.h2o_sat_snow = some h := e
  unfold NRec.toNInput at e
  dsimp only at e
  split at e <;> cases e
  · exact .inr rfl
  · exact .inl rfl

theorem z_snow_some {n : NRec} {x y rho : ℝ} (hx : n.m_pp = some x) (hy : n.percent_snow = some y) (hr : n.rho_snow = some rho)
    (px : 0 < x) (py : 0 < y) : n.toNInput.z_snow = some (x * y / rho) := by
  unfold NRec.toNInput
  dsimp only
  rw [if_pos ⟨by rw [hx]; exact (NVal.lt_some _ _).mpr px, by rw [hx, hy, NVal.mul_some]; exact (NVal.lt_some _ _).mpr (mul_pos px py)⟩,
    hx, hy, hr]
  rfl

/-- Rows with all the values that are read, from a state of numbers: numbers. -/
theorem runSteps_any (ht : TileOK ts) {P : NRec → Rec → Prop} (F : Faithful ts P) {ns : List NRec} {rs : List Rec}
    (h : List.Forall₂ P ns rs) : ∀ (n1 : NRec) (r1 : Rec) (d1 : NInput) (i1 : InputData) (m m' : Model), P n1 r1 →
    NInput.new n1 = .ok d1 → InputData.new r1 = .ok i1 → d1.ReadsAs i1 → (∃ s, m.phys.snow = Snow.ofReal s) →
    m.acc.time_since_out = 0 → runSteps c ts all d1 ns m = .ok m' →
    (∃ s, m'.phys.snow = Snow.ofReal s) ∧ AddsNum m.output_list m'.output_list := by
  induction h with
  | nil => intro n1 r1 d1 i1 m m' _ _ _ _ hs _ e; cases e; exact ⟨hs, .refl _⟩
  | @cons n r ns rs hnr _ ih =>
    intro n1 r1 d1 i1 m m' hp e1 e1' h1 hs h0 e
    simp only [runSteps] at e
    obtain ⟨d2, e2, e⟩ := bind_eq_ok.mp e
    obtain ⟨m1, e3, e⟩ := bind_eq_ok.mp e
    have hN := F.new n r hnr
    rw [e2] at hN
    cases e2' : InputData.new r with
    | error e' => rw [e2'] at hN; exact hN.elim
    | ok i2 =>
      rw [e2'] at hN
      obtain ⟨k1, k2⟩ := data_any ht h1 (F.deltas n1 r1 n r d1 i1 d2 i2 hp hnr e1 e1' e2 e2') hs h0 e3
      obtain ⟨k3, k4⟩ := ih n r d2 i2 m1 m' hnr e2 e2' hN k1 (data_zero ht e3) e
      exact ⟨k3, k2.trans k4⟩

theorem runSteps_zero (ht : TileOK ts) : ∀ (rs : List NRec) (i : NInput) (m m' : Model), m.acc.time_since_out = 0 →
    runSteps c ts all i rs m = .ok m' → m'.acc.time_since_out = 0 := by
  intro rs
  induction rs with
  | nil => intro i m m' h0 e; cases e; exact h0
  | cons r rs ih =>
    intro i m m' _ e
    simp only [runSteps] at e
    obtain ⟨d2, e2, e⟩ := bind_eq_ok.mp e
    obtain ⟨m1, e3, e⟩ := bind_eq_ok.mp e
    exact ih d2 m1 m' (data_zero ht e3) e

theorem simulate_zero {g : Config} (hg : g.Tiled) {rows : List NRec} {m : Model} (e : simulate g rows = .ok m) :
    m.acc.time_since_out = 0 := by
  cases rows with
  | nil => cases e
  | cons r rs =>
    simp only [simulate] at e
    obtain ⟨ts, h1, e⟩ := bind_eq_ok.mp e
    obtain ⟨i, h2, e⟩ := bind_eq_ok.mp e
    obtain ⟨c, h3, e⟩ := bind_eq_ok.mp e
    obtain ⟨m0, h4, e⟩ := bind_eq_ok.mp e
    refine runSteps_zero (parse_tile hg h1) rs i m0 m ?_ e
    unfold mkModel at h4
    obtain ⟨s, _, h4⟩ := bind_eq_ok.mp h4
    cases h4
    rfl

end Nan

/-- C79: the run recovers from blank cells with the next snowfall.  Whatever the rows so far left blank, if no snow lies at
the time of a row with snowfall, and the rows after it give the values that are read (`TakenAs`; for example complete
rows), then all records from that row on, and the state at the end, are numbers: no NaN is left anywhere.  (Of the row
with the snowfall itself the weather cells and the temperature of the precipitation may be blank.) -/
theorem C79_snowfall_restores_numbers {g : Config} (hg : g.Tiled) {before : List NRec} {n : NRec} {later : List NRec}
    {rows : List Rec} {m0 m : Nan.Model} (e0 : Nan.simulate g (before ++ [n]) = .ok m0)
    (bare : m0.phys.snow.layer_count = 0) (fall : n.Snowfall) (given : List.Forall₂ NRec.TakenAs later rows)
    (e : Nan.simulate g (before ++ [n] ++ later) = .ok m) :
    ∃ recs : List OutRec, m.output_list = m0.output_list ++ recs.map Nan.OutRec.ofReal ∧
      (later ≠ [] → recs ≠ [] ∧ ∃ s : Snow, m.phys.snow = Nan.Snow.ofReal s) := by
  obtain ⟨c, ts, i, _, hts, _, hlast, hk⟩ := Nan.simulate_continue hg e0
  have ht := parse_tile hg hts
  have hi := hlast n (by simp)
  have h0 := Nan.simulate_zero hg e0
  rw [hk] at e
  cases given with
  | nil => cases e; exact ⟨[], by simp, fun h => absurd rfl h⟩
  | @cons n2 r2 ns rs hnr hrs =>
    simp only [Nan.runSteps] at e
    obtain ⟨d2, e2, e⟩ := bind_eq_ok.mp e
    obtain ⟨m1, e3, e⟩ := bind_eq_ok.mp e
    obtain ⟨k1, k2⟩ := Nan.data_fall ht bare h0 (fun dl hdl => Nan.snowfall_falls (ht.ipt_pos .normal) fall hi hdl) e3
    have F := Nan.faithful_taken (ts := ts) ht.ipt_pos
    have hN := F.new n2 r2 hnr
    rw [e2] at hN
    cases e2' : InputData.new r2 with
    | error e' => rw [e2'] at hN; exact hN.elim
    | ok i2 =>
      rw [e2'] at hN
      obtain ⟨k3, k4⟩ := Nan.runSteps_any ht F hrs n2 r2 d2 i2 m1 m hnr e2 e2' hN k1 (Nan.data_zero ht e3) e
      obtain ⟨a, ha⟩ := k2
      obtain ⟨b, hb⟩ := k4
      refine ⟨a ++ b, by rw [hb, ha]; simp, fun _ => ⟨?_, k3⟩⟩
      intro hab
      have hl := Nan.data_longer ht e3
      rw [ha, (List.append_eq_nil_iff.mp hab).1] at hl
      simp at hl

/-- C79: the interval with the snowfall always completes, whatever is blank in its two rows besides the precipitation;
and if the mass of the snow is above the small threshold it lies, with that mass.  (The active layer has a depth, and the
retention capacity leaves room for ice.) -/
theorem C79_snowfall_completes {g : Config} (hg : g.Tiled) (hv : 0 < g.max_active ∧ g.max_h2o * RHO_W0 < RHO_ICE) {before : List NRec} {n n2 : NRec}
    {m0 : Nan.Model} (e0 : Nan.simulate g (before ++ [n]) = .ok m0) (bare : m0.phys.snow.layer_count = 0) (fall : n.Snowfall)
    (readable : ∃ i, NInput.new n2 = .ok i) :
    ∃ m, Nan.simulate g (before ++ [n] ++ [n2]) = .ok m ∧
      (NVal.lt (some g.small_threshold) (NVal.mul n.m_pp n.percent_snow) →
        m.phys.snow.layer_count ≠ 0 ∧ m.phys.snow.m_s = NVal.mul n.m_pp n.percent_snow) := by
  obtain ⟨c, ts, i, hc, hts, _, hlast, hk⟩ := Nan.simulate_continue hg e0
  have ht := parse_tile hg hts
  have hi := hlast n (by simp)
  have h0 := Nan.simulate_zero hg e0
  obtain ⟨i2, hi2⟩ := readable
  obtain ⟨dl, hdl⟩ := Nan.snowfall_deltas ht fall hi i2
  have hn := Nan.inputDeltas_parts hdl .normal
  have hF := Nan.snowfall_falls (ht.ipt_pos .normal) fall hi hn
  have hf : Nan.Phys.forcing { m0.phys with input1 := i } (dl .normal) = i.update_precip_deltas (dl .normal) := by
    unfold Nan.Phys.forcing
    rw [if_pos (show i.precip_now = true from hF.now)]
  obtain ⟨p', hp, hm⟩ := Nan.step_fall_ok (c := c) (dt := (ts .normal).time_step) (dl := dl .normal) (p := { m0.phys with input1 := i })
    bare (by rw [hf]; exact hF) (by rw [(mkEnv_ok hc).1]; exact hv.1) (by
      intro h e
      rw [hf] at e
      rw [(mkEnv_ok hc).2.2.1]
      have h1 : g.max_h2o * RHO_W0 / RHO_ICE < 1 := by
        rw [div_lt_one (by norm_num [RHO_ICE])]; exact hv.2
      rcases Nan.snowfall_sat (ht.ipt_pos .normal) hi hn e with rfl | rfl
      · simp
      · rw [one_mul]; linarith)
  obtain ⟨m, hm1, hm2, _⟩ := Nan.data_normal (c := c) (all := g.output_all) ht hdl h0 (by unfold Nan.below_thold; rw [if_pos bare]) hp
  refine ⟨m, ?_, ?_⟩
  · rw [hk]
    simp only [Nan.runSteps, hi2, bind_ok, hm1]
  · intro hlt
    rw [hm2]
    rw [hf] at hm
    obtain ⟨x, y, hx, hy, px, py⟩ := fall
    have hr : NVal.lt (some 0) n.rho_snow := by
      by_contra hr
      rw [nnew_eq, if_pos ⟨by rw [hx]; exact (NVal.lt_some _ _).mpr px, by
        rw [hx, hy, NVal.mul_some]; exact (NVal.lt_some _ _).mpr (mul_pos px py), hr⟩] at hi
      cases hi
    obtain ⟨_, rho, hz, hrho, hpos⟩ := hr
    cases hz
    have hd1 := nnew_ok hi
    have hN : (0 : ℝ) < (ts .normal).intervals_per_timestep := by exact_mod_cast ht.ipt_pos .normal
    have hone : (ts .normal).intervals_per_timestep = 1 := ht.ipt_normal
    rw [nDeltaFor_eq _ _ _ hN.ne'] at hn
    have hdl' := nnew_ok hn
    subst hd1
    have f3 : n.toNInput.rho_snow = some rho := hrho
    have f4 : n.toNInput.m_pp = some x := hx
    have f5 : n.toNInput.percent_snow = some y := hy
    have hz : (dl .normal).z_snow = some (x * y / rho) := by
      rw [hdl']
      refine Nan.z_snow_some (x := x) (y := y) (rho := rho) ?_ f5 f3 px py
      show n.toNInput.m_pp.map _ = _
      rw [f4, hone]
      simp
    have hxy : rho * (x * y / rho) = x * y := mul_div_cancel₀ _ hpos.ne'
    have hl := hm.2 rho (x * y / rho) f3 hz (by positivity) (by
      rw [hxy, (mkEnv_ok hc).2.1]
      rw [hx, hy] at hlt
      exact (NVal.lt_some _ _).mp hlt)
    refine ⟨hl, (hm.1.resolve_left hl).trans ?_⟩
    show NVal.mul n.toNInput.rho_snow (dl .normal).z_snow = _
    rw [f3, hz, hx, hy]
    exact congrArg some hxy

/-! ### The turbulent fluxes -/

/-- The iteration for the turbulent fluxes comes to its end before its last pass. -/
def HleIn.Settles (a : HleIn) : Prop :=
  ∀ ea k it s, hleCheck a = .ok ea → hleConst a ea = .ok k → hleSolve a k = .ok (some it, s) → it + 1 < ITMAX

/-- C79: a first guess in which something is missing does no harm.  Where `hle1` without a first guess completes, it also
completes with the missing one, reports success and returns numbers; and they are the same numbers, if the iteration
settles before its last pass or the air is calm. -/
theorem C79_missing_guess (a : HleIn) (h0 : a.init_ustar = none ∧ a.init_factor = none) {o : HleOut} (e : hle1 a = .ok o)
    (gu gf : Option NVal) (hg : gu = some none ∨ gf = some none) :
    ∃ o', Nan.hle1 { Nan.HleIn.ofReal a with init_ustar := gu, init_factor := gf } = .ok (Nan.HleOut.ofReal o') ∧ o'.status = 0 ∧
      (a.Settles ∨ a.wind_speed = 0 → o' = o) := by
  have e0 := e
  unfold hle1 at e
  obtain ⟨ea, e1, e⟩ := bind_eq_ok.mp e
  obtain ⟨k, e2, e⟩ := bind_eq_ok.mp e
  obtain ⟨⟨it, s⟩, e3, e⟩ := bind_eq_ok.mp e
  obtain ⟨_, _, _, _, _, _, c1, _, _, _, _, c3, _, c4, c5, c6, _, _⟩ := hleConst_ok e2
  cases it with
  | none => cases e
  | some it =>
    have e3' := e3
    unfold hleSolve at e3
    by_cases ht : k.air_temp = a.surface_temp
    · rw [if_pos ht] at e3
      obtain ⟨_, _, e3⟩ := bind_eq_ok.mp e3
      obtain ⟨_, _, e3⟩ := bind_eq_ok.mp e3
      obtain ⟨_, _, e3⟩ := bind_eq_ok.mp e3
      cases e3
    · rw [if_neg ht, h0.1, h0.2] at e3
      dsimp only at e3
      obtain ⟨u, u1, e3⟩ := bind_eq_ok.mp e3
      obtain ⟨v, v1, e3⟩ := bind_eq_ok.mp e3
      obtain ⟨w, w1, e3⟩ := bind_eq_ok.mp e3
      obtain ⟨⟨it', s'⟩, l1, e3⟩ := bind_eq_ok.mp e3
      cases e3
      have hn : Nan.neutral k = .ok { lo := none, ustar := u, factor := VON_KARMAN * u * k.dens, e := v, h := w } := by
        unfold Nan.neutral
        rw [c3, u1, bind_ok]
        dsimp only
        rw [v1, bind_ok, w1, bind_ok]
        rfl
      have hI : ITMAX = (ITMAX - 1) + 1 := by norm_num [ITMAX]
      obtain ⟨⟨j, s1⟩, l2⟩ : ∃ r, hleLoop k (ITMAX - 1) 1 { lo := none, ustar := u, factor := VON_KARMAN * u * k.dens, e := v, h := w } = .ok r := by
        rw [hI] at l1
        exact hleLoop_prefix l1
      have hj : j < ITMAX := by
        obtain ⟨_, _, hj⟩ := hleLoop_last (n := 48) l2
        norm_num [ITMAX]
        omega
      have hn1 : Nan.hle1 { Nan.HleIn.ofReal a with init_ustar := gu, init_factor := gf } =
          (hleFinish a (some j) s1).map Nan.HleOut.ofReal := by
        unfold Nan.hle1
        have g1 : Nan.hleCheck { Nan.HleIn.ofReal a with init_ustar := gu, init_factor := gf } = .ok (some ea) := by
          have := Nan.hleCheck_s a
          rw [e1] at this
          exact this
        have g2 : Nan.hleConst { Nan.HleIn.ofReal a with init_ustar := gu, init_factor := gf } (some ea) = .ok (.ofReal k) := by
          have := Nan.hleConst_s a ea
          rw [e2] at this
          exact this
        rw [g1, bind_ok, g2, bind_ok, Nan.hleSolve_forgets hg ht, hn, bind_ok, l2, map_ok, bind_ok]
        exact Nan.hleFinish_s a (some j) s1
      unfold hleFinish at hn1
      rw [map_ok] at hn1
      refine ⟨_, hn1, ?_, ?_⟩
      · dsimp only
        rw [if_neg (by omega)]
      · intro hs
        have hst : s1 = s' := by
          rcases hs with hs | hs
          · have := hs ea k _ _ e1 e2 e3'
            rw [hI] at l1
            obtain ⟨l3, _⟩ := hleLoop_shorter (it' := 1) l1 (by omega)
            rw [l3] at l2
            exact (congrArg Prod.snd (Except.ok.inj l2)).symm
          · have kw : k.wind_speed = 0 := by rw [c3, hs]
            obtain ⟨n1, u2⟩ := pdiv_eq_ok.mp u1
            obtain ⟨n2, v2⟩ := pdiv_eq_ok.mp v1
            obtain ⟨n3, w2⟩ := pdiv_eq_ok.mp w1
            have zu : u = 0 := by rw [u2, hs]; simp
            have zv : v = 0 := by rw [v2, zu]; simp
            have zw : w = 0 := by rw [w2, zu]; simp
            rw [zu, zv, zw, mul_zero, zero_mul, hleLoop_calm kw n1 n2 n3] at l1 l2
            exact (congrArg Prod.snd (Except.ok.inj l2)).symm.trans (congrArg Prod.snd (Except.ok.inj l1))
        subst hst
        have hit : ¬it' ≥ ITMAX := by
          obtain ⟨_, _, hj⟩ := hleLoop_last (n := 49) l1
          norm_num [ITMAX]
          omega
        have hjt : ¬j ≥ ITMAX := by omega
        unfold hleFinish at e
        dsimp only at e
        rw [if_neg hit] at e
        rw [← Except.ok.inj e]
        rw [if_neg hjt]

end

end Pysnobal
