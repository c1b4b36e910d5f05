import Verif.Props.Clipping
import Verif.Props.Failure

/-! # C70: the exceptions a run can raise -/

namespace Pysnobal

noncomputable section

/-- The exceptions of the physics of a run: `ZeroDivisionError`, `ValueError: math domain error`, and the `ValueError`s for a
negative temperature, for instruments too low and for vapour pressures outside their range, and the
`UnboundLocalError` of `hle1`. -/
def PhysicsErrors : List Err := [.zeroDivision, .mathDomain, .negTemp, .heights, .pressures, .unboundLocal]

theorem stepPhys_errors {c : Env} {dt : ℝ} {d : InputData} {p : Phys} (hg : GuessP p) {e : Err}
    (h : stepPhys c dt d p = .error e) : e ∈ PhysicsErrors := by
  have hq : Quiet True True (stepPhys c dt d p) := quiet_stepPhys c dt d p fun _ => by
    rcases hg with ⟨h1, h2⟩ | ⟨u, f, h1, h2, _, h3⟩
    · rw [h1, h2]
      exact ⟨fun x hx => (by cases hx), fun _ => rfl⟩
    · rw [h1, h2]
      refine ⟨fun x hx => ?_, fun hx => (by cases hx)⟩
      cases hx
      exact ⟨f, rfl, h3⟩
  have := hq e h
  unfold Internal at this
  cases e <;> simp_all [PhysicsErrors]

/-- C70: for an exactly subdividing configuration with an admissible start and records the reader accepts, a run
completes or raises one of six exceptions; in particular never "did not converge", "temps not K", "vapor pressure exceeds
air saturation", an `AttributeError`, `IndexError` or `RecursionError`, and no number of the turbulent scheme overflows. -/
theorem C70_exceptions (g : Config) (hg : g.Tiled) (ha : g.AdmissibleStart) (c : Env) (hc : mkEnv g = .ok c)
    (rows : List Rec) (hne : rows ≠ []) (hr : ∀ r ∈ rows, r.Accepted) :
    (∃ m, simulate g rows = .ok m) ∨ ∃ e ∈ PhysicsErrors, simulate g rows = .error e := by
  obtain ⟨ts, hts⟩ := parse_of_ne (g := g) hg.2.1.ne' hg.2.2.1.ne'
  obtain ⟨s, hs⟩ := start_total ha hc
  have R : RunRule c ts (fun r => r.Accepted) (fun _ p => GuessP p) (fun _ _ => True) (fun _ => True) :=
    ⟨fun _ _ _ _ _ _ h => h, fun _ _ _ _ _ _ _ _ _ _ _ => trivial, fun _ _ _ _ h _ => h,
     fun _ _ _ _ p' _ h hs => ⟨trivial, (stepPhys_guess hs h : GuessP p')⟩, .inr fun _ _ _ => trivial⟩
  rcases R.simulation hg hc hts (fun _ _ _ _ _ _ => .inl ⟨rfl, rfl⟩) (fun r h => accepted_new h) hs hne hr with h |
    ⟨e, lv, i, d, p, h1, _, h2, h3⟩
  · exact .inl h
  · exact .inr ⟨e, stepPhys_errors h2 h3, h1⟩

/-! ## Each of them occurs -/

/-- A first run step that raises at every level makes the run raise. -/
theorem first_raises {g : Config} (hg : g.Tiled) {c : Env} (hc : mkEnv g = .ok c) {s : Snow}
    (hs : init_snow c (recordSnow g) = .ok s) {r1 r2 : Rec} {i1 i2 : InputData} (n1 : InputData.new r1 = .ok i1)
    (n2 : InputData.new r2 = .ok i2) (hp : i1.precip_now = false) {e : Err}
    (h : ∀ dt d, stepPhys c dt d { snow := s, input1 := i1, init_ustar := none, init_factor := none } = .error e) :
    simulate g [r1, r2] = .error e := by
  obtain ⟨ts, hts⟩ := parse_of_ne (g := g) hg.2.1.ne' hg.2.2.1.ne'
  have ht := parse_tile hg hts
  obtain ⟨m0, hm⟩ : ∃ m0, mkModel g c i1 = .ok m0 := by
    unfold mkModel
    rw [hs, bind_ok]
    exact ⟨_, rfl⟩
  have hph : m0.phys = { snow := s, input1 := i1, init_ustar := none, init_factor := none } ∧ m0.acc.time_since_out = 0 := by
    unfold mkModel at hm
    rw [hs, bind_ok, pure_ok] at hm
    rw [← Except.ok.inj hm]
    exact ⟨rfl, rfl⟩
  have hsim : simulate g [r1, r2] = do_data_tstep c ts g.output_all i1 i2 m0 := by
    unfold simulate
    dsimp only
    rw [hts, bind_ok, n1, bind_ok, hc, bind_ok, hm, bind_ok]
    unfold runSteps
    rw [n2, bind_ok]
    unfold runSteps
    cases do_data_tstep c ts g.output_all i1 i2 m0 <;> rfl
  have key : ∀ {dl : Level → InputData} {m : Model} {l : List (RStep Phys)} {m' : Model},
      (snobalSim c ts g.output_all dl).Runs m l m' → m.phys = m0.phys → l = [] ∧ m'.phys = m0.phys := by
    intro dl m l m' hr
    induction hr with
    | nil => exact fun h => ⟨rfl, h⟩
    | @enter st st' l h ih =>
      intro h0
      apply ih
      show (if st.phys.input1.precip_now then _ else _ : Phys) = _
      rw [h0, hph.1, if_neg (by rw [hp]; simp)]
    | @step st st1 st2 l lv p hb hp' hd1 h' ih =>
      intro h0
      rw [h0, hph.1] at hp'
      have := (h (ts lv).time_step (dl lv)).symm.trans hp'
      cases this
  have hstart : ({ m0 with phys := { m0.phys with input1 := i1 } } : Model).phys = m0.phys := by
    show { m0.phys with input1 := i1 } = m0.phys
    rw [hph.1]
  rw [hsim]
  rcases do_data_located ht (c := c) (all := g.output_all) (i2 := i2) (m := m0) n1 (.inl hph.2) with
    ⟨m', h', _⟩ | ⟨e', l, mid, lv, d, rest, h1, h2⟩
  · exfalso
    obtain ⟨l, hl⟩ := do_data_iff_executed.mp h'
    obtain ⟨_, hmin, _⟩ := C04_linear_in_time g hg ts hts c g.output_all i1 i2 m0 m' l hl
    obtain ⟨dl, mid, _, hr, _⟩ := hl.parts
    rw [(key hr hstart).1] at hmin
    have : (0 : ℝ) = g.norm_time_step := by simpa [Config.minutes] using hmin
    have h3 : (0 : ℝ) < g.norm_time_step := by exact_mod_cast hg.1
    linarith
  · obtain ⟨dl, _, hr⟩ := h2.runs
    obtain ⟨_, hmid⟩ := key hr hstart
    have := h2.raises
    rw [hmid, hph.1, h] at this
    cases this
    exact h1

/-- The configuration of the witnesses: 100 kg/m² of ripe snow below instruments at height `z`. -/
def excCfg (z : ℝ) : Config := { divCfg 10 with z_u := z, z_t := z }

/-- A record of calm dry weather with air temperature `t` and vapour pressure `v`. -/
def excRec (t v : ℝ) : Rec := { calmRec 0 0 0 0 with t_a := t, e_a := v }

theorem excRec_accepted (t v : ℝ) : (excRec t v).Accepted := fun h => absurd h (by simp [excRec, calmRec])

theorem excCfg_ok (z : ℝ) : (excCfg z).Tiled ∧ (excCfg z).AdmissibleStart ∧
    mkEnv (excCfg z) = .ok { calmEnv 0.01 with z_u := z, z_t := z } := by
  refine ⟨divCfg_tiled 10, ?_, ?_⟩
  · refine ⟨⟨?_, ?_, ?_, ?_⟩, ?_, ?_, ?_⟩
    all_goals norm_num [excCfg, divCfg, calmCfg, defaultSteps, RHO_W0, RHO_ICE, FREEZE]
  · have := calmCfg_env 200 0.01 (1 / 6) 600 1
    unfold mkEnv at this ⊢
    obtain ⟨P, h1, h2⟩ := bind_eq_ok.mp this
    refine bind_eq_ok.mpr ⟨P, h1, ?_⟩
    have h2 := Except.ok.inj h2
    rw [pure_ok, ← h2]
    rfl

/-- Two equal records over the pack of `excCfg` raise what the turbulent exchange of the first step raises. -/
theorem exc_raises {z t v : ℝ} {e : Err}
    (h : ∀ p : Phys, p.snow.t_s_0 = FREEZE → p.snow.z_s = 1 / 6 → p.input1 = (excRec t v).toInput →
      p.init_ustar = none → p.init_factor = none → h_le { calmEnv 0.01 with z_u := z, z_t := z } p = .error e) :
    simulate (excCfg z) [excRec t v, excRec t v] = .error e := by
  obtain ⟨h1, _, h3⟩ := excCfg_ok z
  have hinit := init_calm (thr := 200) (vol := 0.01) (z := 1 / 6) (rho := 600) (sat := 1) (d := _)
    (by norm_num) (by norm_num) (by norm_num) (by norm_num [RHO_W0, RHO_ICE]) rfl
  have hinit : init_snow { calmEnv 0.01 with z_u := z, z_t := z } (recordSnow (excCfg z)) = _ := hinit
  obtain ⟨i, hn⟩ := accepted_new (excRec_accepted t v)
  have ei := (new_ok hn).1
  have hp : i.precip_now = false := by
    rw [ei]
    simp [Rec.toInput, excRec, calmRec]
  refine first_raises h1 h3 hinit hn hn hp fun dt d => ?_
  unfold stepPhys
  dsimp only
  rw [if_neg (by rw [hp]; simp)]
  unfold energy_balance
  rw [if_pos (by simp [Snow.layer_count, Snow.zero])]
  dsimp only
  rw [h _ rfl rfl ei rfl rfl]
  rfl

/-- C70: every one of the six occurs, over the same pack of 100 kg/m² and with two equal accepted records of calm dry
weather: air below 0 K, at 0 K, instruments within the roughness length of the snow surface, instruments
above it by less than 4.9 roughness lengths, no vapour in the air, and air of exactly neutral stability.  The list of C70 cannot be shortened. -/
theorem C70_each_occurs : ∀ e ∈ PhysicsErrors, ∃ (g : Config) (r : Rec), g.Tiled ∧ g.AdmissibleStart ∧
    (∃ c, mkEnv g = .ok c) ∧ r.Accepted ∧ simulate g [r, r] = .error e := by
  have main : ∀ (e : Err) (z t v : ℝ), simulate (excCfg z) [excRec t v, excRec t v] = .error e →
      ∃ (g : Config) (r : Rec), g.Tiled ∧ g.AdmissibleStart ∧
        (∃ c, mkEnv g = .ok c) ∧ r.Accepted ∧ simulate g [r, r] = .error e := fun e z t v h =>
    ⟨excCfg z, excRec t v, (excCfg_ok z).1, (excCfg_ok z).2.1, ⟨_, (excCfg_ok z).2.2⟩, excRec_accepted t v, h⟩
  -- air at the freezing point: the arguments of the exchange
  have warm : ∀ (z v : ℝ) (e : Err), v ≤ 610.71 →
      (∀ a : HleIn, a.press = SEA_LEVEL → a.air_temp = FREEZE → a.surface_temp = FREEZE → a.za = z - 1 / 6 → a.zq = z - 1 / 6 →
        a.zu = z - 1 / 6 → a.ea = v → a.es = 610.71 → a.z0 = 0.005 → hle1 a = .error e) →
      simulate (excCfg z) [excRec FREEZE v, excRec FREEZE v] = .error e := by
    intro z v e hv h
    refine exc_raises fun p h1 h2 h3 h4 h5 => ?_
    unfold h_le InputData.sat_vp Snow.e_s_0
    have e1 : p.input1.t_a = FREEZE := by rw [h3]; rfl
    have e2 : p.input1.e_a = v := by rw [h3]; rfl
    rw [e1, h1, sati_freeze, bind_ok, if_neg (by rw [e2]; exact not_lt.mpr hv)]
    dsimp only
    rw [bind_ok, h _ rfl e1 rfl (by simp [calmEnv, h2]) (by simp [calmEnv, h2]) (by simp [calmEnv, h2]) e2 rfl rfl]
    rfl
  intro e he
  simp only [PhysicsErrors, List.mem_cons, List.not_mem_nil, or_false] at he
  rcases he with rfl | rfl | rfl | rfl | rfl | rfl
  · refine main _ 5 0 20 (exc_raises fun p h1 h2 h3 h4 h5 => ?_)
    unfold h_le InputData.sat_vp
    have e1 : p.input1.t_a = 0 := by rw [h3]; rfl
    have : sati 0 = .error .zeroDivision := by
      unfold sati
      rw [if_neg (lt_irrefl _), if_neg (not_lt.mpr freeze_pos.le)]
      simp [pdiv]
    rw [e1, this]
    rfl
  · refine main _ (1 / 6 + 0.01) FREEZE 20 (warm _ _ _ (by norm_num) fun a h1 h2 h3 h4 h5 h6 h7 h8 h9 => ?_)
    have hz : 4.9 * a.z0 ≥ a.zu ∧ 0 < a.z0 := by rw [h6, h9]; norm_num
    unfold hle1 hleCheck
    obtain ⟨w, hw⟩ := satw_ok_iff.mpr (show 0 < a.air_temp by rw [h2]; exact freeze_pos)
    rw [if_neg (by rw [h4, h5, h6, h9]; norm_num), if_neg (by rw [h2, h3]; norm_num [FREEZE]),
      if_neg (by rw [h1, h7, h8]; norm_num [SEA_LEVEL]), hw, bind_ok]
    have hw' : w > 610.71 := by
      rw [h2] at hw
      exact satw_freeze_gt w hw
    have h7' : ¬ (a.ea - 25 > w) := by rw [h7]; linarith
    rw [if_neg h7']
    simp only [pure_ok, bind_ok]
    unfold hleConst
    have : plog ((a.zu - 2 * PAESCHKE * a.z0 / 3) / a.z0) = .error .mathDomain := by
      unfold plog
      rw [if_pos (show (a.zu - 2 * PAESCHKE * a.z0 / 3) / a.z0 ≤ 0 from not_lt.mp ((profileArg_pos hz.2 (z := a.zu)).not.mpr (not_lt.mpr hz.1)))]
    dsimp only
    rw [this]
    rfl
  · refine main _ 5 (-1) 20 (exc_raises fun p h1 h2 h3 h4 h5 => ?_)
    unfold h_le InputData.sat_vp
    have e1 : p.input1.t_a = -1 := by rw [h3]; rfl
    have : sati (-1) = .error .negTemp := by
      unfold sati
      rw [if_pos (by norm_num)]
    rw [e1, this]
    rfl
  · refine main _ (1 / 6) FREEZE 20 (warm _ _ _ (by norm_num) fun a h1 h2 h3 h4 h5 h6 h7 h8 h9 => ?_)
    unfold hle1 hleCheck
    rw [if_pos (by right; left; rw [h5, h9]; norm_num)]
    rfl
  · refine main _ 5 FREEZE 0 (warm _ _ _ (by norm_num) fun a h1 h2 h3 h4 h5 h6 h7 h8 h9 => ?_)
    unfold hle1 hleCheck
    rw [if_neg (by rw [h4, h5, h6, h9]; norm_num), if_neg (by rw [h2, h3]; norm_num [FREEZE]),
      if_pos (by left; rw [h7])]
    rfl
  · refine main _ 5 (FREEZE - DALR * (5 - 1 / 6)) 20 (exc_raises fun p h1 h2 h3 h4 h5 => ?_)
    have e1 : p.input1.t_a = FREEZE - DALR * (5 - 1 / 6) := by rw [h3]; rfl
    have e2 : p.input1.e_a = 20 := by rw [h3]; rfl
    have hpos : 0 < p.input1.t_a := by rw [e1]; norm_num [FREEZE, DALR, GRAVITY, CP_AIR]
    obtain ⟨v, hv⟩ := sati_ok_iff.mpr hpos
    unfold h_le InputData.sat_vp Snow.e_s_0
    rw [hv, bind_ok, h1, sati_freeze]
    dsimp only
    rw [bind_ok]
    have hsv := sati_value_pos hv
    obtain ⟨i, hi⟩ : ∃ i, i = (if p.input1.e_a > v then { p.input1 with e_a := v } else p.input1) := ⟨_, rfl⟩
    rw [← hi]
    have hi' : i.t_a = FREEZE - DALR * (5 - 1 / 6) ∧ 0 < i.e_a ∧ i.e_a ≤ 20 := by
      rw [hi]
      split
      · rename_i h
        exact ⟨e1, hsv, by rw [e2] at h; exact h.le⟩
      · rw [e2]
        exact ⟨e1, by norm_num, le_refl _⟩
    rw [C32_neutral_raises _ ⟨?_, ?_, ?_, ?_, ?_, ?_, ?_, ?_, ?_, ?_, ?_⟩ ?_ ?_ ?_ ?_]
    · rfl
    · norm_num [calmEnv]
    · norm_num [calmEnv, h2]
    · norm_num [calmEnv, h2]
    · norm_num [calmEnv, h2]
    · show 0 < i.t_a
      rw [hi'.1, ← e1]
      exact hpos
    · exact freeze_pos
    · exact hi'.2.1
    · norm_num
    · show i.e_a < SEA_LEVEL
      have : (20 : ℝ) < SEA_LEVEL := by norm_num [SEA_LEVEL]
      linarith
    · show (610.71 : ℝ) < SEA_LEVEL
      norm_num [SEA_LEVEL]
    · intro w hw
      show i.e_a - 25 ≤ w
      linarith [satw_value_pos hw]
    · norm_num [calmEnv, h2]
    · norm_num [calmEnv, h2]
    · norm_num [calmEnv, h2]
    · simp [calmEnv, h2, hi'.1]

end

end Pysnobal
