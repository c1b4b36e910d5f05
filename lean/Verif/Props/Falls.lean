import Verif.Props.Shift
import Verif.Props.Modes

/-! # C73: which parts of a record matter -/

namespace Pysnobal

noncomputable section

/-! ## Specification -/

/-- The same precipitation falls in two records: none in both; or equal masses, equal phase, equal density of the
snow if there is snow, and - if there is rain - equal temperature above freezing (colder rain is taken to be at
freezing), or - if there is snow only - equal temperature below freezing (warmer snow is taken to be at freezing). -/
def Rec.FallsAlike (r r' : Rec) : Prop :=
  (r.m_pp ≤ 0 ∧ r'.m_pp ≤ 0) ∨
  (r.m_pp = r'.m_pp ∧ r.percent_snow = r'.percent_snow ∧
    (0 < r.m_pp * r.percent_snow → r.rho_snow = r'.rho_snow) ∧
    (0 < r.m_pp * (1 - r.percent_snow) → max r.t_pp FREEZE = max r'.t_pp FREEZE) ∧
    (r.m_pp * (1 - r.percent_snow) ≤ 0 → min r.t_pp FREEZE = min r'.t_pp FREEZE))

/-- Two forcings that differ in radiation, air temperature, vapour pressure and wind only. -/
structure InputData.SameFall (i i' : InputData) : Prop where
  t_g : i.t_g = i'.t_g
  m_pp : i.m_pp = i'.m_pp
  rho_snow : i.rho_snow = i'.rho_snow
  m_snow : i.m_snow = i'.m_snow
  m_rain : i.m_rain = i'.m_rain
  z_snow : i.z_snow = i'.z_snow
  h2o_sat_snow : i.h2o_sat_snow = i'.h2o_sat_snow
  t_rain : i.t_rain = i'.t_rain
  t_snow : i.t_snow = i'.t_snow
  precip_now : i.precip_now = i'.precip_now

/-! ## A simulation relation for the time stepping -/

section sim

variable {π α ρ : Type}

/-- Related physical states, everything else equal. -/
def SimRel (R : π → π → Prop) (a b : SimSt π α ρ) : Prop :=
  R a.phys b.phys ∧ a.acc = b.acc ∧ a.current_datetime = b.current_datetime ∧ a.output_list = b.output_list

/-- Two time steppings that respect `R`. -/
structure SimAlike (R : π → π → Prop) (K K' : Sim π α ρ) : Prop where
  intervals : K.intervals = K'.intervals
  timedelta : K.timedelta = K'.timedelta
  divided : K.output_divided = K'.output_divided
  reset : K.reset = K'.reset
  below : ∀ lv p p', R p p' → K.below lv p = K'.below lv p'
  enter : ∀ lv p p', R p p' → R (K.enter lv p) (K'.enter lv p')
  phys : ∀ lv p p', R p p' → RelE R (K.phys lv p) (K'.phys lv p')
  accum : ∀ lv p p' a, R p p' → K.accum lv p a = K'.accum lv p' a
  finish : ∀ lv p p', R p p' → R (K.finish lv p) (K'.finish lv p')
  snap : ∀ p p' a t, R p p' → K.snap p a t = K'.snap p' a t

variable {R : π → π → Prop} {K K' : Sim π α ρ}

theorem SimAlike.output (h : SimAlike R K K') {a b : SimSt π α ρ} (r : SimRel R a b) :
    RelE (SimRel R) (K.output a) (K'.output b) := by
  obtain ⟨r1, r2, r3, r4⟩ := r
  unfold Sim.output
  rw [h.snap _ _ _ _ r1, r2, r3]
  cases K'.snap b.phys b.acc b.current_datetime with
  | error e => rfl
  | ok x => exact ⟨r1, by rw [h.reset], rfl, by simp [r4]⟩

theorem SimAlike.do_tstep (h : SimAlike R K K') (lv : Level) {a b : SimSt π α ρ} (r : SimRel R a b) :
    RelE (SimRel R) (K.do_tstep lv a) (K'.do_tstep lv b) := by
  obtain ⟨r1, r2, r3, r4⟩ := r
  unfold Sim.do_tstep
  refine RelE.bind (h.phys lv _ _ r1) fun p p' hp => ?_
  rw [h.accum lv p p' _ hp, r2]
  cases K'.accum lv p' b.acc with
  | error e => rfl
  | ok x =>
    simp only [bind_ok]
    rw [h.divided, h.timedelta, r3]
    have hr : SimRel R { a with phys := p, acc := x, current_datetime := b.current_datetime + K'.timedelta lv }
        { b with phys := p', acc := x, current_datetime := b.current_datetime + K'.timedelta lv } := ⟨hp, rfl, rfl, r4⟩
    have hfin : ∀ s s' : SimSt π α ρ, SimRel R s s' → RelE (SimRel R)
        (pure { s with phys := K.finish lv s.phys } : Except Err _) (pure { s' with phys := K'.finish lv s'.phys }) :=
      fun s s' q => ⟨h.finish lv _ _ q.1, q.2⟩
    split
    · exact RelE.bind (h.output hr) hfin
    · exact hfin _ _ hr

theorem SimAlike.divide (h : SimAlike R K K') (fuel : ℕ) : ∀ (cur : ℤ) (a b : SimSt π α ρ), SimRel R a b →
    RelE (fun x y => x.1 = y.1 ∧ SimRel R x.2 y.2) (K.divide_tstep fuel (cur, a)) (K'.divide_tstep fuel (cur, b)) := by
  induction fuel with
  | zero => exact fun cur a b r => rfl
  | succ n ih =>
    intro cur a b r
    unfold Sim.divide_tstep
    cases hl : levelAt cur with
    | error e => rfl
    | ok lv =>
      simp only [bind_ok]
      have hr : SimRel R (if lv.toNat > 1 then { a with phys := K.enter lv a.phys } else a)
          (if lv.toNat > 1 then { b with phys := K'.enter lv b.phys } else b) := by
        split
        · exact ⟨h.enter lv _ _ r.1, r.2⟩
        · exact r
      rw [h.intervals, h.divided]
      refine RelE.bind (R := fun x y : ℤ × SimSt π α ρ => x.1 = y.1 ∧ SimRel R x.2 y.2)
        (iterM_rel (fun x y hxy => ?_) _ _ _ ⟨rfl, hr⟩) fun x y hxy => ?_
      · obtain ⟨e, q⟩ := hxy
        rw [e, h.below lv _ _ q.1]
        split
        · exact ih _ _ _ q
        · exact RelE.bind (h.do_tstep lv q) fun s s' hs => ⟨rfl, hs⟩
      · obtain ⟨x1, x2⟩ := x
        obtain ⟨y1, y2⟩ := y
        obtain ⟨e, q⟩ := hxy
        cases e
        simp only
        split
        · exact RelE.bind (h.output q) fun s s' hs => ⟨rfl, hs⟩
        · exact ⟨rfl, q⟩

theorem SimAlike.data (h : SimAlike R K K') {a b : SimSt π α ρ} (r : SimRel R a b) :
    RelE (SimRel R) (K.data_tstep a) (K'.data_tstep b) := by
  unfold Sim.data_tstep
  exact RelE.bind (h.divide 3 0 a b r) fun x y q => q.2

end sim

/-! ## The same precipitation -/

/-- Forcings that agree in the weather and, if precipitation falls, in what falls; `wet` says whether it does. -/
structure FallRel (wet : Bool) (rho rho' : ℝ) (i i' : InputData) : Prop where
  S_n : i.S_n = i'.S_n
  I_lw : i.I_lw = i'.I_lw
  t_a : i.t_a = i'.t_a
  e_a : i.e_a = i'.e_a
  u : i.u = i'.u
  t_g : i.t_g = i'.t_g
  now : i.precip_now = wet
  now' : i'.precip_now = wet
  den : i.rho_snow = rho
  den' : i'.rho_snow = rho'
  temp : wet = true → i.h2o_sat_snow = i'.h2o_sat_snow ∧ i.t_rain = i'.t_rain ∧ i.t_snow = i'.t_snow
  mass : wet = true → i.m_pp = i'.m_pp ∧ i.m_snow = i'.m_snow ∧ i.m_rain = i'.m_rain ∧ i.z_snow = i'.z_snow ∧
    (rho = rho' ∨ i.m_snow ≤ 0 ∧ i.z_snow = 0)

/-- Deltas of such forcings. -/
structure DeltaRel (wet : Bool) (rho rho' : ℝ) (d d' : InputData) : Prop where
  S_n : d.S_n = d'.S_n
  I_lw : d.I_lw = d'.I_lw
  t_a : d.t_a = d'.t_a
  e_a : d.e_a = d'.e_a
  u : d.u = d'.u
  t_g : d.t_g = d'.t_g
  mass : wet = true → d.m_pp = d'.m_pp ∧ d.m_snow = d'.m_snow ∧ d.m_rain = d'.m_rain ∧ d.z_snow = d'.z_snow ∧
    (rho = rho' ∨ d.m_snow ≤ 0 ∧ d.z_snow = 0)

variable {wet : Bool} {rho rho' : ℝ}

theorem FallRel.update {i i' d d' : InputData} (h : FallRel wet rho rho' i i') (hd : DeltaRel wet rho rho' d d') :
    FallRel wet rho rho' (i.update_precip_deltas d) (i'.update_precip_deltas d') :=
  ⟨h.S_n, h.I_lw, h.t_a, h.e_a, h.u, h.t_g, h.now, h.now', h.den, h.den', h.temp, hd.mass⟩

theorem FallRel.add {i i' d d' : InputData} (h : FallRel wet rho rho' i i') (hd : DeltaRel wet rho rho' d d') :
    FallRel wet rho rho' (i.add_deltas d) (i'.add_deltas d') := by
  refine FallRel.update ⟨?_, ?_, ?_, ?_, ?_, ?_, h.now, h.now', h.den, h.den', h.temp, h.mass⟩ hd
  · exact congrArg₂ (· + ·) h.S_n hd.S_n
  · exact congrArg₂ (· + ·) h.I_lw hd.I_lw
  · exact congrArg₂ (· + ·) h.t_a hd.t_a
  · exact congrArg₂ (· + ·) h.e_a hd.e_a
  · exact congrArg₂ (· + ·) h.u hd.u
  · exact congrArg₂ (· + ·) h.t_g hd.t_g

/-- Related physical states: equal snow and first guesses, related forcing. -/
def FallPhys (wet : Bool) (rho rho' : ℝ) (p p' : Phys) : Prop :=
  p.snow = p'.snow ∧ p.init_ustar = p'.init_ustar ∧ p.init_factor = p'.init_factor ∧
    FallRel wet rho rho' p.input1 p'.input1

theorem h_le_fall (c : Env) {p p' : Phys} (h : FallPhys wet rho rho' p p') :
    RelE (fun x y => x.1 = y.1 ∧ x.2.snow = p.snow ∧ y.2.snow = p'.snow ∧ FallPhys wet rho rho' x.2 y.2)
      (h_le c p) (h_le c p') := by
  obtain ⟨s, i, u, f⟩ := p
  obtain ⟨s', i', u', f'⟩ := p'
  obtain ⟨h1, h2, h3, h4⟩ := h
  dsimp only at h1 h2 h3 h4
  subst h1 h2 h3
  unfold h_le InputData.sat_vp
  dsimp only
  rw [show sati i.t_a = sati i'.t_a by rw [h4.t_a]]
  cases sati i'.t_a with
  | error e => rfl
  | ok sv =>
    simp only [bind_ok]
    have hi : FallRel wet rho rho' (if i.e_a > sv then { i with e_a := sv } else i)
        (if i'.e_a > sv then { i' with e_a := sv } else i') := by
      rw [h4.e_a]
      split
      · exact ⟨h4.S_n, h4.I_lw, h4.t_a, rfl, h4.u, h4.t_g, h4.now, h4.now', h4.den, h4.den', h4.temp, h4.mass⟩
      · exact h4
    obtain ⟨j, hj⟩ : ∃ j, j = if i.e_a > sv then { i with e_a := sv } else i := ⟨_, rfl⟩
    obtain ⟨j', hj'⟩ : ∃ j, j = if i'.e_a > sv then { i' with e_a := sv } else i' := ⟨_, rfl⟩
    rw [← hj, ← hj'] at hi ⊢
    cases s.e_s_0 with
    | error e => rfl
    | ok es =>
      simp only [bind_ok]
      rw [hi.t_a, hi.e_a, hi.u]
      cases hle1 _ with
      | error e => rfl
      | ok r =>
        simp only [bind_ok]
        split
        · rfl
        · exact ⟨rfl, rfl, rfl, rfl, rfl, rfl, hi⟩

theorem h2o_left_zero (a b v : ℝ) : h2o_left 0 a v = h2o_left 0 b v := by
  unfold h2o_left; simp

theorem precip_fall (c : Env) {i i' : InputData} (h : FallRel wet rho rho' i i') (s : Snow) :
    precip_event c i s = precip_event c i' s := by
  unfold precip_event
  rw [h.now, h.now']
  cases hw : wet with
  | false => rfl
  | true =>
    obtain ⟨t1, t2, t3⟩ := h.temp hw
    obtain ⟨m1, m2, m3, m4, m5⟩ := h.mass hw
    simp only [if_true]
    rw [← t1, ← t3, ← m1, ← m2, ← m3, ← m4]
    have e1 : ∀ v, h2o_left i.z_snow i.rho_snow v = h2o_left i.z_snow i'.rho_snow v := fun v => by
      rcases m5 with e | ⟨_, e⟩
      · rw [h.den, h.den', e]
      · rw [e]; exact h2o_left_zero _ _ _
    rw [e1]
    by_cases hm : i.m_snow > 0
    · rcases m5 with e | ⟨e, _⟩
      · rw [h.den, h.den', e]
      · exact absurd hm (not_lt.mpr e)
    · simp only [if_neg hm]

theorem mass_fall (c : Env) {i i' : InputData} (h : FallRel wet rho rho' i i') (dt : ℝ) (s : Snow) :
    mass_balance c i dt s = mass_balance c i' dt s := by
  have e1 : ∀ s, precip_event c i s = precip_event c i' s := precip_fall c h
  have e2 : ∀ s, evap_cond c i dt s = evap_cond c i' dt s := by
    intro s
    unfold evap_cond soilEvap InputData.e_g
    rw [h.t_g]
  have e3 : ∀ s, h2o_compact c i s = h2o_compact c i' s := by
    intro s
    have : h2oAdded i s = h2oAdded i' s := by
      unfold h2oAdded
      rw [h.now, h.now']
      cases hw : wet with
      | false => rfl
      | true => rw [(h.mass hw).2.2.1]
    unfold h2o_compact
    rw [this]
  unfold mass_balance
  simp only [e1, e2, e3]

theorem energy_fall (c : Env) (dt : ℝ) {p p' : Phys} (h : FallPhys wet rho rho' p p') :
    RelE (FallPhys wet rho rho') (energy_balance c dt p) (energy_balance c dt p') := by
  have hh := h_le_fall c h
  obtain ⟨h1, h2, h3, h4⟩ := h
  unfold energy_balance
  rw [h1]
  split
  · dsimp only
    refine RelE.bind hh fun x y hxy => ?_
    obtain ⟨r, q⟩ := x
    obtain ⟨r', q'⟩ := y
    obtain ⟨e, e1, e2, k1, k2, k3, k4⟩ := hxy
    dsimp only at e e1 e2 k1 k2 k3 k4
    subst e
    have eh : heat_transfer c q.input1 q.snow = heat_transfer c q'.input1 q'.snow := by
      rw [k1]
      unfold heat_transfer g_soil InputData.e_g
      rw [k4.t_g]
    have ea : advec q.input1 dt q.snow = advec q'.input1 dt q'.snow := by
      rw [k1]
      unfold advec
      rw [k4.now, k4.now']
      cases hw : wet with
      | false => rfl
      | true =>
        obtain ⟨t1, t2, t3⟩ := k4.temp hw
        obtain ⟨m1, m2, m3, m4, m5⟩ := k4.mass hw
        rw [t2, t3, m2, m3]
    have er : net_radiation p.input1 p'.snow = net_radiation p'.input1 p'.snow := by
      unfold net_radiation
      rw [h4.S_n, h4.I_lw]
    dsimp only
    rw [eh, ea, er]
    cases heat_transfer c q'.input1 q'.snow with
    | error e => rfl
    | ok G =>
      cases advec q'.input1 dt q'.snow with
      | error e => rfl
      | ok M => exact ⟨by simp only [k1], k2, k3, k4⟩
  · exact ⟨rfl, h2, h3, h4⟩

theorem stepPhys_fall (c : Env) (dt : ℝ) {d d' : InputData} (hd : DeltaRel wet rho rho' d d') {p p' : Phys}
    (h : FallPhys wet rho rho' p p') : RelE (FallPhys wet rho rho') (stepPhys c dt d p) (stepPhys c dt d' p') := by
  unfold stepPhys
  obtain ⟨h1, h2, h3, h4⟩ := h
  have hp : FallPhys wet rho rho'
      (if p.input1.precip_now then { p with input1 := p.input1.update_precip_deltas d } else p)
      (if p'.input1.precip_now then { p' with input1 := p'.input1.update_precip_deltas d' } else p') := by
    rw [h4.now, h4.now']
    split
    · exact ⟨h1, h2, h3, h4.update hd⟩
    · exact ⟨h1, h2, h3, h4⟩
  obtain ⟨k1, k2, k3, k4⟩ := hp
  dsimp only
  refine RelE.bind (energy_fall c dt (p := _) (p' := _) ⟨?_, k2, k3, k4⟩) fun q q' hq => ?_
  · simp only [k1]
  · obtain ⟨j1, j2, j3, j4⟩ := hq
    rw [mass_fall c j4, j1]
    cases mass_balance c q'.input1 dt q'.snow with
    | error e => rfl
    | ok s => exact ⟨rfl, j2, j3, j4⟩

theorem snobal_fall (c : Env) (ts : Tsteps) (all : Bool) {dl dl' : Level → InputData}
    (hd : ∀ lv, DeltaRel wet rho rho' (dl lv) (dl' lv)) :
    SimAlike (FallPhys wet rho rho') (snobalSim c ts all dl) (snobalSim c ts all dl') where
  intervals := rfl
  timedelta := rfl
  divided := rfl
  reset := rfl
  below lv p p' h := by simp only [snobalSim, h.1]
  enter lv p p' h := by
    obtain ⟨h1, h2, h3, h4⟩ := h
    simp only [snobalSim]
    rw [h4.now, h4.now']
    split
    · exact ⟨h1, h2, h3, h4.update (hd lv)⟩
    · exact ⟨h1, h2, h3, h4⟩
  phys lv p p' h := stepPhys_fall c _ (hd lv) h
  accum lv p p' a h := by simp only [snobalSim, h.1]
  finish lv p p' h := ⟨h.1, h.2.1, h.2.2.1, h.2.2.2.add (hd lv)⟩
  snap p p' a t h := by simp only [snobalSim, h.1]

/-! ## Records -/

theorem toInput_fall {r r' : Rec} (hw : r.SameWeather r') (h : r.FallsAlike r') :
    ∃ wet, FallRel wet r.rho_snow r'.rho_snow r.toInput r'.toInput := by
  have hr : r.m_pp * (1 - r.percent_snow) = r.m_pp - r.m_pp * r.percent_snow := by ring
  rcases h with ⟨h1, h2⟩ | ⟨h1, h2, h3, h4, h5⟩
  · refine ⟨false, hw.S_n, hw.I_lw, hw.t_a, hw.e_a, hw.u, hw.t_g, ?_, ?_, rfl, rfl, fun h => (by cases h), fun h => (by cases h)⟩
    · simp [Rec.toInput, h1]
    · simp [Rec.toInput, h2]
  · rw [hr] at h4 h5
    by_cases hp : 0 < r.m_pp
    · refine ⟨true, hw.S_n, hw.I_lw, hw.t_a, hw.e_a, hw.u, hw.t_g, by simp [Rec.toInput, hp],
        by simp [Rec.toInput, ← h1, hp], rfl, rfl, fun _ => ?_, fun _ => ?_⟩
      · simp only [Rec.toInput, ← h1, ← h2, hp, true_and]
        by_cases hrain : 0 < r.m_pp - r.m_pp * r.percent_snow
        · have e := h4 hrain
          simp only [hrain, true_or, if_true, true_and]
          refine ⟨?_, trivial⟩
          rcases max_cases r.t_pp FREEZE with ⟨a, b⟩ | ⟨a, b⟩ <;>
            rcases max_cases r'.t_pp FREEZE with ⟨a', b'⟩ | ⟨a', b'⟩ <;> rw [a, a'] at e
          · rw [if_neg (not_lt.mpr b), if_neg (not_lt.mpr b'), e]
          · rw [if_neg (not_lt.mpr b), if_pos b', e]
          · rw [if_pos b, if_neg (not_lt.mpr b'), e]
          · rw [if_pos b, if_pos b']
        · have e := h5 (not_lt.mp hrain)
          simp only [hrain, false_or, if_false, true_and]
          have hiff : FREEZE ≤ r.t_pp ↔ FREEZE ≤ r'.t_pp := by
            constructor
            · intro q; rw [min_eq_right q] at e; rw [e]; exact min_le_left _ _
            · intro q; rw [min_eq_right q] at e; rw [← e]; exact min_le_left _ _
          simp only [hiff]
          refine ⟨trivial, ?_⟩
          by_cases q : FREEZE ≤ r'.t_pp
          · simp only [q, if_true]
          · have q1 : r.t_pp < FREEZE := not_le.mp fun w => q (hiff.mp w)
            rw [min_eq_left q1.le, min_eq_left (not_le.mp q).le] at e
            simp only [q, if_false, e]
      · by_cases hs : 0 < r.m_pp * r.percent_snow
        · have e := h3 hs
          refine ⟨h1, ?_, ?_, ?_, .inl e⟩ <;> simp only [Rec.toInput, ← h1, ← h2, e]
        · refine ⟨h1, ?_, ?_, ?_, .inr ⟨not_lt.mp hs, ?_⟩⟩ <;>
            simp only [Rec.toInput, ← h1, ← h2, hs, and_false, if_false]
    · refine ⟨false, hw.S_n, hw.I_lw, hw.t_a, hw.e_a, hw.u, hw.t_g, ?_, ?_, rfl, rfl, fun h => (by cases h), fun h => (by cases h)⟩
      · simp [Rec.toInput, hp]
      · simp [Rec.toInput, ← h1, hp]

theorem new_fall {r r' : Rec} (hw : r.SameWeather r') (h : r.FallsAlike r') :
    (InputData.new r = .error .rhoSnow ∧ InputData.new r' = .error .rhoSnow) ∨
    (InputData.new r = .ok r.toInput ∧ InputData.new r' = .ok r'.toInput) := by
  rw [new_eq, new_eq]
  have : (0 < r.m_pp ∧ 0 < r.m_pp * r.percent_snow ∧ r.rho_snow ≤ 0) ↔
      (0 < r'.m_pp ∧ 0 < r'.m_pp * r'.percent_snow ∧ r'.rho_snow ≤ 0) := by
    rcases h with ⟨h1, h2⟩ | ⟨h1, h2, h3, _⟩
    · exact ⟨fun q => absurd q.1 (not_lt.mpr h1), fun q => absurd q.1 (not_lt.mpr h2)⟩
    · rw [← h1, ← h2]
      exact ⟨fun q => ⟨q.1, q.2.1, by rw [← h3 q.2.1]; exact q.2.2⟩, fun q => ⟨q.1, q.2.1, by rw [h3 q.2.1]; exact q.2.2⟩⟩
  simp only [this]
  split
  · exact .inl ⟨rfl, rfl⟩
  · exact .inr ⟨rfl, rfl⟩

theorem delta_fall {r r' : Rec} (hw : r.SameWeather r') (h : r.FallsAlike r') {wet : Bool}
    (hf : FallRel wet r.rho_snow r'.rho_snow r.toInput r'.toInput) {i2 i2' : InputData}
    (h1 : i2.S_n = i2'.S_n) (h2 : i2.I_lw = i2'.I_lw) (h3 : i2.t_a = i2'.t_a) (h4 : i2.e_a = i2'.e_a)
    (h5 : i2.u = i2'.u) (h6 : i2.t_g = i2'.t_g) {n : ℝ} (hn : 0 < n) :
    DeltaRel wet r.rho_snow r'.rho_snow (deltaRec r.toInput i2 n).toInput (deltaRec r'.toInput i2' n).toInput := by
  refine ⟨?_, ?_, ?_, ?_, ?_, ?_, fun hwet => ?_⟩
  · simp only [deltaRec, Rec.toInput, hw.S_n, h1]
  · simp only [deltaRec, Rec.toInput, hw.I_lw, h2]
  · simp only [deltaRec, Rec.toInput, hw.t_a, h3]
  · simp only [deltaRec, Rec.toInput, hw.e_a, h4]
  · simp only [deltaRec, Rec.toInput, hw.u, h5]
  · simp only [deltaRec, Rec.toInput, hw.t_g, h6]
  · have hp : 0 < r.m_pp := by
      have := hf.now
      rw [hwet] at this
      simpa [Rec.toInput] using this
    rcases h with ⟨q, _⟩ | ⟨q1, q2, q3, _⟩
    · exact absurd hp (not_lt.mpr q)
    · by_cases hs : 0 < r.m_pp * r.percent_snow
      · have e := q3 hs
        refine ⟨?_, ?_, ?_, ?_, .inl e⟩ <;> simp only [deltaRec, Rec.toInput, ← q1, ← q2, e]
      · have hs' : ¬ 0 < r.m_pp / n * r.percent_snow := by
          rw [show r.m_pp / n * r.percent_snow = r.m_pp * r.percent_snow / n by ring]
          rw [not_lt] at hs ⊢
          exact div_nonpos_of_nonpos_of_nonneg hs hn.le
        refine ⟨?_, ?_, ?_, ?_, .inr ⟨?_, ?_⟩⟩ <;>
          simp only [deltaRec, Rec.toInput, ← q1, ← q2, hs', and_false, if_false]
        exact not_lt.mp hs'

/-- Models that agree in everything but the working forcing. -/
def SameButForcing (a b : Model) : Prop :=
  a.phys.snow = b.phys.snow ∧ a.phys.init_ustar = b.phys.init_ustar ∧ a.phys.init_factor = b.phys.init_factor ∧
    a.acc = b.acc ∧ a.current_datetime = b.current_datetime ∧ a.output_list = b.output_list

theorem data_fall {c : Env} {ts : Tsteps} (ht : TileOK ts) (all : Bool) {r1 r1' r2 r2' : Rec}
    (hw : r1.SameWeather r1') (h : r1.FallsAlike r1') (hw2 : r2.SameWeather r2')
    (n1 : InputData.new r1 = .ok r1.toInput) (n1' : InputData.new r1' = .ok r1'.toInput) {a b : Model}
    (hab : SameButForcing a b) :
    RelE SameButForcing (do_data_tstep c ts all r1.toInput r2.toInput a)
      (do_data_tstep c ts all r1'.toInput r2'.toInput b) := by
  unfold do_data_tstep
  rw [inputDeltas_total ht n1, inputDeltas_total ht n1', bind_ok, bind_ok]
  obtain ⟨wet, hf⟩ := toInput_fall hw h
  have hn : ∀ lv, (0 : ℝ) < ((ts lv).intervals_per_timestep : ℝ) := fun lv => by exact_mod_cast ht.ipt_pos lv
  obtain ⟨q1, q2, q3, q4, q5, q6⟩ := hab
  have key := (snobal_fall c ts all fun lv => delta_fall hw h hf (i2 := r2.toInput) (i2' := r2'.toInput)
    hw2.S_n hw2.I_lw hw2.t_a hw2.e_a hw2.u hw2.t_g (hn lv)).data
    (a := { a with phys := { a.phys with input1 := r1.toInput } })
    (b := { b with phys := { b.phys with input1 := r1'.toInput } }) ⟨⟨q1, q2, q3, hf⟩, q4, q5, q6⟩
  revert key
  generalize Sim.data_tstep _ _ = x
  generalize Sim.data_tstep _ _ = y
  intro key
  cases x <;> cases y <;> try exact key
  obtain ⟨⟨k1, k2, k3, _⟩, k4, k5, k6⟩ := key
  exact ⟨k1, k2, k3, k4, k5, k6⟩

theorem runSteps_fall {c : Env} {ts : Tsteps} (ht : TileOK ts) (all : Bool) {rs rs' : List Rec}
    (hrs : List.Forall₂ (fun r r' => r.SameWeather r' ∧ r.FallsAlike r') rs rs') : ∀ (r1 r1' : Rec) (a b : Model),
    r1.SameWeather r1' → r1.FallsAlike r1' → InputData.new r1 = .ok r1.toInput → InputData.new r1' = .ok r1'.toInput →
    SameButForcing a b →
    RelE SameButForcing (runSteps c ts all r1.toInput rs a) (runSteps c ts all r1'.toInput rs' b) := by
  induction hrs with
  | nil => exact fun r1 r1' a b _ _ _ _ h => h
  | @cons x x' xs xs' hx hxs ih =>
    intro r1 r1' a b hw h n1 n1' hab
    unfold runSteps
    rcases new_fall hx.1 hx.2 with ⟨e1, e2⟩ | ⟨e1, e2⟩
    · rw [e1, e2]; rfl
    · rw [e1, e2, bind_ok, bind_ok]
      exact RelE.bind (data_fall ht all hw h hx.1 n1 n1' hab) fun p q hpq => ih x x' p q hx.1 hx.2 e1 e2 hpq

/-- C73: the precipitation columns of a record matter only through what falls.  Two runs over records with the same
weather in which the same precipitation falls have the same outcome: the same exception or the same output file.  In
particular phase, density and temperature of precipitation do not matter in a record without precipitation, the
density of snow does not matter in a record with rain only, the temperature does not matter below freezing where rain
falls, and not above freezing where snow alone falls. -/
theorem C73_only_what_falls_matters (g : Config) (hg : g.Tiled) (rows rows' : List Rec)
    (h : List.Forall₂ (fun r r' => r.SameWeather r' ∧ r.FallsAlike r') rows rows') :
    RelE (fun m m' => m.output_list = m'.output_list ∧ m.phys.snow = m'.phys.snow ∧
        m.current_datetime = m'.current_datetime) (simulate g rows) (simulate g rows') ∧
    ∀ file, run g rows file = run g rows' file := by
  have hs : RelE SameButForcing (simulate g rows) (simulate g rows') := by
    cases h with
    | nil => rfl
    | @cons r r' rs rs' hr hrs =>
      unfold simulate
      cases hts : parse_time_steps g with
      | error e => rfl
      | ok ts =>
        have ht := parse_tile hg hts
        simp only [bind_ok]
        rcases new_fall hr.1 hr.2 with ⟨e1, e2⟩ | ⟨e1, e2⟩
        · rw [e1, e2]; rfl
        · rw [e1, e2, bind_ok, bind_ok]
          cases mkEnv g with
          | error e => rfl
          | ok c =>
            simp only [bind_ok]
            unfold mkModel
            cases init_snow c (recordSnow g) with
            | error e => rfl
            | ok s => exact runSteps_fall ht _ hrs r r' _ _ hr.1 hr.2 e1 e2 ⟨rfl, rfl, rfl, rfl, rfl, rfl⟩
  constructor
  · revert hs
    cases simulate g rows <;> cases simulate g rows' <;> intro hs <;> try exact hs
    exact ⟨hs.2.2.2.2.2, hs.1, hs.2.2.2.2.1⟩
  · intro file
    unfold run
    revert hs
    cases simulate g rows <;> cases simulate g rows' <;> intro hs
    · rw [show _ = _ from hs]
    · exact hs.elim
    · exact hs.elim
    · simp only [hs.2.2.2.2.2]

/-- C73: without snow on the ground, radiation, air temperature, vapour pressure and wind do not matter: two run
steps that start from the same snow-free state and differ in these only leave the same snow, or raise the same
exception. -/
theorem C73_bare_ground_feels_no_weather (c : Env) (dt : ℝ) (d : InputData) (p p' : Phys) (hs : p.snow = p'.snow)
    (hb : p.snow.layer_count = 0) (hi : p.input1.SameFall p'.input1) :
    RelE (fun q q' => q.snow = q'.snow) (stepPhys c dt d p) (stepPhys c dt d p') := by
  have key : ∀ {i i' : InputData}, i.SameFall i' → ∀ s, mass_balance c i dt s = mass_balance c i' dt s := by
    intro i i' h s
    have e1 : ∀ s, precip_event c i s = precip_event c i' s := by
      intro s
      unfold precip_event
      rw [h.precip_now, h.z_snow, h.m_pp, h.h2o_sat_snow, h.rho_snow, h.m_snow, h.t_snow, h.m_rain]
    have e2 : ∀ s, evap_cond c i dt s = evap_cond c i' dt s := by
      intro s
      unfold evap_cond soilEvap InputData.e_g
      rw [h.t_g]
    have e3 : ∀ s, h2o_compact c i s = h2o_compact c i' s := by
      intro s
      unfold h2o_compact h2oAdded
      rw [h.precip_now, h.m_rain]
    unfold mass_balance
    simp only [e1, e2, e3]
  obtain ⟨s, i, u, f⟩ := p
  obtain ⟨s', i', u', f'⟩ := p'
  dsimp only at hs hb hi
  subst hs
  unfold stepPhys energy_balance
  have hb' : ∀ b, ¬ Snow.layer_count { s with h2o_total := 0, snowcover := b } > 0 := fun b => by
    show ¬ s.layer_count > 0
    omega
  have ha : ∃ j j' : InputData, j.SameFall j' ∧
      (if i.precip_now then ({ snow := s, input1 := i.update_precip_deltas d, init_ustar := u, init_factor := f } : Phys)
        else ⟨s, i, u, f⟩) = ⟨s, j, u, f⟩ ∧
      (if i'.precip_now then ({ snow := s, input1 := i'.update_precip_deltas d, init_ustar := u', init_factor := f' } : Phys)
        else ⟨s, i', u', f'⟩) = ⟨s, j', u', f'⟩ := by
    by_cases hp : i'.precip_now = true
    · rw [if_pos (hi.precip_now.trans hp), if_pos hp]
      exact ⟨i.update_precip_deltas d, i'.update_precip_deltas d, ⟨hi.t_g, rfl, hi.rho_snow, rfl, rfl, rfl, hi.h2o_sat_snow, hi.t_rain, hi.t_snow, hi.precip_now⟩, rfl, rfl⟩
    · rw [if_neg (fun q => hp (hi.precip_now.symm.trans q)), if_neg hp]
      exact ⟨_, _, hi, rfl, rfl⟩
  obtain ⟨j, j', hj, e1, e2⟩ := ha
  dsimp only
  rw [e1, e2]
  dsimp only
  rw [if_neg (hb' _), if_neg (hb' _), bind_ok, bind_ok, key hj]
  cases mass_balance c j' dt _ with
  | error e => rfl
  | ok s => rfl

end

end Pysnobal
