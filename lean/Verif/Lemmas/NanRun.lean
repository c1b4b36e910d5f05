import Verif.Lemmas.NanSnow

/-! # On numbers, a run with missing values is a run without: `NanDriver.lean` -/

namespace Pysnobal

noncomputable section

open Classical

/-! ### Forcing -/

/-- The deltas a run step reads: the weather, and the masses and depth of precipitation if there is any. -/
def NInput.DeltaReads (wet : Bool) (d : NInput) (i : InputData) : Prop :=
  d.S_n = some i.S_n ∧ d.I_lw = some i.I_lw ∧ d.t_a = some i.t_a ∧ d.e_a = some i.e_a ∧ d.u = some i.u ∧
  d.t_g = some i.t_g ∧
  (wet = true → d.m_pp = some i.m_pp ∧ d.m_snow = some i.m_snow ∧ d.m_rain = some i.m_rain ∧ d.z_snow = some i.z_snow)

theorem NInput.ReadsAs.delta {d : NInput} {i : InputData} (h : d.ReadsAs i) : d.DeltaReads i.precip_now i := by
  obtain ⟨h1, h2, h3, h4, h5, h6, _, h8⟩ := h
  exact ⟨h1, h2, h3, h4, h5, h6, fun hw => ⟨(h8 hw).1, (h8 hw).2.1, (h8 hw).2.2.1, (h8 hw).2.2.2.1⟩⟩

theorem NInput.ReadsAs.update {d dl : NInput} {i il : InputData} (h : d.ReadsAs i) (hd : dl.DeltaReads i.precip_now il) :
    (d.update_precip_deltas dl).ReadsAs (i.update_precip_deltas il) := by
  obtain ⟨h1, h2, h3, h4, h5, h6, h7, h8⟩ := h
  obtain ⟨_, _, _, _, _, _, k⟩ := hd
  refine ⟨h1, h2, h3, h4, h5, h6, h7, fun hw => ?_⟩
  obtain ⟨k1, k2, k3, k4⟩ := k hw
  obtain ⟨_, _, _, _, r5, r6, r7, r8⟩ := h8 hw
  exact ⟨k1, k2, k3, k4, r5, r6, r7, r8⟩

theorem NInput.ReadsAs.add {d dl : NInput} {i il : InputData} (h : d.ReadsAs i) (hd : dl.DeltaReads i.precip_now il) :
    (d.add_deltas dl).ReadsAs (i.add_deltas il) := by
  obtain ⟨h1, h2, h3, h4, h5, h6, h7, h8⟩ := h
  have hd' := hd
  obtain ⟨k1, k2, k3, k4, k5, k6, _⟩ := hd'
  exact NInput.ReadsAs.update (d := { d with S_n := NVal.add d.S_n dl.S_n, I_lw := NVal.add d.I_lw dl.I_lw, t_a := NVal.add d.t_a dl.t_a, e_a := NVal.add d.e_a dl.e_a, u := NVal.add d.u dl.u, t_g := NVal.add d.t_g dl.t_g })
    (i := { i with S_n := i.S_n + il.S_n, I_lw := i.I_lw + il.I_lw, t_a := i.t_a + il.t_a, e_a := i.e_a + il.e_a, u := i.u + il.u, t_g := i.t_g + il.t_g })
    ⟨by simp [h1, k1], by simp [h2, k2], by simp [h3, k3], by simp [h4, k4], by simp [h5, k5], by simp [h6, k6], h7, h8⟩ hd

theorem InputData.cells_reads (i : InputData) : i.cells.ReadsAs i :=
  ⟨rfl, rfl, rfl, rfl, rfl, rfl, rfl, fun _ => ⟨rfl, rfl, rfl, rfl, rfl, rfl, rfl, rfl⟩⟩

theorem InputData.cells_delta (wet : Bool) (i : InputData) : i.cells.DeltaReads wet i :=
  ⟨rfl, rfl, rfl, rfl, rfl, rfl, fun _ => ⟨rfl, rfl, rfl, rfl⟩⟩

theorem RelE.mono {σ τ : Type} {R R' : σ → τ → Prop} (h : ∀ a b, R a b → R' a b) {x : Except Err σ} {y : Except Err τ}
    (r : RelE R x y) : RelE R' x y := by
  cases x <;> cases y <;> simp_all [RelE]

theorem relE_map {σ τ : Type} (g : τ → σ) (y : Except Err τ) : RelE (fun a b => a = g b) (y.map g) y := by
  cases y <;> simp [RelE, Except.map]

theorem relE_eq {σ τ : Type} {g : τ → σ} {x : Except Err σ} {y : Except Err τ} (h : RelE (fun a b => a = g b) x y) :
    x = y.map g := by
  cases x <;> cases y <;> simp_all [RelE, Except.map]

/-! ### The time stepping -/

section sim

variable {π α ρ π' α' ρ' : Type}

/-- Related states, accumulators and records. -/
def SimHom (R : π → π' → Prop) (A : α' → α) (F : ρ' → ρ) (a : SimSt π α ρ) (b : SimSt π' α' ρ') : Prop :=
  R a.phys b.phys ∧ a.acc = A b.acc ∧ a.current_datetime = b.current_datetime ∧ a.output_list = b.output_list.map F

/-- Two time steppings that respect the relation. -/
structure SimMap (R : π → π' → Prop) (A : α' → α) (F : ρ' → ρ) (K : Sim π α ρ) (K' : Sim π' α' ρ') : Prop where
  intervals : K.intervals = K'.intervals
  timedelta : K.timedelta = K'.timedelta
  divided : K.output_divided = K'.output_divided
  reset : ∀ a, K.reset (A a) = A (K'.reset a)
  below : ∀ lv p p', R p p' → K.below lv p = K'.below lv p'
  enter : ∀ lv p p', R p p' → R (K.enter lv p) (K'.enter lv p')
  phys : ∀ lv p p', R p p' → RelE R (K.phys lv p) (K'.phys lv p')
  accum : ∀ lv p p' a, R p p' → K.accum lv p (A a) = (K'.accum lv p' a).map A
  finish : ∀ lv p p', R p p' → R (K.finish lv p) (K'.finish lv p')
  snap : ∀ p p' a t, R p p' → K.snap p (A a) t = (K'.snap p' a t).map F

variable {R : π → π' → Prop} {A : α' → α} {F : ρ' → ρ} {K : Sim π α ρ} {K' : Sim π' α' ρ'}

theorem SimMap.output (h : SimMap R A F K K') {a : SimSt π α ρ} {b : SimSt π' α' ρ'} (r : SimHom R A F a b) :
    RelE (SimHom R A F) (K.output a) (K'.output b) := by
  obtain ⟨r1, r2, r3, r4⟩ := r
  unfold Sim.output
  rw [r2, r3, h.snap _ _ _ _ r1]
  cases K'.snap b.phys b.acc b.current_datetime with
  | error e => rfl
  | ok x => exact ⟨r1, h.reset _, rfl, by simp [r4]⟩

theorem SimMap.do_tstep (h : SimMap R A F K K') (lv : Level) {a : SimSt π α ρ} {b : SimSt π' α' ρ'}
    (r : SimHom R A F a b) : RelE (SimHom R A F) (K.do_tstep lv a) (K'.do_tstep lv b) := by
  obtain ⟨r1, r2, r3, r4⟩ := r
  unfold Sim.do_tstep
  refine RelE.bind (h.phys lv _ _ r1) fun p p' hp => ?_
  rw [r2, h.accum lv p p' _ hp]
  cases K'.accum lv p' b.acc with
  | error e => rfl
  | ok x =>
    simp only [map_ok, bind_ok]
    rw [h.divided, h.timedelta, r3]
    have hr : SimHom R A F { a with phys := p, acc := A x, current_datetime := b.current_datetime + K'.timedelta lv }
        { b with phys := p', acc := x, current_datetime := b.current_datetime + K'.timedelta lv } := ⟨hp, rfl, rfl, r4⟩
    have hfin : ∀ (s : SimSt π α ρ) (s' : SimSt π' α' ρ'), SimHom R A F s s' → RelE (SimHom R A F)
        (pure { s with phys := K.finish lv s.phys } : Except Err _) (pure { s' with phys := K'.finish lv s'.phys }) :=
      fun s s' q => ⟨h.finish lv _ _ q.1, q.2⟩
    split
    · exact RelE.bind (h.output hr) hfin
    · exact hfin _ _ hr

theorem SimMap.divide (h : SimMap R A F K K') (fuel : ℕ) : ∀ (cur : ℤ) (a : SimSt π α ρ) (b : SimSt π' α' ρ'),
    SimHom R A F a b → RelE (fun x y => x.1 = y.1 ∧ SimHom R A F x.2 y.2) (K.divide_tstep fuel (cur, a))
      (K'.divide_tstep fuel (cur, b)) := by
  induction fuel with
  | zero => exact fun cur a b r => rfl
  | succ n ih =>
    intro cur a b r
    unfold Sim.divide_tstep
    cases hl : levelAt cur with
    | error e => rfl
    | ok lv =>
      simp only [bind_ok]
      have hr : SimHom R A F (if lv.toNat > 1 then { a with phys := K.enter lv a.phys } else a)
          (if lv.toNat > 1 then { b with phys := K'.enter lv b.phys } else b) := by
        split
        · exact ⟨h.enter lv _ _ r.1, r.2⟩
        · exact r
      rw [h.intervals, h.divided]
      refine RelE.bind (R := fun (x : ℤ × SimSt π α ρ) (y : ℤ × SimSt π' α' ρ') => x.1 = y.1 ∧ SimHom R A F x.2 y.2)
        (iterM_rel (fun x y hxy => ?_) _ _ _ ⟨rfl, hr⟩) fun x y hxy => ?_
      · obtain ⟨e, q⟩ := hxy
        rw [e, h.below lv _ _ q.1]
        split
        · exact ih _ _ _ q
        · exact RelE.bind (h.do_tstep lv q) fun s s' hs => ⟨rfl, hs⟩
      · obtain ⟨x1, x2⟩ := x
        obtain ⟨y1, y2⟩ := y
        obtain ⟨e, q⟩ := hxy
        cases e
        simp only
        split
        · exact RelE.bind (h.output q) fun s s' hs => ⟨rfl, hs⟩
        · exact ⟨rfl, q⟩

theorem SimMap.data (h : SimMap R A F K K') {a : SimSt π α ρ} {b : SimSt π' α' ρ'} (r : SimHom R A F a b) :
    RelE (SimHom R A F) (K.data_tstep a) (K'.data_tstep b) := by
  unfold Sim.data_tstep
  exact RelE.bind (h.divide 3 0 a b r) fun x y q => q.2

end sim

namespace Nan

/-! ### A run step -/

/-- The state `p` has all the values a run step reads, and they are those of `q`. -/
structure PhysReads (wet : Bool) (p : Phys) (q : Pysnobal.Phys) : Prop where
  snow : p.snow = Snow.ofReal q.snow
  input : p.input1.ReadsAs q.input1
  now : q.input1.precip_now = wet
  ustar : p.init_ustar = q.init_ustar.map some
  factor : p.init_factor = q.init_factor.map some

theorem h_le_s {wet : Bool} (c : Env) {p : Phys} {q : Pysnobal.Phys} (h : PhysReads wet p q) :
    RelE (fun x y => x.1 = HleOut.ofReal y.1 ∧ PhysReads wet x.2 y.2) (h_le c p) (Pysnobal.h_le c q) := by
  obtain ⟨h1, h2, h3, h4, h5⟩ := h
  have hi := h2
  obtain ⟨w1, w2, w3, w4, w5, w6, w7, w8⟩ := hi
  unfold h_le Pysnobal.h_le InputData.sat_vp
  rw [w3, sati_s]
  refine RelE.bind (relE_map some (Pysnobal.sati q.input1.t_a)) fun a sat ha => ?_
  subst ha
  have hi : NInput.ReadsAs (if NVal.lt (some sat) p.input1.e_a then { p.input1 with e_a := some sat } else p.input1)
      (if q.input1.e_a > sat then { q.input1 with e_a := sat } else q.input1) := by
    rw [w4]
    simp only [NVal.lt_some]
    split
    · exact ⟨w1, w2, w3, rfl, w5, w6, w7, w8⟩
    · exact h2
  have hn : (if q.input1.e_a > sat then { q.input1 with e_a := sat } else q.input1).precip_now = wet := by
    split <;> exact h3
  dsimp only
  revert hi hn
  generalize (if NVal.lt (some sat) p.input1.e_a then { p.input1 with e_a := some sat } else p.input1) = d
  generalize (if q.input1.e_a > sat then { q.input1 with e_a := sat } else q.input1) = i
  intro hi hn
  have hi' := hi
  obtain ⟨v1, v2, v3, v4, v5, v6, v7, v8⟩ := hi
  rw [h1, e_s_0_s]
  refine RelE.bind (relE_map some q.snow.e_s_0) fun a es ha => ?_
  subst ha
  have ez : (Snow.ofReal q.snow).z_s = some q.snow.z_s := rfl
  have et : (Snow.ofReal q.snow).t_s_0 = some q.snow.t_s_0 := rfl
  have key := hle1_s { press := c.P_a, air_temp := i.t_a, surface_temp := q.snow.t_s_0, za := (if c.relative_hts then c.z_t else c.z_t - q.snow.z_s), ea := i.e_a, es := es, zq := (if c.relative_hts then c.z_t else c.z_t - q.snow.z_s), wind_speed := i.u, zu := (if c.relative_hts then c.z_u else c.z_u - q.snow.z_s), z0 := c.z_0, init_ustar := q.init_ustar, init_factor := q.init_factor }
  unfold HleIn.ofReal at key
  dsimp only at key
  rw [ez, et, v3, v4, v5, h4, h5]
  nnum [map_ok]
  rw [key]
  refine RelE.bind (relE_map HleOut.ofReal _) fun r r' hr => ?_
  subst hr
  have es' : (HleOut.ofReal r').status = r'.status := rfl
  rw [es']
  by_cases hst : r'.status ≠ 0
  · simp only [hst, if_true, ne_eq, not_false_eq_true]; rfl
  · rw [if_neg hst, if_neg hst]
    exact ⟨rfl, ⟨rfl, hi', hn, rfl, rfl⟩⟩

theorem energy_balance_s {wet : Bool} (c : Env) (dt : ℝ) {p : Phys} {q : Pysnobal.Phys} (h : PhysReads wet p q) :
    RelE (PhysReads wet) (energy_balance c dt p) (Pysnobal.energy_balance c dt q) := by
  unfold energy_balance Pysnobal.energy_balance
  rw [h.snow, layer_count_s]
  by_cases hl : q.snow.layer_count > 0
  · rw [if_pos hl, if_pos hl, net_radiation_s _ _ h.input]
    dsimp only
    refine RelE.bind (h_le_s c h) fun x y hxy => ?_
    obtain ⟨r, p'⟩ := x
    obtain ⟨r', q'⟩ := y
    obtain ⟨hr, hp⟩ := hxy
    dsimp only at hr hp ⊢
    subst hr
    rw [hp.snow, heat_transfer_s c _ _ hp.input, advec_s _ _ hp.input]
    refine RelE.bind (relE_map _ _) fun g g' hg => ?_
    subst hg
    refine RelE.bind (relE_map _ _) fun m m' hm => ?_
    subst hm
    exact ⟨rfl, hp.input, hp.now, hp.ustar, hp.factor⟩
  · rw [if_neg hl, if_neg hl]
    exact ⟨by rw [show Energy.zero = Energy.ofReal Pysnobal.Energy.zero from rfl]; rfl, h.input, h.now, h.ustar, h.factor⟩

theorem stepPhys_s {wet : Bool} (c : Env) (dt : ℝ) {d : NInput} {i : InputData} (hd : d.DeltaReads wet i) {p : Phys}
    {q : Pysnobal.Phys} (h : PhysReads wet p q) : RelE (PhysReads wet) (stepPhys c dt d p) (Pysnobal.stepPhys c dt i q) := by
  unfold stepPhys Pysnobal.stepPhys
  have hp : PhysReads wet (if p.input1.precip_now then { p with input1 := p.input1.update_precip_deltas d } else p)
      (if q.input1.precip_now then { q with input1 := q.input1.update_precip_deltas i } else q) := by
    obtain ⟨h1, h2, h3, h4, h5⟩ := h
    rw [h2.2.2.2.2.2.2.1]
    split
    · exact ⟨h1, h2.update (by rw [h3]; exact hd), h3, h4, h5⟩
    · exact ⟨h1, h2, h3, h4, h5⟩
  dsimp only
  revert hp
  generalize (if p.input1.precip_now then { p with input1 := p.input1.update_precip_deltas d } else p) = p1
  generalize (if q.input1.precip_now then { q with input1 := q.input1.update_precip_deltas i } else q) = q1
  intro hp
  have el : Snow.layer_count { p1.snow with h2o_total := 0 } = q1.snow.layer_count := by
    rw [hp.snow]; exact layer_count_s q1.snow
  have el' : Pysnobal.Snow.layer_count { q1.snow with h2o_total := 0 } = q1.snow.layer_count := rfl
  rw [el, el']
  refine RelE.bind (energy_balance_s c dt (q := { q1 with snow := { q1.snow with h2o_total := 0, snowcover := decide (q1.snow.layer_count > 0) } }) ⟨?_, hp.input, hp.now, hp.ustar, hp.factor⟩) fun x y hxy => ?_
  · rw [hp.snow]; rfl
  · rw [hxy.snow, mass_balance_s c _ _ hxy.input]
    refine RelE.bind (relE_map _ _) fun s s' hs => ?_
    exact ⟨hs, hxy.input, hxy.now, hxy.ustar, hxy.factor⟩

/-! ### Accumulators and records -/

/-- Numbers only. -/
def Acc.ofReal (a : Pysnobal.Acc) : Acc :=
  { bar := Energy.ofReal a.bar, melt_sum := some a.melt_sum, E_s_sum := some a.E_s_sum, swi_sum := a.swi_sum.map some }
/-- Numbers only. -/
def AccT.ofReal (a : Pysnobal.AccT) : AccT := { acc := Acc.ofReal a.acc, time_since_out := a.time_since_out }
/-- Numbers only. -/
def OutRec.ofReal (r : Pysnobal.OutRec) : OutRec :=
  { rho := some r.rho, t_s_0 := some r.t_s_0, t_s_l := some r.t_s_l, t_s := some r.t_s, cc_s_0 := some r.cc_s_0,
    cc_s_l := some r.cc_s_l, cc_s := some r.cc_s, m_s := some r.m_s, m_s_0 := some r.m_s_0, m_s_l := some r.m_s_l,
    z_s := some r.z_s, z_s_0 := some r.z_s_0, z_s_l := some r.z_s_l, h2o_sat := some r.h2o_sat,
    layer_count := r.layer_count, h2o := some r.h2o, h2o_max := some r.h2o_max, h2o_vol := some r.h2o_vol,
    h2o_total := some r.h2o_total, R_n_bar := some r.R_n_bar, H_bar := some r.H_bar, L_v_E_bar := some r.L_v_E_bar,
    G_bar := some r.G_bar, G_0_bar := some r.G_0_bar, M_bar := some r.M_bar, delta_Q_bar := some r.delta_Q_bar,
    delta_Q_0_bar := some r.delta_Q_0_bar, E_s_sum := some r.E_s_sum, melt_sum := some r.melt_sum,
    swi_sum := some r.swi_sum, date_time := r.date_time }
/-- Numbers only. -/
def OutRow.ofReal (r : Pysnobal.OutRow) : OutRow :=
  { date_time := r.date_time, R_n := some r.R_n, H := some r.H, L_v_E := some r.L_v_E, G := some r.G, M := some r.M,
    delta_Q := some r.delta_Q, G_0 := some r.G_0, delta_Q_0 := some r.delta_Q_0, cc_s_0 := some r.cc_s_0,
    cc_s_l := some r.cc_s_l, cc_s := some r.cc_s, E_s := some r.E_s, melt := some r.melt, swi := some r.swi,
    z_s_0 := some r.z_s_0, z_s_l := some r.z_s_l, z_s := some r.z_s, rho := some r.rho, m_s_0 := some r.m_s_0,
    m_s_l := some r.m_s_l, m_s := some r.m_s, h2o := some r.h2o, t_s_0 := some r.t_s_0, t_s_l := some r.t_s_l,
    t_s := some r.t_s }

theorem average_s (a b : Pysnobal.Energy) (t dt : ℝ) :
    Energy.average (.ofReal a) (.ofReal b) t dt = (Pysnobal.Energy.average a b t dt).map Energy.ofReal := by
  unfold Energy.average Pysnobal.Energy.average Energy.ofReal
  nnum [time_average_s]
theorem accumulate_s (dt : ℝ) (s : Pysnobal.Snow) (a : Pysnobal.AccT) :
    accumulate dt (.ofReal s) (.ofReal a) = (Pysnobal.accumulate dt s a).map AccT.ofReal := by
  unfold accumulate Pysnobal.accumulate
  have e : (AccT.ofReal a).time_since_out = a.time_since_out := rfl
  rw [e]
  split
  · unfold Acc.time_average Pysnobal.Acc.time_average
    have e1 : (AccT.ofReal a).acc.bar = Energy.ofReal a.acc.bar := rfl
    have e2 : (Snow.ofReal s).en = Energy.ofReal s.en := rfl
    have e3 : (AccT.ofReal a).acc.swi_sum = a.acc.swi_sum.map some := rfl
    rw [e1, e2, average_s, e3]
    cases Pysnobal.Energy.average a.acc.bar s.en a.time_since_out dt with
    | error e => rfl
    | ok b => cases a.acc.swi_sum <;> rfl
  · rfl
theorem snapshot_s (s : Pysnobal.Snow) (a : Pysnobal.Acc) (t : ℤ) :
    snapshot (.ofReal s) (.ofReal a) t = (Pysnobal.snapshot s a t).map OutRec.ofReal := by
  unfold snapshot Pysnobal.snapshot
  have e3 : (Acc.ofReal a).swi_sum = a.swi_sum.map some := rfl
  rw [e3, layer_count_s]
  cases a.swi_sum <;> rfl

theorem snobalSim_s {wet : Bool} (c : Env) (ts : Tsteps) (all : Bool) {dl : Level → NInput} {dl' : Level → InputData}
    (hd : ∀ lv, (dl lv).DeltaReads wet (dl' lv)) :
    SimMap (PhysReads wet) AccT.ofReal OutRec.ofReal (snobalSim c ts all dl) (Pysnobal.snobalSim c ts all dl') where
  intervals := rfl
  timedelta := rfl
  divided := rfl
  reset a := rfl
  below lv p p' h := by simp only [snobalSim, Pysnobal.snobalSim, h.snow, below_thold_s]
  enter lv p p' h := by
    simp only [snobalSim, Pysnobal.snobalSim, h.input.2.2.2.2.2.2.1]
    split
    · exact ⟨h.snow, h.input.update (by rw [h.now]; exact hd lv), h.now, h.ustar, h.factor⟩
    · exact h
  phys lv p p' h := stepPhys_s c _ (hd lv) h
  accum lv p p' a h := by simp only [snobalSim, Pysnobal.snobalSim, h.snow, accumulate_s]
  finish lv p p' h := ⟨h.snow, h.input.add (by rw [h.now]; exact hd lv), h.now, h.ustar, h.factor⟩
  snap p p' a t h := by
    simp only [snobalSim, Pysnobal.snobalSim, h.snow]
    exact snapshot_s _ _ _

/-- Models that agree in everything but the working forcing. -/
def ModelReads (m : Model) (m' : Pysnobal.Model) : Prop :=
  m.phys.snow = Snow.ofReal m'.phys.snow ∧ m.phys.init_ustar = m'.phys.init_ustar.map some ∧
  m.phys.init_factor = m'.phys.init_factor.map some ∧ m.acc = AccT.ofReal m'.acc ∧
  m.current_datetime = m'.current_datetime ∧ m.output_list = m'.output_list.map OutRec.ofReal

theorem do_data_tstep_s (c : Env) (ts : Tsteps) (all : Bool) {d1 d2 : NInput} {i1 i2 : InputData} (h1 : d1.ReadsAs i1)
    (hd : RelE (fun dl dl' => ∀ lv : Level, (dl lv).DeltaReads i1.precip_now (dl' lv)) (inputDeltas ts d1 d2)
      (Pysnobal.inputDeltas ts i1 i2)) {m : Model} {m' : Pysnobal.Model} (hm : ModelReads m m') :
    RelE ModelReads (do_data_tstep c ts all d1 d2 m) (Pysnobal.do_data_tstep c ts all i1 i2 m') := by
  unfold do_data_tstep Pysnobal.do_data_tstep
  refine RelE.bind hd fun dl dl' hdl => ?_
  obtain ⟨k1, k2, k3, k4, k5, k6⟩ := hm
  refine RelE.mono (fun a b h => ?_) ((snobalSim_s c ts all hdl).data
    (a := { m with phys := { m.phys with input1 := d1 } }) (b := { m' with phys := { m'.phys with input1 := i1 } })
    ⟨⟨k1, h1, rfl, k2, k3⟩, k4, k5, k6⟩)
  obtain ⟨⟨q1, _, _, q4, q5⟩, q6, q7, q8⟩ := h
  exact ⟨q1, q4, q5, q6, q7, q8⟩

/-- A relation between records with and without blanks under which the forcing objects and deltas hold the same values
where they are read. -/
structure Faithful (ts : Tsteps) (P : NRec → Rec → Prop) : Prop where
  new : ∀ n r, P n r → RelE (fun d i => d.ReadsAs i) (NInput.new n) (InputData.new r)
  deltas : ∀ n1 r1 n2 r2 d1 i1 d2 i2, P n1 r1 → P n2 r2 → NInput.new n1 = .ok d1 → InputData.new r1 = .ok i1 →
    NInput.new n2 = .ok d2 → InputData.new r2 = .ok i2 →
    RelE (fun dl dl' => ∀ lv : Level, (dl lv).DeltaReads i1.precip_now (dl' lv)) (inputDeltas ts d1 d2)
      (Pysnobal.inputDeltas ts i1 i2)

theorem runSteps_s (c : Env) {ts : Tsteps} (all : Bool) {P : NRec → Rec → Prop} (F : Faithful ts P) {ns : List NRec}
    {rs : List Rec} (h : List.Forall₂ P ns rs) : ∀ (n1 : NRec) (r1 : Rec) (d1 : NInput) (i1 : InputData) (m : Model)
    (m' : Pysnobal.Model), P n1 r1 → NInput.new n1 = .ok d1 → InputData.new r1 = .ok i1 → d1.ReadsAs i1 →
    ModelReads m m' → RelE ModelReads (runSteps c ts all d1 ns m) (Pysnobal.runSteps c ts all i1 rs m') := by
  induction h with
  | nil => exact fun _ _ _ _ _ _ _ _ _ _ hm => hm
  | @cons n r ns rs hnr _ ih =>
    intro n1 r1 d1 i1 m m' hp e1 e1' h1 hm
    unfold runSteps Pysnobal.runSteps
    have hN := F.new n r hnr
    cases e2 : NInput.new n with
    | error e => cases e2' : InputData.new r with
      | error e' => rw [e2, e2'] at hN; exact hN
      | ok i2 => rw [e2, e2'] at hN; exact hN.elim
    | ok d2 => cases e2' : InputData.new r with
      | error e' => rw [e2, e2'] at hN; exact hN.elim
      | ok i2 =>
        rw [e2, e2'] at hN
        simp only [bind_ok]
        exact RelE.bind (do_data_tstep_s c ts all h1 (F.deltas n1 r1 n r d1 i1 d2 i2 hp hnr e1 e1' e2 e2') hm)
          fun a b hab => ih n r d2 i2 a b hnr e2 e2' hN hab

theorem simulate_s (g : Config) {P : NRec → Rec → Prop} (F : ∀ ts, parse_time_steps g = .ok ts → Faithful ts P)
    {ns : List NRec} {rs : List Rec} (h : List.Forall₂ P ns rs) :
    RelE ModelReads (simulate g ns) (Pysnobal.simulate g rs) := by
  cases h with
  | nil => rfl
  | @cons n r ns rs hnr hrs =>
    unfold simulate Pysnobal.simulate
    cases hts : parse_time_steps g with
    | error e => rfl
    | ok ts =>
      simp only [bind_ok]
      have hN := (F ts hts).new n r hnr
      cases e2 : NInput.new n with
      | error e => cases e2' : InputData.new r with
        | error e' => rw [e2, e2'] at hN; exact hN
        | ok i2 => rw [e2, e2'] at hN; exact hN.elim
      | ok d2 => cases e2' : InputData.new r with
        | error e' => rw [e2, e2'] at hN; exact hN.elim
        | ok i2 =>
          rw [e2, e2'] at hN
          simp only [bind_ok]
          cases mkEnv g with
          | error e => rfl
          | ok c =>
            simp only [bind_ok]
            unfold mkModel Pysnobal.mkModel
            rw [init_snow_s]
            cases Pysnobal.init_snow c (recordSnow g) with
            | error e => rfl
            | ok s => exact runSteps_s c _ (F ts hts) hrs n r d2 i2 _ _ hnr e2 e2' hN ⟨rfl, rfl, rfl, rfl, rfl, rfl⟩

theorem outputTable_s (l : List Pysnobal.OutRec) :
    outputTable (l.map OutRec.ofReal) = (Pysnobal.outputTable l).map (List.map OutRow.ofReal) := by
  unfold outputTable Pysnobal.outputTable
  cases l with
  | nil => rfl
  | cons a l =>
    simp only [List.map_cons, Except.map]
    rw [← List.map_cons, ← List.map_mergeSort (r := fun a b : Pysnobal.OutRec => decide (a.date_time ≤ b.date_time))
      (fun a _ b _ => rfl)]
    simp only [List.map_map]
    rfl

theorem run_s (g : Config) {ns : List NRec} {rs : List Rec} (h : RelE ModelReads (simulate g ns) (Pysnobal.simulate g rs))
    (file : Option (List Pysnobal.OutRow)) :
    run g ns (file.map (List.map OutRow.ofReal)) =
      ((Pysnobal.run g rs file).1, (Pysnobal.run g rs file).2.map (List.map OutRow.ofReal)) := by
  unfold run Pysnobal.run
  revert h
  cases simulate g ns <;> cases Pysnobal.simulate g rs <;> intro h
  · simp only [show _ = _ from h]
  · exact h.elim
  · exact h.elim
  · rename_i m m'
    simp only [h.2.2.2.2.2, outputTable_s]
    cases Pysnobal.outputTable m'.output_list <;> rfl

end Nan

end

end Pysnobal
