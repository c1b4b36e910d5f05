import Verif.Props.Clock

/-! # C09, C10: what is reported, and independence of the output mode -/

namespace Pysnobal

noncomputable section

/-! ## Specification: totals and time-weighted means over run steps

A run step is represented by its length in seconds and the snow state it produced. -/

/-- total duration -/
def duration (xs : List (ℝ × Snow)) : ℝ := (xs.map fun x => x.1).sum

/-- total of a quantity over the run steps -/
def total (f : Snow → ℝ) (xs : List (ℝ × Snow)) : ℝ := (xs.map fun x => f x.2).sum

/-- time-weighted mean of a quantity over the run steps -/
def wmean (f : Snow → ℝ) (xs : List (ℝ × Snow)) : ℝ := (xs.map fun x => x.1 * f x.2).sum / duration xs

/-- The record reports the means and totals of these run steps. -/
def Summarises (xs : List (ℝ × Snow)) (r : OutRec) : Prop :=
  r.R_n_bar = wmean (·.en.R_n) xs ∧ r.H_bar = wmean (·.en.H) xs ∧
  r.L_v_E_bar = wmean (·.en.L_v_E) xs ∧ r.G_bar = wmean (·.en.G) xs ∧
  r.G_0_bar = wmean (·.en.G_0) xs ∧ r.M_bar = wmean (·.en.M) xs ∧
  r.delta_Q_bar = wmean (·.en.delta_Q) xs ∧ r.delta_Q_0_bar = wmean (·.en.delta_Q_0) xs ∧
  r.E_s_sum = total (·.E_s) xs ∧ r.melt_sum = total (·.melt) xs ∧ r.swi_sum = total (·.swi) xs

/-! ## The accumulators -/

/-- The accumulators hold the means and totals of the run steps `xs` since the last output. -/
def AccFor (xs : List (ℝ × Snow)) (a : AccT) : Prop :=
  (∀ x ∈ xs, 0 < x.1) ∧ a.time_since_out = duration xs ∧
  (xs ≠ [] → 
    a.acc.bar = { R_n := wmean (·.en.R_n) xs
                  H := wmean (·.en.H) xs
                  L_v_E := wmean (·.en.L_v_E) xs
                  G := wmean (·.en.G) xs
                  G_0 := wmean (·.en.G_0) xs
                  M := wmean (·.en.M) xs
                  delta_Q := wmean (·.en.delta_Q) xs
                  delta_Q_0 := wmean (·.en.delta_Q_0) xs } ∧
    a.acc.E_s_sum = total (·.E_s) xs ∧ a.acc.melt_sum = total (·.melt) xs ∧
    a.acc.swi_sum = some (total (·.swi) xs))

theorem duration_pos {xs : List (ℝ × Snow)} (h : ∀ x ∈ xs, 0 < x.1) (hne : xs ≠ []) :
    0 < duration xs := by
  unfold duration
  refine List.sum_pos _ ?_ (by simpa using hne)
  simp only [List.mem_map]
  rintro _ ⟨x, hx, rfl⟩
  exact h x hx

theorem wmean_snoc (f : Snow → ℝ) (xs : List (ℝ × Snow)) (dt : ℝ) (s : Snow) (hd : duration xs ≠ 0) :
    wmean f (xs ++ [(dt, s)]) = (wmean f xs * duration xs + f s * dt) / (duration xs + dt) := by
  unfold wmean
  rw [div_mul_cancel₀ _ hd]
  simp [duration, mul_comm]

theorem wmean_single (f : Snow → ℝ) (dt : ℝ) (s : Snow) (hd : 0 < dt) : wmean f [(dt, s)] = f s := by
  unfold wmean duration
  simp
  field_simp

theorem accumulate_accFor {xs : List (ℝ × Snow)} {a : AccT} (h : AccFor xs a) {dt : ℝ} (hdt : 0 < dt)
    (s : Snow) : ∃ a', accumulate dt s a = .ok a' ∧ AccFor (xs ++ [(dt, s)]) a' := by
  obtain ⟨h1, h2, h3⟩ := h
  have hp : ∀ x ∈ xs ++ [(dt, s)], 0 < x.1 := by
    intro x hx
    rcases List.mem_append.mp hx with hx | hx
    · exact h1 x hx
    · rw [List.mem_singleton] at hx; rw [hx]; exact hdt
  by_cases hne : xs = []
  · subst hne
    have h0 : a.time_since_out = 0 := by rw [h2]; simp [duration]
    refine ⟨{ acc := Acc.value_to_bar s a.acc, time_since_out := dt }, ?_, hp, by simp [duration], ?_⟩
    · simp [accumulate, h0]
    · intro _
      simp only [List.nil_append, wmean_single _ _ _ hdt, Acc.value_to_bar, total]
      simp
  · have hpos := duration_pos h1 hne
    obtain ⟨e1, e2, e3, e4⟩ := h3 hne
    have hs : duration xs + dt ≠ 0 := by positivity
    unfold accumulate Acc.time_average Energy.average time_average
    rw [h2, if_pos hpos, e4]
    simp only [pdiv_of_ne hs, bind_ok, pure_ok]
    refine ⟨_, rfl, hp, ?_, fun _ => ⟨?_, ?_, ?_, ?_⟩⟩
    · simp [duration]
    · simp only [wmean_snoc _ _ _ _ hpos.ne', e1]
    · simp [e2, total]
    · simp [e3, total]
    · simp [total]

theorem snapshot_accFor {xs : List (ℝ × Snow)} {a : AccT} (h : AccFor xs a) (hne : xs ≠ []) (s : Snow)
    (t : ℤ) : ∃ r, snapshot s a.acc t = .ok r ∧ Summarises xs r ∧ r.date_time = t := by
  obtain ⟨_, _, h3⟩ := h
  obtain ⟨e1, e2, e3, e4⟩ := h3 hne
  unfold snapshot
  rw [e4]
  refine ⟨_, rfl, ?_, rfl⟩
  unfold Summarises
  simp [e1, e2, e3]

theorem accFor_reset {a : AccT} : AccFor [] { a with time_since_out := 0 } :=
  ⟨by simp, by simp [duration], fun h => absurd rfl h⟩

/-! ## C10 -/

/-- Length and resulting snow state of an executed run step. -/
def stepOf (ts : Tsteps) (x : RStep Phys) : ℝ × Snow := ((ts x.lv).time_step, x.post.snow)

theorem runs_acc_normal {c : Env} {ts : Tsteps} (ht : TileOK ts) {dl : Level → InputData}
    {m m' : Model} {l : List (RStep Phys)} (h : (snobalSim c ts false dl).Runs m l m')
    {xs : List (ℝ × Snow)} (ha : AccFor xs m.acc) : AccFor (xs ++ l.map (stepOf ts)) m'.acc := by
  induction h generalizing xs with
  | nil => simpa using ha
  | enter _ ih => exact ih ha
  | @step st st1 st2 l lv p hb hp hd1 h ih =>
    obtain ⟨p', a, hp', hacc, e1, e2, ho⟩ := do_tstep_ok hd1
    rw [hp] at hp'
    cases hp'
    rcases ho with ⟨ho, _⟩ | ⟨_, _, ho⟩
    · cases ho
    · obtain ⟨a', h1, h2⟩ := accumulate_accFor ha (ht.step_pos lv) p.snow
      have h3 : accumulate (ts lv).time_step p.snow st.acc = .ok a := hacc
      rw [h1] at h3
      cases h3
      have := ih (by rw [ho]; exact h2)
      simpa [stepOf] using this

theorem runs_acc_all {c : Env} {ts : Tsteps} (ht : TileOK ts) {dl : Level → InputData}
    {m m' : Model} {l : List (RStep Phys)} (h : (snobalSim c ts true dl).Runs m l m')
    (ha : m.acc.time_since_out = 0) :
    m'.acc.time_since_out = 0 ∧ ∃ rs, m'.output_list = m.output_list ++ rs ∧
      List.Forall₂ (fun x r => Summarises [stepOf ts x] r) l rs := by
  induction h with
  | nil => exact ⟨ha, [], by simp, .nil⟩
  | enter _ ih => exact ih ha
  | @step st st1 st2 l lv p hb hp hd1 h ih =>
    obtain ⟨p', a, hp', hacc, e1, e2, ho⟩ := do_tstep_ok hd1
    rw [hp] at hp'
    cases hp'
    rcases ho with ⟨_, r, hr, ho, hacc'⟩ | ⟨ho, _⟩
    · have ha0 : AccFor [] st.acc := ⟨by simp, by simp [duration, ha], fun h => absurd rfl h⟩
      obtain ⟨a', h1, h2⟩ := accumulate_accFor ha0 (ht.step_pos lv) p.snow
      have h3 : accumulate (ts lv).time_step p.snow st.acc = .ok a := hacc
      rw [h1] at h3
      cases h3
      obtain ⟨r', hr', hs, _⟩ := snapshot_accFor h2 (by simp) p.snow
        (st.current_datetime + (ts lv).timedelta)
      have h4 : snapshot p.snow a.acc (st.current_datetime + (ts lv).timedelta) = .ok r := hr
      rw [hr'] at h4
      cases h4
      obtain ⟨k1, rs, k2, k3⟩ := ih (by rw [hacc']; rfl)
      refine ⟨k1, r :: rs, ?_, .cons ?_ k3⟩
      · rw [k2, ho]; simp
      · simpa [stepOf] using hs
    · cases ho

/-- C10, mode `normal`: the record emitted by a data step reports the time-weighted means of the eight
energy terms and the totals of vapour loss, melt and runoff over exactly the run steps it executed. -/
theorem C10_normal_record_summarises (g : Config) (hg : g.Tiled) (ts : Tsteps)
    (hts : parse_time_steps g = .ok ts) (c : Env) (i1 i2 : InputData) (m m' : Model)
    (h0 : m.acc.time_since_out = 0) (h : do_data_tstep c ts false i1 i2 m = .ok m') :
    ∃ l, Executed c ts false i1 i2 m l m' ∧ l ≠ [] ∧ ∃ r, m'.output_list = m.output_list ++ [r] ∧
      Summarises (l.map (stepOf ts)) r := by
  have ht := parse_tile hg hts
  obtain ⟨l, hex⟩ := do_data_executed h
  have hex' := hex
  obtain ⟨dl, mid, hdl, hr, hl, ho⟩ := hex'.parts
  have hne : l ≠ [] := by
    have := IsDataStep.ne_nil (by simp [ht.n_normal]) (by simpa using ht.m_pos)
      (by simpa using ht.s_pos) hl
    simpa using this
  rcases ho with ⟨h, _⟩ | ⟨_, ho⟩
  · cases h
  have ha := runs_acc_normal ht hr (xs := []) ⟨by simp, by simp [duration, h0], fun h => absurd rfl h⟩
  obtain ⟨r, hr', e⟩ := output_ok ho
  subst e
  obtain ⟨r', k1, k2, _⟩ := snapshot_accFor ha (by simpa using hne) mid.phys.snow mid.current_datetime
  have k3 : snapshot mid.phys.snow mid.acc.acc mid.current_datetime = .ok r := hr'
  rw [k1] at k3
  cases k3
  refine ⟨l, hex, hne, r, ?_, by simpa using k2⟩
  have := hr.output_nil (by rfl)
  simp only [this]

/-- C10, mode `all`: the records emitted by a data step correspond one to one to its run steps and
each reports the values of its own run step. -/
theorem C10_all_records_summarise (g : Config) (hg : g.Tiled) (ts : Tsteps)
    (hts : parse_time_steps g = .ok ts) (c : Env) (i1 i2 : InputData) (m m' : Model)
    (h0 : m.acc.time_since_out = 0) (h : do_data_tstep c ts true i1 i2 m = .ok m') :
    ∃ l, Executed c ts true i1 i2 m l m' ∧ ∃ rs, m'.output_list = m.output_list ++ rs ∧
      List.Forall₂ (fun x r => Summarises [stepOf ts x] r) l rs := by
  have ht := parse_tile hg hts
  obtain ⟨l, hex⟩ := do_data_executed h
  have hex' := hex
  obtain ⟨dl, mid, hdl, hr, hl, ho⟩ := hex'.parts
  rcases ho with ⟨_, rfl⟩ | ⟨h, _⟩
  · exact ⟨l, hex, (runs_acc_all ht hr h0).2⟩
  · cases h

theorem data_time_since_out {c : Env} {ts : Tsteps} (ht : TileOK ts) {all : Bool} {i1 i2 : InputData}
    {m m' : Model} (h0 : m.acc.time_since_out = 0) (h : do_data_tstep c ts all i1 i2 m = .ok m') :
    m'.acc.time_since_out = 0 := by
  obtain ⟨l, hexl⟩ := do_data_executed h
  obtain ⟨dl, mid, hdl, hr, hl, ho⟩ := hexl.parts
  rcases ho with ⟨rfl, rfl⟩ | ⟨rfl, ho⟩
  · exact (runs_acc_all ht hr h0).1
  · obtain ⟨r, _, e⟩ := output_ok ho
    subst e
    rfl

/-- C10: the hypothesis of the two theorems above holds at the end of every simulation (hence, by C12,
at every data step boundary): nothing is pending after a data step. -/
theorem C10_nothing_pending (g : Config) (hg : g.Tiled) (rows : List Rec) (m : Model)
    (h : simulate g rows = .ok m) : m.acc.time_since_out = 0 := by
  cases rows with
  | nil => simp [simulate] at h
  | cons r rs =>
    obtain ⟨ts, i1, c, m0, e1, e2, e3, e4, e5⟩ := simulate_ok h
    exact runSteps_inv (c := c) (ts := ts) (all := g.output_all) (fun _ x => x.acc.time_since_out = 0)
      (fun n x j1 j2 x' hx hs => data_time_since_out (parse_tile hg e1) hx hs) rs i1 0 m0 m
      (mkModel_ok e4).2.2.1 e5

/-- C10: a reported mean lies between the smallest and the largest averaged value. -/
theorem C10_mean_bounds (f : Snow → ℝ) (xs : List (ℝ × Snow)) (hp : ∀ x ∈ xs, 0 < x.1) (hne : xs ≠ [])
    (lo hi : ℝ) (h : ∀ x ∈ xs, lo ≤ f x.2 ∧ f x.2 ≤ hi) : lo ≤ wmean f xs ∧ wmean f xs ≤ hi := by
  have hd := duration_pos hp hne
  unfold wmean
  rw [le_div_iff₀ hd, div_le_iff₀ hd]
  unfold duration
  rw [← List.sum_map_mul_left, ← List.sum_map_mul_left]
  constructor
  · refine List.sum_le_sum fun x hx => ?_
    have := hp x hx
    have := (h x hx).1
    nlinarith
  · refine List.sum_le_sum fun x hx => ?_
    have := hp x hx
    have := (h x hx).2
    nlinarith

/-- non-vacuity: two run steps of different lengths -/
example : wmean (·.en.H) [(60, { Snow.zero with en := { Energy.zero with H := 1 } }),
    (180, { Snow.zero with en := { Energy.zero with H := 5 } })] = 4 := by
  norm_num [wmean, duration]

/-! ## C09 -/

/-- Both calls fail with the same error, or both succeed with related results. -/
def RelE {σ τ : Type} (R : σ → τ → Prop) : Except Err σ → Except Err τ → Prop
  | .error e, .error e' => e = e'
  | .ok a, .ok b => R a b
  | _, _ => False

theorem RelE.bind {σ τ σ' τ' : Type} {R : σ → τ → Prop} {R' : σ' → τ' → Prop} {x : Except Err σ}
    {y : Except Err τ} {f : σ → Except Err σ'} {k : τ → Except Err τ'} (h : RelE R x y)
    (hf : ∀ a b, R a b → RelE R' (f a) (k b)) : RelE R' (x >>= f) (y >>= k) := by
  cases x <;> cases y <;> simp_all [RelE]

theorem iterM_rel {σ τ : Type} {R : σ → τ → Prop} {f : σ → Except Err σ} {k : τ → Except Err τ}
    (h : ∀ a b, R a b → RelE R (f a) (k b)) (n : ℕ) : ∀ a b, R a b → RelE R (iterM f n a) (iterM k n b) := by
  induction n with
  | zero => exact fun a b hab => hab
  | succ n ih => exact fun a b hab => RelE.bind (h a b hab) ih

/-- The two records show the same snow cover at the same time: every column that describes the state of
the snow (not the fluxes and sums of the interval) and the time stamp agree. -/
def SameMoment (r r' : OutRec) : Prop :=
  r.rho = r'.rho ∧ r.t_s_0 = r'.t_s_0 ∧ r.t_s_l = r'.t_s_l ∧ r.t_s = r'.t_s ∧
  r.cc_s_0 = r'.cc_s_0 ∧ r.cc_s_l = r'.cc_s_l ∧ r.cc_s = r'.cc_s ∧ r.m_s = r'.m_s ∧
  r.m_s_0 = r'.m_s_0 ∧ r.m_s_l = r'.m_s_l ∧ r.z_s = r'.z_s ∧ r.z_s_0 = r'.z_s_0 ∧
  r.z_s_l = r'.z_s_l ∧ r.h2o_sat = r'.h2o_sat ∧ r.layer_count = r'.layer_count ∧
  r.h2o = r'.h2o ∧ r.h2o_max = r'.h2o_max ∧ r.h2o_vol = r'.h2o_vol ∧
  r.h2o_total = r'.h2o_total ∧ r.date_time = r'.date_time

theorem sameMoment_of {s : Snow} {a a' : Acc} {t : ℤ} {r r' : OutRec} (h : snapshot s a t = .ok r)
    (h' : snapshot s a' t = .ok r') : SameMoment r r' := by
  unfold snapshot at h h'
  split at h <;> simp only [reduceCtorEq, Except.ok.injEq] at h
  split at h' <;> simp only [reduceCtorEq, Except.ok.injEq] at h'
  subst h h'
  simp [SameMoment]

/-- Simulation relation inside a data step: `a` runs in mode `all`, `b` in mode `normal`; `base` are
`a`'s records before the data step, `bout` are `b`'s. -/
def ModeRel (t0 : ℤ) (base bout : List OutRec) (a b : Model) : Prop :=
  a.phys = b.phys ∧ a.current_datetime = b.current_datetime ∧ a.acc.time_since_out = 0 ∧
  b.output_list = bout ∧
  ∃ xs rs ds, AccFor xs b.acc ∧ a.output_list = base ++ rs ∧
    List.Forall₂ (fun x r => Summarises [x] r) xs rs ∧
    xs.map (·.1) = ds.map (fun d : ℤ => 60 * (d : ℝ)) ∧ rs.map (·.date_time) = stamps t0 ds ∧
    a.current_datetime = t0 + ds.sum ∧
    (rs = [] ∨ ∃ x k, rs.getLast? = some x ∧ snapshot a.phys.snow k a.current_datetime = .ok x)

theorem stamps_snoc (t : ℤ) (ds : List ℤ) (d : ℤ) :
    stamps t (ds ++ [d]) = stamps t ds ++ [t + ds.sum + d] := by
  induction ds generalizing t with
  | nil => simp [stamps]
  | cons e es ih => simp [stamps, ih, add_assoc]

theorem do_tstep_mode {c : Env} {ts : Tsteps} (ht : TileOK ts) (dl : Level → InputData) (lv : Level)
    {t0 : ℤ} {base bout : List OutRec} {a b : Model} (h : ModeRel t0 base bout a b) :
    RelE (ModeRel t0 base bout) ((snobalSim c ts true dl).do_tstep lv a)
      ((snobalSim c ts false dl).do_tstep lv b) := by
  obtain ⟨h1, h2, h3, h4, xs, rs, ds, h5, h6, h7, h8, h9, h10, _⟩ := h
  unfold Sim.do_tstep
  rw [show (snobalSim c ts true dl).phys = (snobalSim c ts false dl).phys from rfl, h1]
  cases hp : (snobalSim c ts false dl).phys lv b.phys with
  | error e => simp [RelE]
  | ok p =>
    have ha0 : AccFor [] a.acc := ⟨by simp, by simp [duration, h3], fun h => absurd rfl h⟩
    obtain ⟨a1, k1, k2⟩ := accumulate_accFor ha0 (ht.step_pos lv) p.snow
    obtain ⟨b1, l1, l2⟩ := accumulate_accFor h5 (ht.step_pos lv) p.snow
    have k1' : (snobalSim c ts true dl).accum lv p a.acc = .ok a1 := k1
    have l1' : (snobalSim c ts false dl).accum lv p b.acc = .ok b1 := l1
    obtain ⟨r, hr, hs, hdt⟩ := snapshot_accFor k2 (by simp) p.snow
      (b.current_datetime + (ts lv).timedelta)
    have hr' : (snobalSim c ts true dl).snap p a1 (b.current_datetime +
      (snobalSim c ts true dl).timedelta lv) = .ok r := hr
    simp only [bind_ok, k1', l1', show (snobalSim c ts true dl).output_divided = true from rfl,
      show (snobalSim c ts false dl).output_divided = false from rfl, if_true, Sim.output, h2, hr']
    refine ⟨rfl, rfl, rfl, h4, xs ++ [((ts lv).time_step, p.snow)], rs ++ [r],
      ds ++ [(ts lv).timedelta], l2, ?_, ?_, ?_, ?_, ?_,
      .inr ⟨r, a1.acc, by simp, hr⟩⟩
    · simp [h6]
    · exact List.rel_append h7 (.cons (by simpa using hs) .nil)
    · simp only [List.map_append, h8, List.map_cons, List.map_nil, ht.step_eq]
      push_cast
      rfl
    · rw [List.map_append, h9, stamps_snoc, ← h10, h2]
      simp [hdt]
    · show b.current_datetime + (ts lv).timedelta = _
      rw [← h2, h10]
      simp [add_assoc]

theorem normalBlock_mode {c : Env} {ts : Tsteps} (ht : TileOK ts) (dl : Level → InputData)
    {t0 : ℤ} {base bout : List OutRec} {a b : Model} (h : ModeRel t0 base bout a b) :
    RelE (ModeRel t0 base bout) ((snobalSim c ts true dl).normalBlock a)
      ((snobalSim c ts false dl).normalBlock b) := by
  have hsb : ∀ a b, ModeRel t0 base bout a b → RelE (ModeRel t0 base bout)
      ((snobalSim c ts true dl).smallBlock a) ((snobalSim c ts false dl).smallBlock b) := by
    intro a b h
    unfold Sim.smallBlock
    refine iterM_rel (fun a b h => do_tstep_mode ht dl .small h) _ _ _ ?_
    obtain ⟨h1, h2, h3, h4, xs, rs, ds, h5, h6, h7, h8, h9, h10, h11⟩ := h
    refine ⟨by simp only [h1]; rfl, h2, h3, h4, xs, rs, ds, h5, h6, h7, h8, h9, h10, ?_⟩
    refine h11.imp id ?_
    rintro ⟨x, k, e1, e2⟩
    refine ⟨x, k, e1, ?_⟩
    show snapshot (if a.phys.input1.precip_now then _ else _ : Phys).snow k _ = _
    split <;> exact e2
  have hmb : ∀ a b, ModeRel t0 base bout a b → RelE (ModeRel t0 base bout)
      ((snobalSim c ts true dl).mediumBlock a) ((snobalSim c ts false dl).mediumBlock b) := by
    unfold Sim.mediumBlock
    refine iterM_rel (fun a b h => ?_) _
    rw [show (snobalSim c ts true dl).below = (snobalSim c ts false dl).below from rfl, h.1]
    split
    · exact hsb a b h
    · exact do_tstep_mode ht dl _ h
  unfold Sim.normalBlock
  refine iterM_rel (fun a b h => ?_) _ _ _ h
  rw [show (snobalSim c ts true dl).below = (snobalSim c ts false dl).below from rfl, h.1]
  split
  · exact hmb a b h
  · exact do_tstep_mode ht dl _ h

/-- The normal-mode record reports the time-weighted means of the flux columns and the totals of the
mass columns of these all-mode records (with the lengths `ds` of their run steps). -/
def RecSummarises (ds : List ℝ) (rs : List OutRec) (r : OutRec) : Prop :=
  let mean (f : OutRec → ℝ) := (List.zipWith (fun d x => d * f x) ds rs).sum / ds.sum
  let tot (f : OutRec → ℝ) := (rs.map f).sum
  r.R_n_bar = mean (·.R_n_bar) ∧ r.H_bar = mean (·.H_bar) ∧ r.L_v_E_bar = mean (·.L_v_E_bar) ∧
  r.G_bar = mean (·.G_bar) ∧ r.G_0_bar = mean (·.G_0_bar) ∧ r.M_bar = mean (·.M_bar) ∧
  r.delta_Q_bar = mean (·.delta_Q_bar) ∧ r.delta_Q_0_bar = mean (·.delta_Q_0_bar) ∧
  r.E_s_sum = tot (·.E_s_sum) ∧ r.melt_sum = tot (·.melt_sum) ∧ r.swi_sum = tot (·.swi_sum)

theorem forall2_mean {xs : List (ℝ × Snow)} {rs : List OutRec} (hp : ∀ x ∈ xs, 0 < x.1)
    (h : List.Forall₂ (fun x r => Summarises [x] r) xs rs) (f : Snow → ℝ) (k : OutRec → ℝ)
    (hk : ∀ x r, Summarises [x] r → 0 < x.1 → k r = f x.2) :
    (xs.map fun x => x.1 * f x.2) = List.zipWith (fun d x => d * k x) (xs.map (·.1)) rs ∧
    (xs.map fun x => f x.2) = rs.map k := by
  induction h with
  | nil => simp
  | @cons x r xs rs h1 h2 ih =>
    obtain ⟨i1, i2⟩ := ih (fun y hy => hp y (by simp [hy]))
    have := hk x r h1 (hp x (by simp))
    simp [i1, i2, this]

theorem recSummarises_of {xs : List (ℝ × Snow)} {rs : List OutRec} {r : OutRec}
    (hp : ∀ x ∈ xs, 0 < x.1) (h : List.Forall₂ (fun x r => Summarises [x] r) xs rs)
    (hs : Summarises xs r) : RecSummarises (xs.map (·.1)) rs r := by
  have w : ∀ (f : Snow → ℝ) (x : ℝ × Snow), 0 < x.1 → wmean f [x] = f x.2 := fun f x hx =>
    wmean_single f x.1 x.2 hx
  have t : ∀ (f : Snow → ℝ) (x : ℝ × Snow), total f [x] = f x.2 := fun f x => by simp [total]
  have M : ∀ (f : Snow → ℝ) (k : OutRec → ℝ), (∀ x r, Summarises [x] r → 0 < x.1 → k r = f x.2) →
      wmean f xs = (List.zipWith (fun d x => d * k x) (xs.map (·.1)) rs).sum / (xs.map (·.1)).sum := by
    intro f k hk
    unfold wmean duration
    rw [(forall2_mean hp h f k hk).1]
  have T : ∀ (f : Snow → ℝ) (k : OutRec → ℝ), (∀ x r, Summarises [x] r → 0 < x.1 → k r = f x.2) →
      total f xs = (rs.map k).sum := by
    intro f k hk
    unfold total
    rw [(forall2_mean hp h f k hk).2]
  obtain ⟨s1, s2, s3, s4, s5, s6, s7, s8, s9, s10, s11⟩ := hs
  unfold RecSummarises
  refine ⟨?_, ?_, ?_, ?_, ?_, ?_, ?_, ?_, ?_, ?_, ?_⟩
  · rw [s1]; exact M (·.en.R_n) (·.R_n_bar) fun x r hx h0 => by
      rw [← w (·.en.R_n) x h0]; exact hx.1
  · rw [s2]; exact M (·.en.H) (·.H_bar) fun x r hx h0 => by
      rw [← w (·.en.H) x h0]; exact hx.2.1
  · rw [s3]; exact M (·.en.L_v_E) (·.L_v_E_bar) fun x r hx h0 => by
      rw [← w (·.en.L_v_E) x h0]; exact hx.2.2.1
  · rw [s4]; exact M (·.en.G) (·.G_bar) fun x r hx h0 => by
      rw [← w (·.en.G) x h0]; exact hx.2.2.2.1
  · rw [s5]; exact M (·.en.G_0) (·.G_0_bar) fun x r hx h0 => by
      rw [← w (·.en.G_0) x h0]; exact hx.2.2.2.2.1
  · rw [s6]; exact M (·.en.M) (·.M_bar) fun x r hx h0 => by
      rw [← w (·.en.M) x h0]; exact hx.2.2.2.2.2.1
  · rw [s7]; exact M (·.en.delta_Q) (·.delta_Q_bar) fun x r hx h0 => by
      rw [← w (·.en.delta_Q) x h0]; exact hx.2.2.2.2.2.2.1
  · rw [s8]; exact M (·.en.delta_Q_0) (·.delta_Q_0_bar) fun x r hx h0 => by
      rw [← w (·.en.delta_Q_0) x h0]; exact hx.2.2.2.2.2.2.2.1
  · rw [s9]; exact T (·.E_s) (·.E_s_sum) fun x r hx h0 => by rw [← t (·.E_s) x]; exact hx.2.2.2.2.2.2.2.2.1
  · rw [s10]; exact T (·.melt) (·.melt_sum) fun x r hx h0 => by rw [← t (·.melt) x]; exact hx.2.2.2.2.2.2.2.2.2.1
  · rw [s11]; exact T (·.swi) (·.swi_sum) fun x r hx h0 => by rw [← t (·.swi) x]; exact hx.2.2.2.2.2.2.2.2.2.2

/-- Two objects in the same state except for their output lists. -/
def SameState (a b : Model) : Prop :=
  a.phys = b.phys ∧ a.current_datetime = b.current_datetime ∧ a.acc.time_since_out = 0 ∧
    b.acc.time_since_out = 0

/-- C09, one data step: from the same state, mode `all` and mode `normal` either both raise the same
exception or both end in the same state, and the one record of mode `normal` reports the weighted means
and the totals of the records of mode `all`, and the same snow cover at the same time as the last of
them. -/
theorem C09_modes_agree_data_step (g : Config) (hg : g.Tiled) (ts : Tsteps)
    (hts : parse_time_steps g = .ok ts) (c : Env) (i1 i2 : InputData) (a b : Model)
    (h : SameState a b) :
    RelE (fun a' b' => SameState a' b' ∧ ∃ ds rs r, a'.output_list = a.output_list ++ rs ∧
        b'.output_list = b.output_list ++ [r] ∧ rs.map (·.date_time) = stamps a.current_datetime ds ∧
        a'.current_datetime = a.current_datetime + ds.sum ∧
        RecSummarises (ds.map fun d : ℤ => 60 * (d : ℝ)) rs r ∧
        ∃ x, rs.getLast? = some x ∧ SameMoment x r)
      (do_data_tstep c ts true i1 i2 a) (do_data_tstep c ts false i1 i2 b) := by
  have ht := parse_tile hg hts
  obtain ⟨h1, h2, h3, h4⟩ := h
  cases hA : do_data_tstep c ts true i1 i2 a with
  | error e =>
    unfold do_data_tstep at hA ⊢
    cases hd : inputDeltas ts i1 i2 with
    | error e' => simpa [hd, RelE, eq_comm] using hA
    | ok dl =>
      simp only [hd, bind_ok, data_tstep_eq] at hA ⊢
      have hrel : ModeRel a.current_datetime a.output_list b.output_list
          { a with phys := { a.phys with input1 := i1 } }
          { b with phys := { b.phys with input1 := i1 } } :=
        ⟨by simp only [h1], h2, h3, rfl, [], [], [],
          ⟨by simp, by simp [duration, h4], fun h => absurd rfl h⟩, by simp, .nil, by simp,
          by simp [stamps], by simp, .inl rfl⟩
      have := normalBlock_mode (c := c) ht dl hrel
      cases hn : (snobalSim c ts true dl).normalBlock { a with phys := { a.phys with input1 := i1 } } with
      | error e2 =>
        cases hn2 : (snobalSim c ts false dl).normalBlock { b with phys := { b.phys with input1 := i1 } } with
        | error e3 =>
          rw [hn, hn2] at this
          rw [hn] at hA
          simp only [bind_error, Except.error.injEq] at hA
          simp only [bind_error, RelE]
          rw [← hA]; exact this
        | ok b' => rw [hn, hn2] at this; exact this.elim
      | ok a' =>
        rw [hn] at hA
        simp [snobalSim] at hA
  | ok a' =>
    have hex := do_data_executed hA
    unfold do_data_tstep at hA ⊢
    cases hd : inputDeltas ts i1 i2 with
    | error e' => simp [hd] at hA
    | ok dl =>
      simp only [hd, bind_ok, data_tstep_eq] at hA ⊢
      have hrel : ModeRel a.current_datetime a.output_list b.output_list
          { a with phys := { a.phys with input1 := i1 } }
          { b with phys := { b.phys with input1 := i1 } } :=
        ⟨by simp only [h1], h2, h3, rfl, [], [], [],
          ⟨by simp, by simp [duration, h4], fun h => absurd rfl h⟩, by simp, .nil, by simp,
          by simp [stamps], by simp, .inl rfl⟩
      have := normalBlock_mode (c := c) ht dl hrel
      cases hn : (snobalSim c ts true dl).normalBlock { a with phys := { a.phys with input1 := i1 } } with
      | error e2 => rw [hn] at hA; simp at hA
      | ok am =>
        cases hn2 : (snobalSim c ts false dl).normalBlock { b with phys := { b.phys with input1 := i1 } } with
        | error e3 => rw [hn, hn2] at this; exact this.elim
        | ok bm =>
          rw [hn, hn2] at this
          obtain ⟨k1, k2, k3, k4, xs, rs, ds, k5, k6, k7, k8, k9, k10, k11⟩ := this
          rw [hn] at hA
          have hA' : am = a' := by simpa [snobalSim] using hA
          subst hA'
          have hxs : xs ≠ [] := by
            obtain ⟨l, hexl⟩ := hex
            obtain ⟨dl', mid, _, hr, hl, ho⟩ := hexl.parts
            have hne := IsDataStep.ne_nil (by simp [ht.n_normal]) (by simpa using ht.m_pos)
              (by simpa using ht.s_pos) hl
            rcases ho with ⟨_, rfl⟩ | ⟨h, _⟩
            swap
            · cases h
            obtain ⟨_, rs', e, hf⟩ := runs_acc_all ht hr h3
            have e' : rs = rs' := by
              rw [k6] at e
              exact List.append_cancel_left e
            subst e'
            have l1 := k7.length_eq
            have l2 := hf.length_eq
            intro h0
            rw [h0] at l1
            simp at hne
            have : l.length = 0 := by rw [l2, ← l1]; rfl
            exact hne (List.length_eq_zero_iff.mp this)
          obtain ⟨r, hr, hs, _⟩ := snapshot_accFor k5 hxs bm.phys.snow bm.current_datetime
          have hout : (snobalSim c ts false dl).output bm = .ok
              { bm with output_list := bm.output_list ++ [r]
                        acc := { bm.acc with time_since_out := 0 } } := by
            unfold Sim.output
            rw [show (snobalSim c ts false dl).snap bm.phys bm.acc bm.current_datetime = .ok r from hr]
            rfl
          simp only [bind_ok, show (snobalSim c ts false dl).output_divided = false from rfl, if_true,
            hout]
          have hlast : ∃ x, rs.getLast? = some x ∧ SameMoment x r := by
            rcases k11 with h0 | ⟨x, k, e1, e2⟩
            · rw [h0] at k7
              exact absurd (List.forall₂_nil_right_iff.mp k7) hxs
            · rw [k1, k2] at e2
              exact ⟨x, e1, sameMoment_of e2 hr⟩
          refine ⟨⟨k1, k2, k3, rfl⟩, ds, rs, r, k6, ?_, k9, k10, ?_, hlast⟩
          · simp [k4]
          · rw [← k8]; exact recSummarises_of k5.1 k7 hs

theorem stamps_append (t : ℤ) (ds es : List ℤ) :
    stamps t (ds ++ es) = stamps t ds ++ stamps (t + ds.sum) es := by
  induction ds generalizing t with
  | nil => simp [stamps]
  | cons d ds ih => simp [stamps, ih, add_assoc]

theorem stamps_length (t : ℤ) (ds : List ℤ) : (stamps t ds).length = ds.length := by
  induction ds generalizing t with
  | nil => rfl
  | cons d ds ih => simp [stamps, ih]


/-- The record `r` of mode `normal` is the summary of a block of records of mode `all`: `b` lists the
lengths in minutes of the run steps of one input interval and the records mode `all` writes after them. -/
def Block (b : List ℤ × List OutRec) (r : OutRec) : Prop :=
  b.1.length = b.2.length ∧ RecSummarises (b.1.map fun d : ℤ => 60 * (d : ℝ)) b.2 r ∧
    ∃ x, b.2.getLast? = some x ∧ SameMoment x r

/-- C09, whole runs: the same inputs in the two modes either both fail with the same exception or both
succeed with the same snow state, forcing and clock; the records of mode `all` then split into
consecutive blocks, one for each record of mode `normal`, which reports the weighted means and the totals
of its block and shows the same snow cover at the same time as the last record of its block. -/
theorem C09_run_records (g : Config) (hg : g.Tiled) (rows : List Rec) :
    RelE (fun a b => a.phys = b.phys ∧ a.current_datetime = b.current_datetime ∧
        ∃ blocks : List (List ℤ × List OutRec), a.output_list = (blocks.map (·.2)).flatten ∧
          a.output_list.map (·.date_time) = stamps g.start_date (blocks.map (·.1)).flatten ∧
          List.Forall₂ Block blocks b.output_list)
      (simulate { g with output_all := true } rows) (simulate { g with output_all := false } rows) := by
  cases rows with
  | nil => simp [simulate, RelE]
  | cons r rs =>
    unfold simulate
    simp only
    rw [show parse_time_steps { g with output_all := true } = parse_time_steps g from rfl,
      show parse_time_steps { g with output_all := false } = parse_time_steps g from rfl]
    cases hts : parse_time_steps g with
    | error e => simp [RelE]
    | ok ts =>
      simp only [bind_ok]
      cases InputData.new r with
      | error e => simp [RelE]
      | ok i1 =>
        simp only [bind_ok]
        rw [show mkEnv { g with output_all := true } = mkEnv g from rfl,
          show mkEnv { g with output_all := false } = mkEnv g from rfl]
        cases mkEnv g with
        | error e => simp [RelE]
        | ok c =>
          simp only [bind_ok]
          rw [show mkModel { g with output_all := true } c i1 = mkModel g c i1 from rfl,
            show mkModel { g with output_all := false } c i1 = mkModel g c i1 from rfl]
          cases hm : mkModel g c i1 with
          | error e => simp [RelE]
          | ok m0 =>
            simp only [bind_ok]
            obtain ⟨t0, o0, p0, _⟩ := mkModel_ok hm
            let P : Model → Model → Prop := fun a b => SameState a b ∧
              ∃ blocks : List (List ℤ × List OutRec), a.output_list = (blocks.map (·.2)).flatten ∧
                a.output_list.map (·.date_time) = stamps g.start_date (blocks.map (·.1)).flatten ∧
                a.current_datetime = g.start_date + (blocks.map (·.1)).flatten.sum ∧
                List.Forall₂ Block blocks b.output_list
            have key : ∀ (rs : List Rec) (i1 : InputData) (a b : Model), P a b →
                RelE P (runSteps c ts true i1 rs a) (runSteps c ts false i1 rs b) := by
              intro rs
              induction rs with
              | nil => exact fun i1 a b h => h
              | cons r rs ih =>
                intro i1 a b h
                unfold runSteps
                cases InputData.new r with
                | error e => simp [RelE]
                | ok i2 =>
                  simp only [bind_ok]
                  refine RelE.bind (C09_modes_agree_data_step g hg ts hts c i1 i2 a b h.1)
                    fun a' b' h' => ih i2 a' b' ?_
                  obtain ⟨_, bl, q1, q2, q3, q4⟩ := h
                  obtain ⟨w, ds, ro, x, w1, w2, w3, w7, w4, last, w5, w6⟩ := h'
                  have hlen : ds.length = ro.length := by
                    have := congrArg List.length w3
                    rw [stamps_length] at this
                    simpa using this.symm
                  have hdt : a'.output_list.map (·.date_time) =
                      stamps g.start_date ((bl ++ [(ds, ro)]).map (·.1)).flatten := by
                    rw [w1, List.map_append, q2, w3, q3, List.map_append, List.flatten_append,
                      stamps_append]
                    simp
                  refine ⟨w, bl ++ [(ds, ro)], by simp [w1, q1], hdt, ?_, ?_⟩
                  · have hc : a'.current_datetime = a.current_datetime + ds.sum := w7
                    rw [hc, q3]
                    simp [add_assoc]
                  · rw [w2]
                    exact List.rel_append q4 (.cons ⟨hlen, w4, last, w5, w6⟩ .nil)
            have := key rs i1 m0 m0 ⟨⟨rfl, rfl, p0, p0⟩, [], by simp [o0], by simp [o0, stamps],
              by simp [t0], by rw [o0]; exact .nil⟩
            revert this
            cases runSteps c ts true i1 rs m0 <;> cases runSteps c ts false i1 rs m0 <;> simp only [RelE]
            · exact id
            · exact id
            · exact id
            · rintro ⟨h, bl, q1, q2, q3, q4⟩
              exact ⟨h.1, h.2.1, bl, q1, q2, q4⟩

/-- C09, whole runs: the same inputs in the two modes either both fail with the same exception or both
succeed with the same snow state, forcing and clock. -/
theorem C09_modes_agree (g : Config) (hg : g.Tiled) (rows : List Rec) :
    RelE (fun a b => a.phys = b.phys ∧ a.current_datetime = b.current_datetime)
      (simulate { g with output_all := true } rows) (simulate { g with output_all := false } rows) := by
  have := C09_run_records g hg rows
  revert this
  cases simulate { g with output_all := true } rows <;>
    cases simulate { g with output_all := false } rows <;> simp only [RelE]
  · exact id
  · exact id
  · exact id
  · exact fun h => ⟨h.1, h.2.1⟩

end

end Pysnobal
