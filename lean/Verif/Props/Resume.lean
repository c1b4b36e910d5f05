import Verif.Lemmas.Memory
import Verif.Lemmas.Records
import Verif.Props.Start
import Verif.Props.Thermal
import Verif.Props.Mass
import Verif.Props.Clock
import Verif.Props.NonNeg

/-! # C84: resuming a run from its last record -/

namespace Pysnobal

noncomputable section

/-! ## Specification -/

/-- Two `Snobal` objects have the same future: whatever records follow, both raise the same exception, or both
append the same records to their output. -/
def Model.SameFuture (c : Env) (ts : Tsteps) (all : Bool) (m m' : Model) : Prop :=
  ∀ (i : InputData) (rs : List Rec),
    (∀ e, runSteps c ts all i rs m = .error e ↔ runSteps c ts all i rs m' = .error e) ∧
    ∀ out : List OutRec,
      (∃ a, runSteps c ts all i rs m = .ok a ∧ a.output_list = m.output_list ++ out) ↔
      ∃ b, runSteps c ts all i rs m' = .ok b ∧ b.output_list = m'.output_list ++ out

/-- The configuration of a run that starts from the snow the record `r` shows, at the time of the record (the
records of the object carry temperatures in kelvin, as `Snobal` expects them). -/
def Config.resume (g : Config) (r : OutRec) : Config :=
  { g with start_date := r.date_time, init_z_s := r.z_s, init_rho := r.rho, init_t_s_0 := r.t_s_0, init_t_s := r.t_s, init_t_s_l := some r.t_s_l, init_h2o_sat := r.h2o_sat }

/-- The record shows a pack that `Snobal` can be started with: heavier than the smallest threshold, split into
layers as a starting pack of its depth and density is (runoff makes a pack lighter without splitting it anew), and
its density is not that of ice with its pores full of water; or bare ground without left-over water. -/
structure OutRec.Resumable (g : Config) (r : OutRec) : Prop where
  bare : r.layer_count = 0 → r.z_s = 0 ∧ r.h2o = 0
  heavy : 0 < r.layer_count → g.small_threshold < r.m_s
  split : 0 < r.layer_count →
    (r.layer_count = 2 ↔ g.max_active < r.z_s ∧ g.small_threshold ≤ r.rho * (r.z_s - g.max_active))
  water : 0 < r.layer_count → g.max_h2o * r.h2o_sat ≠ RHO_ICE / RHO_W0

/-- The snow `s` is the one the record `r` shows, except perhaps for the cold contents. -/
structure Snow.Restored (s : Snow) (r : OutRec) : Prop where
  layers : s.layer_count = r.layer_count
  z_s : s.z_s = r.z_s
  z_s_0 : s.z_s_0 = r.z_s_0
  z_s_l : s.z_s_l = r.z_s_l
  rho : s.rho = r.rho
  m_s : s.m_s = r.m_s
  m_s_0 : s.m_s_0 = r.m_s_0
  m_s_l : s.m_s_l = r.m_s_l
  t_s : s.t_s = r.t_s
  t_s_0 : s.t_s_0 = r.t_s_0
  t_s_l : s.t_s_l = r.t_s_l
  h2o_sat : s.h2o_sat = r.h2o_sat
  h2o : s.h2o = r.h2o
  h2o_max : s.h2o_max = r.h2o_max
  h2o_vol : s.h2o_vol = r.h2o_vol

/-! ## What a run step reads -/

/-- Objects that agree in what the next run step reads. -/
structure Loose (P P' : List OutRec) (a b : Model) : Prop where
  pack : a.phys.snow.SamePack b.phys.snow
  input : a.phys.input1 = b.phys.input1
  ustar : a.phys.init_ustar = b.phys.init_ustar
  factor : a.phys.init_factor = b.phys.init_factor
  acc : a.acc = b.acc ∨ a.acc.time_since_out = 0 ∧ b.acc.time_since_out = 0
  clock : a.current_datetime = b.current_datetime
  out : ∃ o, a.output_list = P ++ o ∧ b.output_list = P' ++ o

/-- Objects that agree in everything but the records before a certain point. -/
structure Tight (P P' : List OutRec) (a b : Model) : Prop where
  phys : a.phys = b.phys
  acc : a.acc = b.acc
  clock : a.current_datetime = b.current_datetime
  out : ∃ o, a.output_list = P ++ o ∧ b.output_list = P' ++ o

theorem Snow.SamePack.refl (s : Snow) : s.SamePack s :=
  ⟨rfl, rfl, rfl, rfl, rfl, rfl, rfl, rfl, rfl, rfl, rfl, rfl, rfl, rfl, rfl, rfl⟩

theorem Tight.loose {P P' : List OutRec} {a b : Model} (h : Tight P P' a b) : Loose P P' a b :=
  ⟨by rw [h.phys]; exact .refl _, by rw [h.phys], by rw [h.phys], by rw [h.phys], .inl h.acc, h.clock, h.out⟩

variable {c : Env} {ts : Tsteps} {all : Bool} {dl : Level → InputData} {P P' : List OutRec}

theorem output_tight {a b : Model} (h : Tight P P' a b) :
    RelE (Tight P P') ((snobalSim c ts all dl).output a) ((snobalSim c ts all dl).output b) := by
  obtain ⟨h1, h2, h3, o, h4, h5⟩ := h
  unfold Sim.output
  rw [h1, h2, h3]
  cases (snobalSim c ts all dl).snap b.phys b.acc b.current_datetime with
  | error e => rfl
  | ok r => exact ⟨rfl, rfl, rfl, o ++ [r], by simp [h4], by simp [h5]⟩

theorem accumulate_loose {dt : ℝ} {s : Snow} {a b : AccT} (h : a = b ∨ a.time_since_out = 0 ∧ b.time_since_out = 0) :
    accumulate dt s a = accumulate dt s b := by
  rcases h with rfl | ⟨h1, h2⟩
  · rfl
  · unfold accumulate
    rw [h1, h2, if_neg (lt_irrefl _), if_neg (lt_irrefl _)]
    rfl

theorem do_tstep_loose (lv : Level) {a b : Model} (h : Loose P P' a b) :
    RelE (Tight P P') ((snobalSim c ts all dl).do_tstep lv a) ((snobalSim c ts all dl).do_tstep lv b) := by
  unfold Sim.do_tstep
  have e : (snobalSim c ts all dl).phys lv a.phys = (snobalSim c ts all dl).phys lv b.phys :=
    stepPhys_same h.pack h.input h.ustar h.factor
  rw [e]
  cases (snobalSim c ts all dl).phys lv b.phys with
  | error e => rfl
  | ok p =>
    simp only [bind_ok]
    have e : (snobalSim c ts all dl).accum lv p a.acc = (snobalSim c ts all dl).accum lv p b.acc := accumulate_loose h.acc
    rw [e]
    cases (snobalSim c ts all dl).accum lv p b.acc with
    | error e => rfl
    | ok x =>
      simp only [bind_ok]
      have ht : Tight P P' { a with phys := p, acc := x, current_datetime := a.current_datetime + (snobalSim c ts all dl).timedelta lv }
          { b with phys := p, acc := x, current_datetime := b.current_datetime + (snobalSim c ts all dl).timedelta lv } :=
        ⟨rfl, rfl, by rw [h.clock], h.out⟩
      have hfin : ∀ (s s' : Model), Tight P P' s s' → RelE (Tight P P')
          (pure { s with phys := (snobalSim c ts all dl).finish lv s.phys } : Except Err _)
          (pure { s' with phys := (snobalSim c ts all dl).finish lv s'.phys }) := fun s s' q =>
        ⟨by simp only [q.phys], q.acc, q.clock, q.out⟩
      split
      · exact RelE.bind (output_tight ht) hfin
      · exact hfin _ _ ht

theorem iterM_tight {f : Model → Except Err Model} (hf : ∀ a b, Loose P P' a b → RelE (Tight P P') (f a) (f b)) :
    ∀ (n : ℕ), 0 < n → ∀ a b, Loose P P' a b → RelE (Tight P P') (iterM f n a) (iterM f n b) := by
  intro n
  induction n with
  | zero => exact fun h => absurd h (lt_irrefl _)
  | succ n ih =>
    intro _ a b h
    refine RelE.bind (hf a b h) fun a' b' h' => ?_
    cases n with
    | zero => exact h'
    | succ n => exact ih (Nat.succ_pos _) a' b' h'.loose

theorem below_same {t : ℝ} {a b : Snow} (h : a.SamePack b) : below_thold t a = below_thold t b := by
  unfold below_thold Snow.layer_count
  rw [h.z_s_0, h.z_s_l, h.m_s, h.m_s_0, h.m_s_l]

theorem smallBlock_loose (hs : 0 < (ts .small).intervals) {a b : Model} (h : Loose P P' a b) :
    RelE (Tight P P') ((snobalSim c ts all dl).smallBlock a) ((snobalSim c ts all dl).smallBlock b) := by
  unfold Sim.smallBlock
  refine iterM_tight (fun a b => do_tstep_loose .small) _ ?_ _ _ ?_
  · show 0 < ((ts .small).intervals).toNat
    omega
  · have e : ∀ p : Phys, (snobalSim c ts all dl).enter .small p =
        if p.input1.precip_now then { p with input1 := p.input1.update_precip_deltas (dl .small) } else p := fun p => rfl
    have e1 : ∀ p : Phys, ((snobalSim c ts all dl).enter .small p).snow = p.snow ∧
        ((snobalSim c ts all dl).enter .small p).init_ustar = p.init_ustar ∧
        ((snobalSim c ts all dl).enter .small p).init_factor = p.init_factor ∧
        ((snobalSim c ts all dl).enter .small p).input1 =
          if p.input1.precip_now then p.input1.update_precip_deltas (dl .small) else p.input1 := by
      intro p
      rw [e]
      split <;> exact ⟨rfl, rfl, rfl, rfl⟩
    obtain ⟨a1, a2, a3, a4⟩ := e1 a.phys
    obtain ⟨b1, b2, b3, b4⟩ := e1 b.phys
    exact ⟨by simp only [a1, b1]; exact h.pack, by simp only [a4, b4, h.input], by simp only [a2, b2, h.ustar],
      by simp only [a3, b3, h.factor], h.acc, h.clock, h.out⟩

theorem mediumBlock_loose (hm : 0 < (ts .medium).intervals) (hs : 0 < (ts .small).intervals) {a b : Model}
    (h : Loose P P' a b) :
    RelE (Tight P P') ((snobalSim c ts all dl).mediumBlock a) ((snobalSim c ts all dl).mediumBlock b) := by
  unfold Sim.mediumBlock
  refine iterM_tight (fun a b h => ?_) _ ?_ _ _ h
  · have e : (snobalSim c ts all dl).below .medium a.phys = (snobalSim c ts all dl).below .medium b.phys :=
      below_same h.pack
    rw [e]
    split
    · exact smallBlock_loose hs h
    · exact do_tstep_loose .medium h
  · show 0 < ((ts .medium).intervals).toNat
    omega

theorem data_loose (ht : TileOK ts) {a b : Model} (h : Loose P P' a b) :
    RelE (Tight P P') ((snobalSim c ts all dl).data_tstep a) ((snobalSim c ts all dl).data_tstep b) := by
  rw [data_tstep_eq, data_tstep_eq]
  refine RelE.bind (R := Tight P P') ?_ fun a' b' h' => ?_
  · unfold Sim.normalBlock
    refine iterM_tight (fun a b h => ?_) _ ?_ _ _ h
    · have e : (snobalSim c ts all dl).below .normal a.phys = (snobalSim c ts all dl).below .normal b.phys :=
        below_same h.pack
      rw [e]
      split
      · exact mediumBlock_loose ht.m_pos ht.s_pos h
      · exact do_tstep_loose .normal h
    · show 0 < ((ts .normal).intervals).toNat
      rw [ht.n_normal]
      decide
  · split
    · exact output_tight h'
    · exact h'

/-- Objects that agree in the pack, the first guesses and the clock, between data steps. -/
structure Between (P P' : List OutRec) (a b : Model) : Prop where
  pack : a.phys.snow.SamePack b.phys.snow
  ustar : a.phys.init_ustar = b.phys.init_ustar
  factor : a.phys.init_factor = b.phys.init_factor
  acc : a.acc = b.acc ∨ a.acc.time_since_out = 0 ∧ b.acc.time_since_out = 0
  clock : a.current_datetime = b.current_datetime
  out : ∃ o, a.output_list = P ++ o ∧ b.output_list = P' ++ o

theorem runSteps_between (ht : TileOK ts) : ∀ (rs : List Rec) (i : InputData) (a b : Model), Between P P' a b →
    RelE (Between P P') (runSteps c ts all i rs a) (runSteps c ts all i rs b) := by
  intro rs
  induction rs with
  | nil => exact fun i a b h => h
  | cons r rs ih =>
    intro i a b h
    unfold runSteps
    cases InputData.new r with
    | error e => rfl
    | ok i2 =>
      simp only [bind_ok]
      refine RelE.bind (R := Between P P') ?_ fun a' b' h' => ih i2 a' b' h'
      unfold do_data_tstep
      cases inputDeltas ts i i2 with
      | error e => rfl
      | ok dl =>
        simp only [bind_ok]
        have hl : Loose P P' { a with phys := { a.phys with input1 := i } } { b with phys := { b.phys with input1 := i } } :=
          ⟨h.pack, rfl, h.ustar, h.factor, h.acc, h.clock, h.out⟩
        have key := data_loose (c := c) (all := all) (dl := dl) ht hl
        revert key
        generalize (snobalSim c ts all dl).data_tstep _ = x
        generalize (snobalSim c ts all dl).data_tstep _ = y
        intro key
        cases x <;> cases y <;> simp only [RelE] at key ⊢
        · exact key
        · exact ⟨key.loose.pack, key.loose.ustar, key.loose.factor, .inl key.acc, key.clock, key.out⟩

theorem between_future (ht : TileOK ts) {m m' : Model} (h : Between m.output_list m'.output_list m m') :
    m.SameFuture c ts all m' := by
  intro i rs
  have key := runSteps_between (c := c) (all := all) ht rs i m m' h
  revert key
  generalize runSteps c ts all i rs m = x
  generalize runSteps c ts all i rs m' = y
  intro key
  cases x with
  | error e =>
    cases y with
    | error e' =>
      simp only [RelE] at key
      subst key
      exact ⟨fun e' => Iff.rfl, fun out => ⟨fun ⟨a, h, _⟩ => (nomatch h), fun ⟨a, h, _⟩ => (nomatch h)⟩⟩
    | ok b => exact absurd key id
  | ok a =>
    cases y with
    | error e' => exact absurd key id
    | ok b =>
      obtain ⟨o, h1, h2⟩ := key.out
      refine ⟨fun e => ⟨fun h => (nomatch h), fun h => (nomatch h)⟩, fun out => ⟨?_, ?_⟩⟩
      · rintro ⟨a', e, h⟩
        cases e
        rw [h1] at h
        exact ⟨b, rfl, by rw [h2, List.append_cancel_left h]⟩
      · rintro ⟨a', e, h⟩
        cases e
        rw [h2] at h
        exact ⟨a, rfl, by rw [h1, List.append_cancel_left h]⟩


/-! ## The last record of a run -/

theorem executed_last (ht : TileOK ts) {i1 i2 : InputData} {m m' : Model} (h0 : m.acc.time_since_out = 0)
    {l : List (RStep Phys)} (hex : Executed c ts all i1 i2 m l m') :
    m'.acc.time_since_out = 0 ∧ ∃ o r a, m'.output_list = o ++ [r] ∧
      snapshot m'.phys.snow a m'.current_datetime = .ok r := by
  obtain ⟨k0, hne, _⟩ := executed_records ht h0 hex
  refine ⟨k0, ?_⟩
  obtain ⟨dl, mid, hdl, hr, hl, ho⟩ := hex.parts
  rcases ho with ⟨rfl, rfl⟩ | ⟨rfl, ho⟩
  · have key : ∀ {a b : Model} {l : List (RStep Phys)}, (snobalSim c ts true dl).Runs a l b →
        l = [] ∧ b.output_list = a.output_list ∧ b.phys.snow = a.phys.snow ∧ b.current_datetime = a.current_datetime ∨
        ∃ rs r x, b.output_list = rs ++ [r] ∧ snapshot b.phys.snow x b.current_datetime = .ok r := by
      intro a b l h
      induction h with
      | nil => exact .inl ⟨rfl, rfl, rfl, rfl⟩
      | @enter st st' l h ih =>
        rcases ih with ⟨e1, e2, e3, e4⟩ | ih
        · refine .inl ⟨e1, e2, e3.trans ?_, e4⟩
          show (if st.phys.input1.precip_now then _ else _ : Phys).snow = _
          split <;> rfl
        · exact .inr ih
      | @step st st1 st2 l lv p hb hp hd1 h ih =>
        right
        rcases ih with ⟨e1, e2, e3, e4⟩ | ih
        · obtain ⟨p', a, hp', ha, g1, g2, ho⟩ := do_tstep_ok hd1
          rw [hp] at hp'
          cases hp'
          rcases ho with ⟨_, r, hr, ho, _⟩ | ⟨ho, _⟩
          · refine ⟨st.output_list, r, a.acc, by rw [e2, ho], ?_⟩
            have g3 : st1.phys.snow = p.snow := by rw [g1]; rfl
            rw [e3, g3, e4, g2]
            exact hr
          · cases ho
        · exact ih
    rcases key hr with ⟨e1, _⟩ | h
    · exact absurd e1 hne
    · exact h
  · obtain ⟨r, hr', e⟩ := output_ok ho
    subst e
    exact ⟨mid.output_list, r, mid.acc.acc, rfl, hr'⟩

theorem dataSteps_last (ht : TileOK ts) {i1 : InputData} {rs : List Rec} {m m' : Model}
    {ls : List (List (RStep Phys))} (h : DataSteps c ts all i1 rs m ls m') (h0 : m.acc.time_since_out = 0) :
    m'.acc.time_since_out = 0 ∧ (rs = [] ∧ m' = m ∨ ∃ o r a, m'.output_list = o ++ [r] ∧
      snapshot m'.phys.snow a m'.current_datetime = .ok r) := by
  induction h with
  | nil => exact ⟨h0, .inl ⟨rfl, rfl⟩⟩
  | cons _ _ h3 h4 ih =>
    obtain ⟨k1, k2⟩ := executed_last ht h0 h3
    obtain ⟨q1, q2⟩ := ih k1
    refine ⟨q1, .inr ?_⟩
    rcases q2 with ⟨rfl, rfl⟩ | q2
    · exact k2
    · exact q2

theorem Unbroken.final : ∀ {l : List (RStep Phys)} {s s' : Snow}, Unbroken s l s' → l ≠ [] → ∃ x ∈ l, x.post.snow = s' := by
  intro l
  induction l with
  | nil => exact fun _ h => absurd rfl h
  | cons x l ih =>
    intro s s' h _
    cases l with
    | nil => exact ⟨x, by simp, h.2⟩
    | cons y l =>
      obtain ⟨z, hz, e⟩ := ih h.2 (by simp)
      exact ⟨z, by simp [hz], e⟩

/-- The last record of a run shows the snow the object is left with. -/
theorem trace_last {g : Config} (hg : g.Tiled) {rows : List Rec} {ls : List (List (RStep Phys))} {m : Model}
    (h : RunTrace g rows ls m) {r : OutRec} (hr : m.output_list.getLast? = some r) :
    m.acc.time_since_out = 0 ∧ (∃ a, snapshot m.phys.snow a m.current_datetime = .ok r) ∧
      ∃ l ∈ ls, ∃ x ∈ l, x.post.snow = m.phys.snow := by
  obtain ⟨c, ts, i1, m0, q, rs, rfl, e1, e2, e3, e4, e5⟩ := h
  have ht := parse_tile hg e1
  obtain ⟨_, _, h0, _⟩ := mkModel_ok e4
  unfold mkModel at e4
  obtain ⟨s, _, e4⟩ := bind_eq_ok.mp e4
  simp only [pure_ok, Except.ok.injEq] at e4
  obtain ⟨k1, k2⟩ := dataSteps_last ht e5 (by rw [← e4])
  refine ⟨k1, ?_⟩
  rcases k2 with ⟨rfl, rfl⟩ | ⟨o, r', a, ho, hs⟩
  · rw [← e4] at hr
    cases hr
  · rw [ho] at hr
    simp only [List.getLast?_append, List.getLast?_singleton, Option.some_or, Option.some.injEq] at hr
    subst hr
    refine ⟨⟨a, hs⟩, ?_⟩
    obtain ⟨u, ul⟩ := dataSteps_unbroken e5
    have hne : ls.flatten ≠ [] := by
      cases e5 with
      | nil => rw [← e4] at ho; simp at ho
      | @cons i1 i2 r rs m m1 m' l ls h1 h2 h3 h4 =>
        have h0' : m0.acc.time_since_out = 0 := by rw [← e4]
        obtain ⟨_, hne, _⟩ := executed_records ht h0' h3
        simp [hne]
    obtain ⟨x, hx, e⟩ := u.final hne
    obtain ⟨l, hl, hxl⟩ := List.mem_flatten.mp hx
    exact ⟨l, hl, x, hxl, e⟩


/-! ## The pack of the resumed object -/

theorem resume_pack {g : Config} (hc : mkEnv g = .ok c) (hmax : 0 < c.max_z_s_0) {s : Snow} {a : Acc} {t : ℤ} {r : OutRec}
    (hi : Inv c s) (hs : snapshot s a t = .ok r)
    (hw : 0 < s.layer_count → s.h2o_max = poreWater c.max_h2o_vol s.z_s (s.m_s - s.h2o) ∧
      s.h2o = s.h2o_sat * s.h2o_max ∧ s.h2o_vol = s.h2o_sat * c.max_h2o_vol) (hr : r.Resumable g) :
    ∃ s', init_snow c (recordSnow (g.resume r)) = .ok s' ∧ s'.Restored r ∧
      (s.layer_count = 0 → s'.cc_s_0 = s.cc_s_0) ∧ (s.layer_count ≠ 2 → s'.cc_s_l = s.cc_s_l) ∧
      (0 < s.layer_count → s'.cc_s_0 = coldAt r.t_s_0 r.m_s_0) ∧
      (s.layer_count = 2 → s'.cc_s_l = coldAt r.t_s_l r.m_s_l) := by
  obtain ⟨q1, q2, q3, _⟩ := mkEnv_ok hc
  obtain ⟨e1, e2, e3, e4, e5, e6, e7, e8, e9, e10, e11, e12, e13, e14, e15, e16, e17, e18, _⟩ := snapshot_snow hs
  have hsum := hi.sum
  by_cases hl : s.layer_count = 0
  · obtain ⟨hz, hh⟩ := hr.bare (by rw [e15]; exact hl)
    have hzl : s.z_s_l = 0 := le_antisymm ((lc_eq_zero.mp hl).2) hi.zl
    obtain ⟨b1, b2, b3, b4, b5, b6, b7, b8, b9⟩ := hi.bare ((hi.lc_zero_iff hmax).mp hl)
    obtain ⟨o1, o2, o3⟩ := hi.one hzl
    have hz' : s.z_s = 0 := by rw [← e11]; exact hz
    have hz0 : s.z_s_0 = 0 := by rw [hz', hzl, add_zero] at hsum; exact hsum.symm
    have hh' : s.h2o = 0 := by rw [← e16]; exact hh
    obtain ⟨s1, hs1⟩ : ∃ s1, s1 = Snow.calc_layers c { recordSnow (g.resume r) with m_s := (recordSnow (g.resume r)).rho * (recordSnow (g.resume r)).z_s } := ⟨_, rfl⟩
    have hz1 : s1.z_s = 0 ∧ s1.z_s_0 = 0 ∧ s1.z_s_l = 0 ∧ s1.layer_count = 0 := by
      have hrz : (recordSnow (g.resume r)).z_s = 0 := hz
      rcases calc_cases c hmax { recordSnow (g.resume r) with m_s := (recordSnow (g.resume r)).rho * (recordSnow (g.resume r)).z_s } with h1 | h1 | h1 | h1
      · rw [← hs1] at h1; exact h1.2
      · rw [← hs1] at h1
        obtain ⟨_, _, k1, k2, k3, k4⟩ := h1
        exact ⟨k1.trans hrz, k2.trans hrz, k3, k4⟩
      · exact absurd h1.2.1 (by show ¬ 0 < r.z_s; rw [hz]; exact lt_irrefl _)
      · have := h1.2.1
        exfalso
        have h' : c.max_z_s_0 < r.z_s := this
        rw [hz] at h'
        linarith
    obtain ⟨w1, w2, w3, w4⟩ := hz1
    refine ⟨initBare s1, ?_, ⟨?_, ?_, ?_, ?_, ?_, ?_, ?_, ?_, ?_, ?_, ?_, ?_, ?_, ?_, ?_⟩, ?_, ?_, ?_, ?_⟩
    · show initLayers c (Snow.calc_layers c { recordSnow (g.resume r) with m_s := (recordSnow (g.resume r)).rho * (recordSnow (g.resume r)).z_s }) = _
      rw [← hs1]
      exact if_pos w4
    · rw [e15, hl]; exact w4
    · rw [e11, hz']; exact w1
    · rw [e12, hz0]; exact w2
    · rw [e13, hzl]; exact w3
    · rw [e1, b3]; rfl
    · rw [e8, b1]; rfl
    · rw [e9, b2]; rfl
    · rw [e10, o1]; rfl
    · rw [e4, b5]; rfl
    · rw [e2, b6]; rfl
    · rw [e3, o3]; rfl
    · rw [e14, b7]; rfl
    · rw [e16, hh']; rfl
    · rw [e17, b9]; rfl
    · rw [e18, b8]; rfl
    · intro _; rw [b4]; rfl
    · intro _; rw [o2]; rfl
    · intro h; omega
    · intro h; omega
  · have hpos : 0 < s.layer_count := Nat.pos_of_ne_zero hl
    have hpos' : 0 < r.layer_count := by rw [e15]; exact hpos
    have hz0 := (hi.lc_pos_iff hmax).mp hpos
    have hz := hi.z_pos hz0
    obtain ⟨p1, p2, p3⟩ := hi.pack hz0
    obtain ⟨v1, v2, v3⟩ := hw hpos
    have hI : (RHO_ICE : ℝ) ≠ 0 := by norm_num [RHO_ICE]
    have hden : 1 - r.h2o_sat * c.max_h2o_vol * RHO_W0 / RHO_ICE ≠ 0 := by
      have := hr.water hpos'
      intro h
      apply this
      rw [← q3]
      have hW : (RHO_W0 : ℝ) ≠ 0 := by norm_num [RHO_W0]
      field_simp at h ⊢
      linarith
    have hsn : (g.resume r).StartsSnowy := by
      refine ⟨?_, by show 0 < r.z_s; rw [e11]; exact hz⟩
      show g.small_threshold < r.rho * r.z_s
      rw [e1, e11, ← p1, ← e8]
      exact hr.heavy hpos'
    have hdp : (g.resume r).StartsDeep ↔ s.layer_count = 2 := by
      rw [← e15, hr.split hpos']
      unfold Config.StartsDeep
      show (0 < r.z_s - g.max_active ∧ g.small_threshold ≤ (r.z_s - g.max_active) * r.rho) ↔ _
      rw [sub_pos, mul_comm]
    obtain ⟨s', hs'⟩ : ∃ s', init_snow c (recordSnow (g.resume r)) = .ok s' := by
      obtain ⟨z, x, y, hfr⟩ := calc_shape c { recordSnow (g.resume r) with m_s := (recordSnow (g.resume r)).rho * (recordSnow (g.resume r)).z_s }
      show ∃ s', initLayers c (Snow.calc_layers c { recordSnow (g.resume r) with m_s := (recordSnow (g.resume r)).rho * (recordSnow (g.resume r)).z_s }) = .ok s'
      rw [hfr]
      unfold initLayers
      split
      · exact ⟨_, rfl⟩
      · rw [initWater_eq]
        exact ⟨_, (congrArg (Except.map _) (pdiv_of_ne hden)).trans rfl⟩
    have hsp := start_layers (g := g.resume r) hc (by show 0 < g.max_active; rw [← q1]; exact hmax) hsn hs'
    rcases init_snow_out hmax hs' with k | k
    · obtain ⟨_, _, d, hd0, hd, k1, k2, k3, k4, k5, k6, k7, k8, _, k9, k10, k11, k12, _⟩ := k
      have hlc : s'.layer_count = s.layer_count := by
        rw [hsp.layers]
        split
        · rename_i h; exact (hdp.mp h).symm
        · rename_i h
          have h2 : s.layer_count ≠ 2 := fun h' => h (hdp.mpr h')
          have : s.layer_count ≤ 2 := by unfold Snow.layer_count; split_ifs <;> omega
          omega
      have hz1 : s'.z_s_0 = s.z_s_0 := by
        rw [hsp.z_s_0]
        split
        · rename_i h
          have h2 := hdp.mp h
          rw [hi.full ((lc_eq_two.mp h2).2), q1]; rfl
        · rename_i h
          have h2 : s.layer_count ≠ 2 := fun h' => h (hdp.mpr h')
          have : s.z_s_l = 0 := by
            by_contra hn
            exact h2 (lc_eq_two.mpr ⟨hz0, lt_of_le_of_ne hi.zl (Ne.symm hn)⟩)
          show r.z_s = _
          rw [e11, hsum, this, add_zero]
      have hz2 : s'.z_s_l = s.z_s_l := by
        have : s'.z_s_0 + s'.z_s_l = s.z_s := by
          rw [hsp.z_s_0, hsp.z_s_l]
          split
          · show g.max_active + (r.z_s - g.max_active) = _
            rw [e11]; ring
          · show r.z_s + 0 = _
            rw [e11]; ring
        rw [hz1] at this
        linarith
      have hm0 : s'.m_s_0 = s.m_s_0 := by
        rw [hsp.m_s_0, hz1, p2]; show r.rho * _ = _; rw [e1]
      have hml : s'.m_s_l = s.m_s_l := by
        rw [hsp.m_s_l, hz2, p3]; show r.rho * _ = _; rw [e1]
      have hmax' : s'.h2o_max = s.h2o_max := by
        have h1 : s'.h2o_max = poreWater c.max_h2o_vol s.z_s (s.rho * s.z_s - s.h2o_sat * s'.h2o_max) := by
          have := fresh_pore (z := r.z_s) hd0 hd
          have k5' : s'.h2o_max = h2o_left r.z_s d c.max_h2o_vol := k5
          rw [← k5'] at this
          rw [← e11, ← e1, ← e14]
          exact this
        have h2 : s.h2o_max = poreWater c.max_h2o_vol s.z_s (s.rho * s.z_s - s.h2o_sat * s.h2o_max) := by
          rw [← p1, ← v2]; exact v1
        unfold poreWater at h1 h2
        rw [e14] at hden
        have h3 : (1 - s.h2o_sat * c.max_h2o_vol * RHO_W0 / RHO_ICE) * (s'.h2o_max - s.h2o_max) = 0 := by
          field_simp at h1 h2 ⊢
          linear_combination h1 - h2
        have := (mul_eq_zero.mp h3).resolve_left hden
        linarith
      refine ⟨s', hs', ⟨?_, ?_, ?_, ?_, ?_, ?_, ?_, ?_, ?_, ?_, ?_, ?_, ?_, ?_, ?_⟩, ?_, ?_, ?_, ?_⟩
      · rw [e15, hlc]
      · exact k3
      · rw [e12, hz1]
      · rw [e13, hz2]
      · exact k2
      · rw [k1]; show r.rho * r.z_s = _; rw [e1, e11, e8, p1]
      · rw [e9, hm0]
      · rw [e10, hml]
      · exact k9
      · exact k10
      · by_cases h2 : s.layer_count = 2
        · exact hsp.t_s_l (hdp.mpr h2)
        · rcases k12 with ⟨_, h, _⟩ | ⟨h, _⟩
          · have : s.z_s_l = 0 := by
              by_contra hn
              exact h2 (lc_eq_two.mpr ⟨hz0, lt_of_le_of_ne hi.zl (Ne.symm hn)⟩)
            rw [h, e3, (hi.one this).2.2]
          · omega
      · exact k7
      · rw [k6, hmax', e16, v2]; show r.h2o_sat * _ = _; rw [e14]
      · rw [e17, hmax']
      · rw [k8, e18, v3]; show r.h2o_sat * _ = _; rw [e14]
      · intro h; omega
      · intro h2
        have : s.z_s_l = 0 := by
          by_contra hn
          exact h2 (lc_eq_two.mpr ⟨hz0, lt_of_le_of_ne hi.zl (Ne.symm hn)⟩)
        rw [hsp.cc_s_l, if_neg (fun h => h2 (hdp.mp h)), (hi.one this).2.1]
      · intro _
        rw [hsp.cc_s_0, hm0, e9]; rfl
      · intro h2
        rw [hsp.cc_s_l, if_pos (hdp.mpr h2), hsp.t_s_l (hdp.mpr h2), hml, e10]; rfl
    · exfalso
      obtain ⟨k, _⟩ := k
      rcases k with k | k
      · exact absurd (show g.small_threshold < r.rho * r.z_s from hsn.1) (by rw [← q2]; exact not_lt.mpr k)
      · exact absurd hsn.2 (not_lt.mpr k)


/-! ## The water and the first guesses after a run step -/

theorem StepChain.water_eq {dt : ℝ} {dl : InputData} {p p' : Phys} {s0 s1 s2 s3 s4 s5 s6 : Snow} (hmax : 0 < c.max_z_s_0)
    (k : StepChain c dt dl p p' s0 s1 s2 s3 s4 s5 s6) (hl : 0 < p'.snow.layer_count) :
    p'.snow.h2o = p'.snow.h2o_sat * p'.snow.h2o_max ∧ p'.snow.h2o_vol = p'.snow.h2o_sat * c.max_h2o_vol := by
  cases hs : p'.snow.snowcover
  · rcases k.ended hmax hs with h | ⟨hp, hm, t, ht, hlt, e⟩
    · omega
    · rcases init_snow_out hmax ht with h | h
      · obtain ⟨_, _, d, _, _, _, _, _, _, h5, h6, h7, h8, _⟩ := h
        have e1 : p'.snow.h2o_max = t.h2o_max ∧ p'.snow.h2o_sat = t.h2o_sat ∧ p'.snow.h2o_vol = t.h2o_vol ∧
            p'.snow.h2o = t.h2o := by rw [e]; exact ⟨rfl, rfl, rfl, rfl⟩
        rw [e1.1, e1.2.1, e1.2.2.1, e1.2.2.2, h7]
        exact ⟨h6, h8⟩
      · obtain ⟨_, _, _, _, hz0, hzl, _⟩ := h
        have : t.layer_count = 0 := lc_eq_zero.mpr ⟨hz0, hzl.le⟩
        omega
  · obtain ⟨f6, f5, _⟩ := k.persist hmax hs
    obtain ⟨_, _, d3, _, _, _, _, _, _, _, _, _, _, _, _, _, _, _, d9⟩ := k.drained hmax f5
    have e : p'.snow.h2o_max = s6.h2o_max ∧ p'.snow.h2o_sat = s6.h2o_sat ∧ p'.snow.h2o_vol = s6.h2o_vol ∧
        p'.snow.h2o = s6.h2o := by rw [k.frame7]; exact ⟨rfl, rfl, rfl, rfl⟩
    rw [e.1, e.2.1, e.2.2.1, e.2.2.2]
    rcases d9 with ⟨_, _, h1, h2, h3⟩ | ⟨_, h0, _, h1, h2, h3⟩
    · exact ⟨by rw [h1, h2, d3, one_mul], by rw [h3, h2, one_mul]⟩
    · exact ⟨by rw [h2, div_mul_cancel₀ _ (by rw [d3]; exact h0)], h3⟩

theorem energy_bare_guess {dt : ℝ} {p q : Phys} (h : energy_balance c dt p = .ok q) (h0 : p.snow.layer_count = 0) :
    q.init_ustar = p.init_ustar ∧ q.init_factor = p.init_factor := by
  unfold energy_balance at h
  rw [if_neg (by omega)] at h
  cases h
  exact ⟨rfl, rfl⟩

theorem stepPhys_bare_guess {dt : ℝ} {d : InputData} {p p' : Phys} (h : stepPhys c dt d p = .ok p') (h0 : p.snow.layer_count = 0) :
    p'.init_ustar = p.init_ustar ∧ p'.init_factor = p.init_factor := by
  unfold stepPhys at h
  dsimp only at h
  have key : ∀ (i : InputData), (energy_balance c dt { snow := { p.snow with h2o_total := 0, snowcover := decide (p.snow.layer_count > 0) }, input1 := i, init_ustar := p.init_ustar, init_factor := p.init_factor } >>= fun q => mass_balance c q.input1 dt q.snow >>= fun s => pure { q with snow := s }) = .ok p' →
      p'.init_ustar = p.init_ustar ∧ p'.init_factor = p.init_factor := by
    intro i h
    obtain ⟨q, hq, h⟩ := bind_eq_ok.mp h
    obtain ⟨s, _, h⟩ := bind_eq_ok.mp h
    simp only [pure_ok, Except.ok.injEq] at h
    subst h
    have e := energy_bare_guess hq h0
    exact ⟨e.1, e.2⟩
  cases hp : p.input1.precip_now with
  | true =>
    simp only [hp, if_true] at h
    exact key _ h
  | false =>
    simp only [hp, Bool.false_eq_true, if_false] at h
    exact key _ h

theorem runs_bare_guess {a b : Model} {l : List (RStep Phys)} (h : (snobalSim c ts all dl).Runs a l b)
    (hb : ∀ x ∈ l, x.pre.snow.layer_count = 0) :
    b.phys.init_ustar = a.phys.init_ustar ∧ b.phys.init_factor = a.phys.init_factor := by
  induction h with
  | nil => exact ⟨rfl, rfl⟩
  | @enter st st' l h ih =>
    obtain ⟨h1, h2⟩ := ih hb
    rw [h1, h2]
    have e : ((snobalSim c ts all dl).enter .small st.phys) =
        if st.phys.input1.precip_now then { st.phys with input1 := st.phys.input1.update_precip_deltas (dl .small) } else st.phys := rfl
    dsimp only
    rw [e]
    split <;> exact ⟨rfl, rfl⟩
  | @step st st1 st2 l lv p hbl hp hd1 h ih =>
    obtain ⟨h1, h2⟩ := ih fun x hx => hb x (by simp [hx])
    obtain ⟨p', a, hp', ha, g1, _⟩ := do_tstep_ok hd1
    rw [hp] at hp'
    cases hp'
    obtain ⟨k1, k2⟩ := stepPhys_bare_guess (p := st.phys) hp (hb ⟨lv, st.phys, p⟩ (by simp))
    rw [h1, h2, g1]
    exact ⟨k1, k2⟩

theorem dataSteps_bare_guess {i1 : InputData} {rs : List Rec} {m m' : Model} {ls : List (List (RStep Phys))}
    (h : DataSteps c ts all i1 rs m ls m') (hb : ∀ l ∈ ls, ∀ x ∈ l, x.pre.snow.layer_count = 0) :
    m'.phys.init_ustar = m.phys.init_ustar ∧ m'.phys.init_factor = m.phys.init_factor := by
  induction h with
  | nil => exact ⟨rfl, rfl⟩
  | cons _ _ h3 _ ih =>
    obtain ⟨k1, k2⟩ := ih fun l hl => hb l (by simp [hl])
    obtain ⟨dl, mid, _, hr, _, ho⟩ := h3.parts
    have := runs_bare_guess hr (hb _ (by simp))
    rw [k1, k2, (Executed.mid_phys ho).1]
    exact this

/-! ## C84 -/

/-- C84, memory: between data steps all that matters of a `Snobal` object is its pack, its clock and the two first
guesses of the turbulence equations; records already emitted, totals and fluxes of past steps and the cover flag do
not influence what follows. -/
theorem C84_memory (g : Config) (hg : g.Tiled) (ts : Tsteps) (hts : parse_time_steps g = .ok ts) (c : Env) (all : Bool)
    (m m' : Model) (hp : m.phys.snow.SamePack m'.phys.snow) (hu : m.phys.init_ustar = m'.phys.init_ustar)
    (hf : m.phys.init_factor = m'.phys.init_factor) (ht : m.current_datetime = m'.current_datetime)
    (h0 : m.acc.time_since_out = 0) (h0' : m'.acc.time_since_out = 0) : m.SameFuture c ts all m' :=
  between_future (parse_tile hg hts) ⟨hp, hu, hf, .inr ⟨h0, h0'⟩, ht, ⟨[], by simp, by simp⟩⟩

theorem trace_resume {g : Config} (hg : g.Tiled) (hmax : 0 < g.max_active) {rows : List Rec}
    {ls : List (List (RStep Phys))} {m : Model} (h : RunTrace g rows ls m) {r : OutRec}
    (hr : m.output_list.getLast? = some r) (hres : r.Resumable g) (hc : mkEnv g = .ok c) (i : InputData) :
    r.date_time = m.current_datetime ∧ r.layer_count = m.phys.snow.layer_count ∧ r.cc_s_0 = m.phys.snow.cc_s_0 ∧
    r.cc_s_l = m.phys.snow.cc_s_l ∧ m.phys.snow.Restored r ∧
    ∃ m', mkModel (g.resume r) c i = .ok m' ∧ m'.current_datetime = r.date_time ∧ m'.output_list = [] ∧
      m'.acc.time_since_out = 0 ∧ m'.phys.init_ustar = none ∧ m'.phys.init_factor = none ∧
      m'.phys.snow.Restored r ∧
      (r.layer_count = 0 → m'.phys.snow.cc_s_0 = r.cc_s_0) ∧ (r.layer_count ≠ 2 → m'.phys.snow.cc_s_l = r.cc_s_l) ∧
      (0 < r.layer_count → m'.phys.snow.cc_s_0 = coldAt r.t_s_0 r.m_s_0) ∧
      (r.layer_count = 2 → m'.phys.snow.cc_s_l = coldAt r.t_s_l r.m_s_l) := by
  obtain ⟨_, ⟨a, hs⟩, l, hl, x, hx, e⟩ := trace_last hg h hr
  obtain ⟨c', ts, hc', hts, hm, hx'⟩ := trace_step hmax h
  rw [hc] at hc'
  cases hc'
  obtain ⟨d, h1, h2, h3⟩ := hx' l hl x hx
  obtain ⟨s0, s1, s2, s3, s4, s5, s6, k⟩ := step_chain hm h1 h3
  rw [e] at h2
  obtain ⟨e1, e2, e3, e4, e5, e6, e7, e8, e9, e10, e11, e12, e13, e14, e15, e16, e17, e18, _⟩ := snapshot_snow hs
  have hd : r.date_time = m.current_datetime := by
    unfold snapshot at hs
    split at hs
    · cases hs
    · cases hs; rfl
  refine ⟨hd, e15, e5, e6, ⟨e15.symm, e11.symm, e12.symm, e13.symm, e1.symm, e8.symm, e9.symm, e10.symm, e4.symm,
    e2.symm, e3.symm, e14.symm, e16.symm, e17.symm, e18.symm⟩, ?_⟩
  obtain ⟨s', k1, k2, k3, k4, k5, k6⟩ := resume_pack hc hm h2 hs (fun hl => by
    rw [← e] at hl ⊢
    exact ⟨k.capacity_eq hm hl, k.water_eq hm hl⟩) hres
  obtain ⟨m', hm', f1, f2, f3, f4, f5, f6⟩ : ∃ m', mkModel (g.resume r) c i = .ok m' ∧ m'.current_datetime = r.date_time ∧
      m'.output_list = [] ∧ m'.acc.time_since_out = 0 ∧ m'.phys.init_ustar = none ∧ m'.phys.init_factor = none ∧
      m'.phys.snow = s' := by
    unfold mkModel
    rw [k1]
    exact ⟨_, rfl, rfl, rfl, rfl, rfl, rfl, rfl⟩
  refine ⟨m', hm', f1, f2, f3, f4, f5, ?_⟩
  rw [e15, e5, e6, f6]
  exact ⟨k2, k3, k4, k5, k6⟩

/-- C84, pack: `Snobal` can be started with the depth, density, temperatures and saturation of the last record of a
run (if the record is resumable), and the object then holds the layers, the masses, the temperatures and exactly the
liquid water of that record; its cold contents are those of the recorded masses at the recorded temperatures. -/
theorem C84_resumed_pack (g : Config) (hg : g.Tiled) (hmax : 0 < g.max_active) (rows : List Rec) (m : Model)
    (h : simulate g rows = .ok m) (r : OutRec) (hr : m.output_list.getLast? = some r) (hres : r.Resumable g)
    (c : Env) (hc : mkEnv g = .ok c) (i : InputData) :
    ∃ m', mkModel (g.resume r) c i = .ok m' ∧ m'.current_datetime = m.current_datetime ∧ m'.output_list = [] ∧
      m.phys.snow.Restored r ∧ m'.phys.snow.Restored r ∧
      (0 < r.layer_count → m'.phys.snow.cc_s_0 = coldAt r.t_s_0 r.m_s_0) ∧
      (r.layer_count = 2 → m'.phys.snow.cc_s_l = coldAt r.t_s_l r.m_s_l) ∧
      (r.layer_count = 0 → m'.phys.snow.cc_s_0 = 0) ∧ (r.layer_count < 2 → m'.phys.snow.cc_s_l = 0) := by
  obtain ⟨ls, ht⟩ := simulate_trace h
  obtain ⟨k1, k2, k3, k4, k5, m', q1, q2, q3, q4, q5, q6, q7, q8, q9, q10, q11⟩ := trace_resume hg hmax ht hr hres hc i
  obtain ⟨_, ⟨a, hs⟩, l, hl, x, hx, e⟩ := trace_last hg ht hr
  obtain ⟨c', ts, hc', hts, hm, hx'⟩ := trace_step hmax ht
  rw [hc] at hc'
  cases hc'
  obtain ⟨d, _, h2, _⟩ := hx' l hl x hx
  rw [e] at h2
  refine ⟨m', q1, by rw [q2, k1], q3, k5, q7, q10, q11, fun h => ?_, fun h => ?_⟩
  · rw [q8 h, k3]
    exact (h2.bare ((h2.lc_zero_iff hm).mp (by rw [← k2]; exact h))).2.2.2.1
  · rw [q9 (by omega), k4]
    refine (h2.one ?_).2.1
    by_contra hn
    have hp : 0 < m.phys.snow.z_s_l := lt_of_le_of_ne h2.zl (Ne.symm hn)
    have := lc_eq_two.mpr ⟨by rw [h2.full hp]; exact hm, hp⟩
    omega

/-- C84, cold content: the object started from the record has the cold content of the run exactly if the last step
left the temperature of the surface layer unchanged or at freezing; it is colder exactly if the surface layer had
warmed (without reaching freezing) in the last step, because the run counts the cold content with the heat capacity
at the temperature before the step. -/
theorem C84_cold_content (g : Config) (hmax : 0 < g.max_active) (rows : List Rec) (ls : List (List (RStep Phys)))
    (m : Model) (h : RunTrace g rows ls m) : ∀ l ∈ ls, ∀ x ∈ l,
      x.post.snow.snowcover = true → (x.post.snow.layer_count = 1 ∨ x.post.snow.cc_s_0 + x.post.snow.cc_s_l ≠ 0) →
      x.post.snow.t_s_0 ≤ FREEZE → 0 < x.post.snow.m_s_0 →
      (coldAt x.post.snow.t_s_0 x.post.snow.m_s_0 = x.post.snow.cc_s_0 ↔
        x.post.snow.t_s_0 = x.pre.snow.t_s_0 ∨ x.post.snow.t_s_0 = FREEZE) ∧
      (coldAt x.post.snow.t_s_0 x.post.snow.m_s_0 < x.post.snow.cc_s_0 ↔
        x.pre.snow.t_s_0 < x.post.snow.t_s_0 ∧ x.post.snow.t_s_0 < FREEZE) := by
  intro l hl x hx hsc hlc hT hm
  obtain ⟨k1, k2, k3, _⟩ := C60_temperature_step g hmax rows ls m h l hl x hx
  have hcc : x.post.snow.cc_s_0 = cp_ice x.pre.snow.t_s_0 * x.post.snow.m_s_0 * (x.post.snow.t_s_0 - FREEZE) := by
    rcases hlc with h1 | h1
    · exact (k1 hsc h1).2.2
    · obtain ⟨c, ts, hc, hts, hmx, hx'⟩ := trace_step hmax h
      obtain ⟨d, _, h2, _⟩ := hx' l hl x hx
      have h3 : x.post.snow.layer_count ≤ 2 := by unfold Snow.layer_count; split_ifs <;> omega
      have h4 : 0 < x.post.snow.layer_count := (h2.lc_pos_iff hmx).mpr (h2.flag hsc)
      by_cases h5 : x.post.snow.layer_count = 2
      · exact (k3 hsc h5 h1).1
      · exact (k1 hsc (by omega)).2.2
  generalize x.post.snow.t_s_0 = t at *
  generalize x.pre.snow.t_s_0 = u at *
  generalize x.post.snow.m_s_0 = w at *
  generalize x.post.snow.cc_s_0 = cc at *
  rcases eq_or_lt_of_le hT with rfl | hlt
  · have e : coldAt FREEZE w = 0 := if_neg (lt_irrefl _)
    rw [e, hcc]
    simp
  · have e : coldAt t w = cp_ice t * w * (t - FREEZE) := if_pos hlt
    rw [e, hcc]
    have hd : cp_ice t * w * (t - FREEZE) - cp_ice u * w * (t - FREEZE) =
        CAL_TO_J * 1.76 * w * (FREEZE - t) * (u - t) := by
      unfold cp_ice
      ring
    have hk : 0 < CAL_TO_J * 1.76 * w * (FREEZE - t) := by
      have h1 : 0 < FREEZE - t := by linarith
      have h2 : (0 : ℝ) < CAL_TO_J := by norm_num [CAL_TO_J]
      positivity
    constructor
    · rw [← sub_eq_zero, hd, mul_eq_zero]
      constructor
      · rintro (h | h)
        · linarith
        · left; linarith
      · rintro (h | h)
        · right; linarith
        · linarith
    · rw [← sub_neg, hd, mul_neg_iff]
      constructor
      · rintro (h | h)
        · exact ⟨by linarith [h.2], hlt⟩
        · linarith [h.1]
      · rintro ⟨h, _⟩
        exact .inl ⟨hk, by linarith⟩

/-- C84, future: if in addition the recorded cold contents are those of the recorded masses at the recorded
temperatures, the object started from the last record, given the two first guesses of the turbulence equations
(which no record shows), has the same future as the object that ran. -/
theorem C84_resumed_future (g : Config) (hg : g.Tiled) (hmax : 0 < g.max_active) (rows : List Rec) (m : Model)
    (h : simulate g rows = .ok m) (r : OutRec) (hr : m.output_list.getLast? = some r) (hres : r.Resumable g)
    (hcold : 0 < r.layer_count → r.cc_s_0 = coldAt r.t_s_0 r.m_s_0)
    (hcold' : r.layer_count = 2 → r.cc_s_l = coldAt r.t_s_l r.m_s_l)
    (c : Env) (hc : mkEnv g = .ok c) (ts : Tsteps) (hts : parse_time_steps g = .ok ts) (all : Bool) (i : InputData)
    (m' : Model) (hm' : mkModel (g.resume r) c i = .ok m') :
    m.SameFuture c ts all { m' with phys := { m'.phys with init_ustar := m.phys.init_ustar, init_factor := m.phys.init_factor } } := by
  obtain ⟨ls, ht⟩ := simulate_trace h
  obtain ⟨k1, k2, k3, k4, k5, m'', q1, q2, q3, q4, q5, q6, q7, q8, q9, q10, q11⟩ := trace_resume hg hmax ht hr hres hc i
  rw [hm'] at q1
  cases q1
  refine C84_memory g hg ts hts c all m _ ?_ rfl rfl ?_ (trace_last hg ht hr).1 q4
  · have e0 : m.phys.snow.cc_s_0 = m'.phys.snow.cc_s_0 := by
      rw [← k3]
      by_cases h0 : r.layer_count = 0
      · exact (q8 h0).symm
      · rw [q10 (Nat.pos_of_ne_zero h0), hcold (Nat.pos_of_ne_zero h0)]
    have el : m.phys.snow.cc_s_l = m'.phys.snow.cc_s_l := by
      rw [← k4]
      by_cases h0 : r.layer_count = 2
      · rw [q11 h0, hcold' h0]
      · exact (q9 h0).symm
    exact ⟨by rw [k5.h2o_sat, q7.h2o_sat], by rw [k5.rho, q7.rho], by rw [k5.t_s, q7.t_s], by rw [k5.t_s_0, q7.t_s_0],
      by rw [k5.t_s_l, q7.t_s_l], by rw [k5.z_s, q7.z_s], by rw [k5.z_s_0, q7.z_s_0], by rw [k5.z_s_l, q7.z_s_l], e0, el,
      by rw [k5.m_s, q7.m_s], by rw [k5.m_s_0, q7.m_s_0], by rw [k5.m_s_l, q7.m_s_l], by rw [k5.h2o, q7.h2o],
      by rw [k5.h2o_max, q7.h2o_max], by rw [k5.h2o_vol, q7.h2o_vol]⟩
  · rw [q2, k1]

/-- C84, run: if every run step so far began on bare ground (the snow of the last record, if any, has just fallen),
stopping and starting a new run from the last record at the last input row changes nothing: for every continuation of
the input the uninterrupted run and the resumed one raise the same exception, or the resumed run emits exactly the
records that the uninterrupted run adds. -/
theorem C84_resumed_run (g : Config) (hg : g.Tiled) (hmax : 0 < g.max_active) (xs : List Rec) (q : Rec)
    (ls : List (List (RStep Phys))) (m : Model) (h : RunTrace g (xs ++ [q]) ls m)
    (hbare : ∀ l ∈ ls, ∀ x ∈ l, x.pre.snow.layer_count = 0) (r : OutRec)
    (hr : m.output_list.getLast? = some r) (hres : r.Resumable g) (ys : List Rec) :
    (∀ e, simulate g (xs ++ q :: ys) = .error e ↔ simulate (g.resume r) (q :: ys) = .error e) ∧
    ∀ out, (∃ a, simulate g (xs ++ q :: ys) = .ok a ∧ a.output_list = m.output_list ++ out) ↔
      ∃ b, simulate (g.resume r) (q :: ys) = .ok b ∧ b.output_list = out := by
  have hsim := h.simulate
  obtain ⟨_, ⟨a, hs⟩, l, hl, x, hx, e⟩ := trace_last hg h hr
  obtain ⟨_, _, _, k60⟩ := C60_temperature_step g hmax _ ls m h l hl x hx
  have h' := h
  obtain ⟨c, ts, i1, m0, r1, rs, e0, e1, e2, e3, e4, e5⟩ := h'
  have hgu : m.phys.init_ustar = none ∧ m.phys.init_factor = none := by
    obtain ⟨h1, h2⟩ := dataSteps_bare_guess e5 hbare
    unfold mkModel at e4
    obtain ⟨s, _, e4⟩ := bind_eq_ok.mp e4
    simp only [pure_ok, Except.ok.injEq] at e4
    rw [h1, h2, ← e4]
    exact ⟨rfl, rfl⟩
  have hcov : x.post.snow.snowcover = false := by
    obtain ⟨c', ts', hc', hts', hmx, hx'⟩ := trace_step hmax h
    obtain ⟨d, p1, _, p3⟩ := hx' l hl x hx
    obtain ⟨s0, s1, s2, s3, s4, s5, s6, k⟩ := step_chain hmx p1 p3
    by_contra hn
    have := (k.persist hmx (by simpa using hn)).2.2.2.2.2.2.2
    have := hbare l hl x hx
    omega
  rw [e] at k60 hcov
  obtain ⟨i, hi⟩ : ∃ i, InputData.new q = .ok i := by
    cases xs with
    | nil =>
      simp only [List.nil_append, List.cons.injEq] at e0
      exact ⟨i1, by rw [e0.1]; exact e3⟩
    | cons x0 xs =>
      simp only [List.cons_append, List.cons.injEq] at e0
      obtain ⟨_, rfl⟩ := e0
      have := e5.runs
      rw [C12_runs_compose] at this
      obtain ⟨_, _, this⟩ := bind_eq_ok.mp this
      obtain ⟨i, hi, _⟩ := bind_eq_ok.mp this
      exact ⟨i, hi⟩
  obtain ⟨k1, k2, k3, k4, k5, m', q1, q2, q3, q4, q5, q6, q7, q8, q9, q10, q11⟩ := trace_resume hg hmax h hr hres e2 i
  have hfut := C84_resumed_future g hg hmax _ m hsim r hr hres
    (fun hp => by
      obtain ⟨t1, t2, t3, t4⟩ := k60 hcov (by rw [← k2]; exact hp)
      rw [k3, t3, ← k5.m_s_0, ← k5.t_s_0, t1])
    (fun hp => by
      obtain ⟨t1, t2, t3, t4⟩ := k60 hcov (by rw [← k2, hp]; decide)
      obtain ⟨t5, t6⟩ := t4 (by rw [← k2]; exact hp)
      rw [k4, t6, ← k5.m_s_l, ← k5.t_s_l, t5]) c e2 ts e1 g.output_all i m' q1
  rw [hgu.1, hgu.2] at hfut
  have em : ({ m' with phys := { m'.phys with init_ustar := none, init_factor := none } } : Model) = m' := by
    obtain ⟨⟨_, _, u, v⟩, _, _, _⟩ := m'
    cases q5
    cases q6
    rfl
  rw [em] at hfut
  obtain ⟨f1, f2⟩ := hfut i ys
  have s1 : simulate g (xs ++ q :: ys) = runSteps c ts g.output_all i ys m := by
    cases xs with
    | nil =>
      exfalso
      simp only [List.nil_append, List.cons.injEq] at e0
      obtain ⟨_, rfl⟩ := e0
      cases e5
      unfold mkModel at e4
      obtain ⟨s, _, e4⟩ := bind_eq_ok.mp e4
      simp only [pure_ok, Except.ok.injEq] at e4
      rw [← e4] at hr
      cases hr
    | cons x0 xs =>
      simp only [List.cons_append, List.cons.injEq] at e0
      obtain ⟨rfl, rfl⟩ := e0
      unfold simulate
      dsimp only [List.cons_append]
      rw [e1, bind_ok, e3, bind_ok, e2, bind_ok, e4, bind_ok, C12_runs_compose, e5.runs, bind_ok, hi, bind_ok]
  have s2 : simulate (g.resume r) (q :: ys) = runSteps c ts g.output_all i ys m' := by
    unfold simulate
    dsimp only
    have p1 : parse_time_steps (g.resume r) = .ok ts := e1
    have p2 : mkEnv (g.resume r) = .ok c := e2
    rw [p1, bind_ok, hi, bind_ok, p2, bind_ok, q1, bind_ok]
    rfl
  rw [s1, s2]
  refine ⟨f1, fun out => ?_⟩
  rw [f2 out, q3]
  simp


/-! ## Records of fresh snow and of bare ground are resumable -/

theorem init_split (hmax : 0 < c.max_z_s_0) {s s' : Snow} (h : init_snow c s = .ok s') (hl : 0 < s'.layer_count) :
    s'.layer_count = 2 ↔ c.max_z_s_0 < s'.z_s ∧ c.small_threshold ≤ s'.rho * (s'.z_s - c.max_z_s_0) := by
  unfold init_snow initLayers at h
  obtain ⟨z, a, b, hfr⟩ := calc_shape c { s with m_s := s.rho * s.z_s }
  have hc := calc_cases c hmax { s with m_s := s.rho * s.z_s }
  generalize Snow.calc_layers c { s with m_s := s.rho * s.z_s } = s1 at h hc hfr
  have e : s'.layer_count = s1.layer_count ∧ (0 < s1.layer_count → s'.z_s = s1.z_s ∧ s'.rho = s1.rho) := by
    split at h
    · rename_i h0
      cases h
      exact ⟨rfl, fun h => by omega⟩
    · rw [initWater_eq] at h
      cases hq : pdiv ((initCold s1).rho - (initCold s1).h2o_sat * c.max_h2o_vol * RHO_W0) (1 - (initCold s1).h2o_sat * c.max_h2o_vol * RHO_W0 / RHO_ICE) with
      | error e => rw [hq] at h; cases h
      | ok d =>
        rw [hq] at h
        cases h
        exact ⟨rfl, fun _ => ⟨rfl, rfl⟩⟩
  rw [e.1] at hl ⊢
  obtain ⟨e2, e3⟩ := e.2 hl
  rw [e2, e3]
  have er : s1.rho = s.rho := by rw [hfr]
  rw [er]
  rcases hc with k | k | k | k
  · omega
  · omega
  · obtain ⟨_, _, k1, k2, _, _, k5⟩ := k
    have k2' : s1.z_s = s.z_s := k2
    rw [k5, k2']
    constructor
    · intro h; cases h
    · rintro ⟨h1, h2⟩
      rcases k1 with k1 | k1
      · exact absurd h1 (not_lt.mpr k1)
      · exact absurd h2 (by rw [mul_comm]; exact not_le.mpr k1)
  · obtain ⟨_, k1, k1', k2, _, _, k5⟩ := k
    have k2' : s1.z_s = s.z_s := k2
    rw [k5, k2']
    exact ⟨fun _ => ⟨k1, by rw [mul_comm]; exact k1'⟩, fun _ => rfl⟩

theorem init_zero (hmax : 0 < c.max_z_s_0) {s s' : Snow} (hz : 0 ≤ s.z_s) (hf : s.snowcover = false)
    (h : init_snow c s = .ok s') (hl : s'.layer_count = 0) : s'.z_s = 0 ∧ s'.h2o = 0 := by
  rcases init_snow_out hmax h with k | k
  · obtain ⟨_, _, _, _, _, _, _, _, k, _⟩ := k
    have := (lc_eq_zero.mp hl).1
    linarith
  · obtain ⟨_, _, _, k1, k2, k3, _⟩ := k
    refine ⟨le_antisymm ?_ (init_snow_z hmax hz h), k1⟩
    have := (init_snow_inv hmax h hf).sum
    rw [this, k3]
    linarith

theorem StepChain.bare_zero {dt : ℝ} {d : InputData} {p p' : Phys} {s0 s1 s2 s3 s4 s5 s6 : Snow} (hmax : 0 < c.max_z_s_0)
    (k : StepChain c dt d p p' s0 s1 s2 s3 s4 s5 s6) (hb : p.snow.layer_count = 0)
    (hf : p'.input1.precip_now = true → StepForcing p'.input1) (hz : p.snow.z_s = 0 ∧ p.snow.h2o = 0)
    (hl : p'.snow.layer_count = 0) : p'.snow.z_s = 0 ∧ p'.snow.h2o = 0 := by
  have h0 : s0.snowcover = false := by
    rw [k.flag0, hb]; rfl
  have h1 : s1 = s0 := by
    rcases time_compact_out hmax k.i0 k.tc with ⟨_, e⟩ | ⟨h, _⟩ | ⟨h, _⟩
    · exact e
    · rw [h0] at h; cases h
    · rw [h0] at h; cases h
  have hz1 : s1.z_s = 0 ∧ s1.h2o = 0 ∧ s1.snowcover = false := by
    refine ⟨?_, ?_, by rw [h1]; exact h0⟩
    · rw [h1, k.start]; exact hz.1
    · rw [h1, k.start]; exact hz.2
  obtain ⟨a1, a2, a3⟩ := hz1
  rcases precip_event_ok k.pe with ⟨_, e⟩ | ⟨_, hs, t, ht, e⟩ | ⟨hp, hs, hm, t, ht, e⟩ | ⟨_, hs, _, e⟩
  · rw [k.dead2 (by rw [e]; exact a3), e]
    exact ⟨a1, a2⟩
  · rw [a3] at hs; cases hs
  · have htc : t.snowcover = false := by
      rcases init_snow_out hmax ht with q | q
      · obtain ⟨_, _, _, _, _, _, _, _, _, _, _, _, _, _, _, _, _, _, _, _, _, _, _, q⟩ := q
        rw [q]; exact a3
      · obtain ⟨_, _, _, _, _, _, _, _, _, _, _, _, _, _, _, _, _, q⟩ := q
        rw [q]; exact a3
    have e7 := k.dead2 (by rw [e]; exact htc)
    rw [e] at e7
    rw [e7] at hl ⊢
    have w := init_zero (s := freshSnow p'.input1 s1) hmax (hf hp).z a3 ht hl
    exact ⟨w.1, w.2⟩
  · rw [k.dead2 (by rw [e]; exact a3), e]
    exact ⟨a1, a2⟩

/-- C84, applicability: with admissible data the last record of a run whose run steps all began on bare ground is
resumable, whether it shows bare ground or snow that has just fallen. -/
theorem C84_fresh_resumable (g : Config) (hg : g.Tiled) (ha : g.AdmissibleStart) (hz : 0 ≤ g.init_z_s) (rows : List Rec)
    (hrows : ∀ r ∈ rows, r.Admissible) (ls : List (List (RStep Phys))) (m : Model) (h : RunTrace g rows ls m)
    (hbare : ∀ l ∈ ls, ∀ x ∈ l, x.pre.snow.layer_count = 0) (r : OutRec) (hr : m.output_list.getLast? = some r) :
    r.Resumable g := by
  obtain ⟨_, ⟨a, hs⟩, l, hl, x, hx, e⟩ := trace_last hg h hr
  obtain ⟨c, ts, hc, hts, ho, ht, hx'⟩ := trace_closed hg ha hrows h
  obtain ⟨q1, q2, q3, _⟩ := mkEnv_ok hc
  have hP := (h.induct (P := fun s => s.layer_count = 0 → s.z_s = 0 ∧ s.h2o = 0)
    (fun c' s hc' hs hl => by
      rw [hc] at hc'; cases hc'
      exact init_zero ho.max_z hz rfl hs hl)
    (fun l hl x hxl hp hl' => by
      obtain ⟨d, ⟨h1, h1'⟩, _, hf, h3, _⟩ := hx' l hl x hxl
      obtain ⟨s0, s1, s2, s3, s4, s5, s6, k⟩ := step_chain ho.max_z h1 h3
      have hb := hbare l hl x hxl
      exact k.bare_zero ho.max_z hb hf (hp hb) hl')).1
  obtain ⟨e1, e2, e3, e4, e5, e6, e7, e8, e9, e10, e11, e12, e13, e14, e15, e16, e17, e18, _⟩ := snapshot_snow hs
  obtain ⟨d, ⟨h1, h1'⟩, ⟨h2, _⟩, hf, h3, _⟩ := hx' l hl x hx
  obtain ⟨s0, s1, s2, s3, s4, s5, s6, k⟩ := step_chain ho.max_z h1 h3
  have hcov : x.post.snow.snowcover = false := by
    by_contra hn
    have := (k.persist ho.max_z (by simpa using hn)).2.2.2.2.2.2.2
    have := hbare l hl x hx
    omega
  have hfresh : 0 < r.layer_count → ∃ i s t, FreshPack c i s x.post.snow ∧ init_snow c (freshSnow i s) = .ok t ∧
      0 < t.layer_count ∧ t.layer_count = r.layer_count ∧ t.z_s = r.z_s ∧ t.rho = r.rho ∧ t.m_s = r.m_s ∧ t.h2o_sat = r.h2o_sat := by
    intro hp
    rcases k.ended ho.max_z hcov with h | h
    · rw [e] at h
      omega
    · have h' := h
      obtain ⟨_, _, t, ht, hlt, et⟩ := h'
      refine ⟨_, _, t, h, ht, hlt, ?_⟩
      rw [e15, e11, e1, e8, e14, ← e, et]
      exact ⟨rfl, rfl, rfl, rfl, rfl⟩
  refine ⟨fun h0 => ?_, fun hp => ?_, fun hp => ?_, fun hp => ?_⟩
  · rw [e11, e16]
    exact hP (by rw [← e15]; exact h0)
  · obtain ⟨i, s, t, _, ht, hlt, f1, f2, f3, f4, f5⟩ := hfresh hp
    rw [← f4, ← q2]
    rcases init_snow_out ho.max_z ht with q | q
    · obtain ⟨b1, _, _, _, _, b2, _⟩ := q
      rw [b2]; exact b1
    · obtain ⟨_, _, _, _, hz0, hzl, _⟩ := q
      have : t.layer_count = 0 := lc_eq_zero.mpr ⟨hz0, hzl.le⟩
      omega
  · obtain ⟨i, s, t, _, ht, hlt, f1, f2, f3, f4, f5⟩ := hfresh hp
    rw [← f1, ← f2, ← f3, ← q1, ← q2]
    exact init_split ho.max_z ht hlt
  · obtain ⟨i, s, t, _, ht, hlt, f1, f2, f3, f4, f5⟩ := hfresh hp
    rw [← f5, ← q3]
    rcases init_snow_out ho.max_z ht with q | q
    · obtain ⟨_, _, _, b0, _, _, _, _, _, _, _, b1, _⟩ := q
      rw [b1]
      intro hh
      apply b0
      have hI : (RHO_ICE : ℝ) ≠ 0 := by norm_num [RHO_ICE]
      have hW : (RHO_W0 : ℝ) ≠ 0 := by norm_num [RHO_W0]
      have : (freshSnow i s).h2o_sat * c.max_h2o_vol * RHO_W0 = RHO_ICE := by
        rw [mul_comm (freshSnow i s).h2o_sat, hh]
        field_simp
      rw [this, div_self hI, sub_self]
    · obtain ⟨_, _, _, _, hz0, hzl, _⟩ := q
      have : t.layer_count = 0 := lc_eq_zero.mpr ⟨hz0, hzl.le⟩
      omega

end

end Pysnobal
