import Verif.Lemmas.Capacity2
import Verif.Lemmas.Follow
import Verif.Lemmas.RunTrace
import Verif.Props.Ties
import Verif.Props.Water

/-! # A run step with a larger retention capacity, and runs that follow each other -/

namespace Pysnobal

noncomputable section

theorem capacity_hold {c : Env} {v : ℝ} (hv : c.max_h2o_vol ≤ v) (h0 : 0 ≤ c.max_h2o_vol) {s : Snow} (hi : Inv c s)
    (hz : 0 < s.z_s_0) (hr : s.rho ≤ 600) (hw : 0 ≤ s.h2o_total) (x y z : ℝ) :
    0 ≤ capacity c s ∧ capacity c s ≤ capacity (c.hold v) (s.cap x y z) := by
  refine ⟨capacity_nonneg h0 hi hz hr hw, ?_⟩
  have h1 := capacity_nonneg (c := c.hold (v - c.max_h2o_vol)) (by show 0 ≤ v - c.max_h2o_vol; linarith) (s := s)
    ⟨hi.sum, hi.zl, hi.full, hi.one, hi.bare, hi.pack, hi.flag⟩ hz hr hw
  have : capacity (c.hold v) (s.cap x y z) = capacity c s + capacity (c.hold (v - c.max_h2o_vol)) s := by
    unfold capacity h2o_left Env.hold Snow.cap
    dsimp only
    ring
  linarith

/-- Runoff from a pack that holds its water: a larger capacity changes nothing. -/
theorem cap_runoff {c : Env} {v : ℝ} (hv : c.max_h2o_vol ≤ v) (h0 : 0 ≤ c.max_h2o_vol) {s s' : Snow} (hi : Inv c s)
    (hr : s.snowcover = true → s.rho ≤ 600) (hw : 0 ≤ s.h2o_total) (x y z : ℝ) (h : runoff c s = .ok s')
    (hs : s.snowcover = true → s'.swi = 0) : ∃ t, runoff (c.hold v) (s.cap x y z) = .ok t ∧ SameCap s' t := by
  rcases runoff_ok h with ⟨h1, rfl⟩ | ⟨h1, h2, h3, h4, e⟩ | ⟨h1, h2, h3, h4, h5, rfl⟩
  · refine ⟨_, if_pos h1, ⟨x, y, z, rfl⟩⟩
  · exfalso
    have := hs h1
    rw [e, show (adj_snow c 0 (-(s.h2o_total - capacity c s)) { s with h2o_max := capacity c s, swi := s.h2o_total - capacity c s, h2o := capacity c s, h2o_sat := 1, h2o_vol := c.max_h2o_vol }).swi = s.h2o_total - capacity c s from by
      have h := congrArg Snow.swi (marks_adj_snow 0 0 (s.h2o_total - capacity c s) c 0 (-(s.h2o_total - capacity c s)) { s with h2o_max := capacity c s, swi := s.h2o_total - capacity c s, h2o := capacity c s, h2o_sat := 1, h2o_vol := c.max_h2o_vol, melt := 0, E_s := 0 })
      have h' := congrArg Snow.swi (marks_adj_snow s.melt s.E_s (s.h2o_total - capacity c s) c 0 (-(s.h2o_total - capacity c s)) { s with h2o_max := capacity c s, swi := s.h2o_total - capacity c s, h2o := capacity c s, h2o_sat := 1, h2o_vol := c.max_h2o_vol })
      exact h'] at this
    linarith
  · have hz := hi.flag h1
    obtain ⟨k1, k2⟩ := capacity_hold hv h0 hi hz (hr h1) hw x y z
    have k3 : capacity (c.hold v) (s.cap x y z) ≠ 0 := by
      have : 0 < capacity c s := lt_of_le_of_ne k1 (Ne.symm h5)
      exact (this.trans_le k2).ne'
    have hn : ¬ ((s.cap x y z).snowcover = false ∨ (s.cap x y z).layer_count = 0) := by
      rintro (h | h)
      · rw [show (s.cap x y z).snowcover = s.snowcover from rfl, h1] at h; cases h
      · have : s.layer_count = 0 := h
        omega
    refine ⟨_, ?_, ⟨s.h2o_total / capacity (c.hold v) (s.cap x y z), capacity (c.hold v) (s.cap x y z),
      s.h2o_total / capacity (c.hold v) (s.cap x y z) * v, rfl⟩⟩
    unfold runoff
    rw [if_neg hn]
    dsimp only
    rw [show (s.cap x y z).z_s = s.z_s from rfl, pdiv_of_ne h3, bind_ok]
    have e : h2o_left s.z_s (((s.cap x y z).m_s - (s.cap x y z).h2o_total) / s.z_s) (c.hold v).max_h2o_vol =
      capacity (c.hold v) (s.cap x y z) := rfl
    rw [e]
    have hle : ¬ s.h2o_total > capacity (c.hold v) (s.cap x y z) := not_lt.mpr (h4.trans k2)
    rw [if_neg (show ¬ (s.cap x y z).h2o_total > capacity (c.hold v) (s.cap x y z) from hle)]
    rw [pdiv_of_ne k3]
    rfl

theorem mass_balance_split (c : Env) (i : InputData) (dt : ℝ) (s : Snow) : mass_balance c i dt s =
    (beforeRunoff c i dt s >>= fun s => runoff c s >>= fun s => if s.snowcover then s.adjust_layer_temps else pure s) := by
  unfold mass_balance beforeRunoff
  simp only [bind_assoc]

theorem StepChain.before {c : Env} {dt : ℝ} {dl : InputData} {p p' : Phys} {s0 s1 s2 s3 s4 s5 s6 : Snow}
    (k : StepChain c dt dl p p' s0 s1 s2 s3 s4 s5 s6) : beforeRunoff c p'.input1 dt s0 = .ok s5 := by
  unfold beforeRunoff
  rw [k.tc, bind_ok, k.pe, bind_ok, k.sm, bind_ok, k.ec, bind_ok, k.hc]

theorem SameCapP.start {p q : Phys} (h : SameCapP p q) (dl : InputData) : SameCapP (stepStart dl p) (stepStart dl q) := by
  obtain ⟨⟨x, y, z, h1⟩, h2, h3, h4⟩ := h
  cases q
  simp only at h1 h2 h3 h4
  subst h1 h2 h3 h4
  exact ⟨⟨x, y, z, rfl⟩, rfl, rfl, rfl⟩

/-- The states before the runoff of a run step and of the same step with another capacity. -/
theorem hold_before {c : Env} (v : ℝ) {dt : ℝ} {dl : InputData} {p p' q : Phys} {s0 s1 s2 s3 s4 s5 s6 : Snow}
    (k : StepChain c dt dl p p' s0 s1 s2 s3 s4 s5 s6) (h : SameCapP p q)
    (hd : p'.input1.precip_now = true → p'.input1.h2o_sat_snow = 0) :
    ∃ q0 t5, energy_balance (c.hold v) dt (stepStart dl q) = .ok q0 ∧ q0.input1 = p'.input1 ∧
      q0.init_ustar = p'.init_ustar ∧ q0.init_factor = p'.init_factor ∧
      beforeRunoff (c.hold v) p'.input1 dt q0.snow = .ok t5 ∧ SameCap s5 t5 := by
  have he := cap_energy v c dt (h.start dl)
  rw [show energy_balance c dt (stepStart dl p) = .ok { p' with snow := s0 } from k.eb] at he
  obtain ⟨q0, e0, g1, g2, g3, g4⟩ := he.of_ok
  have g1' : SameCap s0 q0.snow := g1
  have hb := cap_beforeRunoff v c p'.input1 dt g1' hd
  rw [k.before] at hb
  obtain ⟨t5, e5, g5⟩ := hb.of_ok
  exact ⟨q0, t5, e0, g2, g3, g4, e5, g5⟩

/-- A run step that loses no water from a lasting pack is the same with a larger capacity. -/
theorem hold_step {c : Env} (hc : c.OK) {v : ℝ} (hv : c.max_h2o_vol ≤ v) {dt : ℝ} {dl : InputData} {p p' q : Phys}
    (hw : WetInv c p.snow) (hf : p'.input1.precip_now = true → StepForcing p'.input1)
    (hd : p'.input1.precip_now = true → p'.input1.h2o_sat_snow = 0)
    (hs : p'.snow.snowcover = true → p'.snow.swi = 0) (h : SameCapP p q) (hp : stepPhys c dt dl p = .ok p') :
    ∃ q', stepPhys (c.hold v) dt dl q = .ok q' ∧ SameCapP p' q' := by
  obtain ⟨s0, s1, s2, s3, s4, s5, s6, k⟩ := step_chain hc.max_z hw.1 hp
  have b5 := (k.books5 hc (k.books4 hc (k.books3 hc (k.books2 hc hw.2 hf)).1).1).1
  obtain ⟨q0, t5, e0, g2, g3, g4, e5, x, y, z, rfl⟩ := hold_before v k h hd
  have h6 : s5.snowcover = true → s6.swi = 0 := by
    intro h5
    have d1 := (k.drained hc.max_z h5).1
    have f := k.frame7
    have := hs (by rw [f]; exact d1)
    rw [f] at this
    exact this
  obtain ⟨t6, e6, x', y', z', rfl⟩ := cap_runoff hv hc.vol k.i5 (fun h5 => (k.flag5 hc.max_z h5).2.2) b5.total x y z k.ro h6
  have hfin : ∃ t7, (if (s6.cap x' y' z').snowcover then (s6.cap x' y' z').adjust_layer_temps else pure (s6.cap x' y' z')) = .ok t7 ∧
      SameCap p'.snow t7 := by
    rcases k.fin with ⟨h7, h8⟩ | ⟨h7, h8⟩
    · have ha := cap_adjust x' y' z' s6
      rw [h8] at ha
      rw [show (s6.cap x' y' z').snowcover = true from h7, if_pos rfl]
      exact ha.of_ok
    · rw [show (s6.cap x' y' z').snowcover = false from h7, if_neg (by simp), h8]
      exact ⟨_, rfl, x', y', z', rfl⟩
  obtain ⟨t7, e7, g7⟩ := hfin
  refine ⟨{ q0 with snow := t7 }, ?_, g7, g2, g3, g4⟩
  rw [stepPhys_eq, e0, bind_ok, g2, mass_balance_split, e5, bind_ok, e6, bind_ok, e7]
  rfl

/-! ### Following a whole run -/

/-- Lets a run with other physics follow a given one. -/
theorem follow_steps {c c' : Env} {ts : Tsteps} {all : Bool} {P Q : Phys → Phys → Prop} {A : AccT → AccT → Prop}
    {R : OutRec → OutRec → Prop} {Good : RStep Phys → Prop}
    (hf : ∀ dl, (snobalSim c ts all dl).Follows (snobalSim c' ts all dl) P Q A R Good)
    (hi : ∀ p q i, P p q → P { p with input1 := i } { q with input1 := i })
    {i1 : InputData} {rs : List Rec} {m m' : Model} {ls : List (List (RStep Phys))} (h : DataSteps c ts all i1 rs m ls m')
    (hg : ∀ l ∈ ls, ∀ x ∈ l, Good x) : ∀ n : Model, P m.phys n.phys → A m.acc n.acc → n.current_datetime = m.current_datetime →
      List.Forall₂ R m.output_list n.output_list → ∃ n', runSteps c' ts all i1 rs n = .ok n' ∧ P m'.phys n'.phys ∧
        n'.current_datetime = m'.current_datetime ∧ List.Forall₂ R m'.output_list n'.output_list := by
  induction h with
  | nil i1 m => exact fun n h1 _ h3 h4 => ⟨n, rfl, h1, h3, h4⟩
  | @cons i1 i2 r rs m m1 m' l ls k1 k2 k3 k4 ih =>
    intro n h1 h2 h3 h4
    obtain ⟨dl, hdl, he⟩ := k3
    obtain ⟨n1, e, g1, g2, g3, g4⟩ := (hf dl).executes (st := { m with phys := { m.phys with input1 := i1 } }) (st' := { n with phys := { n.phys with input1 := i1 } })
      (hi _ _ i1 h1) h2 h3 h4 he (hg l (by simp))
    obtain ⟨n', e', g5⟩ := ih (fun l' hl' => hg l' (by simp [hl'])) n1 g1 g2 g3 g4
    refine ⟨n', ?_, g5⟩
    unfold runSteps
    rw [k1, bind_ok, show do_data_tstep c' ts all i1 i2 n = .ok n1 from by unfold do_data_tstep; rw [hdl, bind_ok, e], bind_ok, e']

/-- A rule for records in addition to the rule for states. -/
theorem RunRule.and_record {c : Env} {ts : Tsteps} {A : Rec → Prop} {I : InputData → Phys → Prop}
    {D : InputData → InputData → Prop} {O : Snow → Prop} (R : RunRule c ts A I D O) (B : InputData → Prop) :
    RunRule c ts (fun r => A r ∧ ∀ i, InputData.new r = .ok i → B i) (fun i p => I i p ∧ B i) D O where
  record r i0 i p a n h := ⟨R.record r i0 i p a.1 n h.1, a.2 i n⟩
  delta r1 r2 i1 i2 lv d a1 a2 := R.delta r1 r2 i1 i2 lv d a1.1 a2.1
  enter i d p h1 h2 h3 := ⟨R.enter i d p h1 h2.1 h3, h2.2⟩
  step lv i d p p' h1 h2 h3 := ⟨(R.step lv i d p p' h1 h2.1 h3).1, (R.step lv i d p p' h1 h2.1 h3).2, h2.2⟩
  idle := R.idle.imp id fun h i p h' => h i p h'.1

end

end Pysnobal
