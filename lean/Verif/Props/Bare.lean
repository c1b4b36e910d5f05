import Verif.Lemmas.OneStep
import Verif.Props.Mass

/-! # C20, C22, C45: bare ground -/

namespace Pysnobal

noncomputable section

/-- Bare ground after a run step with runoff `w`. -/
def bareAfter (w : ℝ) (s : Snow) : Snow :=
  { s with h2o_total := w, snowcover := false, E := 0, en := Energy.zero, melt := 0, E_s := 0, swi := w }

/-- Rain a run step brings. -/
def rainOf (i : InputData) : ℝ := if i.precip_now then i.m_rain else 0

/-- On bare ground without snowfall a run step always succeeds; the stored water and the rain run off. -/
theorem stepPhys_bare {c : Env} {dt : ℝ} {dl : InputData} {p : Phys} (h : p.snow.layer_count = 0)
    (hs : p.input1.precip_now = true → ¬ 0 < (applied dl p.input1).m_snow) :
    stepPhys c dt dl p = .ok { p with
      input1 := applied dl p.input1
      snow := bareAfter (p.snow.h2o + rainOf (applied dl p.input1)) p.snow } := by
  unfold stepPhys
  have ha : (if p.input1.precip_now then { p with input1 := p.input1.update_precip_deltas dl } else p) =
      { p with input1 := applied dl p.input1 } := by
    unfold applied
    split <;> rfl
  rw [ha]
  have hl : Snow.layer_count { p.snow with h2o_total := 0 } = 0 := h
  have hl' : Snow.layer_count { p.snow with h2o_total := 0, snowcover := false } = 0 := h
  simp only [hl, gt_iff_lt, lt_irrefl, decide_false]
  unfold energy_balance
  simp only [hl', gt_iff_lt, lt_irrefl, if_false, bind_ok]
  unfold mass_balance
  have hpn : (applied dl p.input1).precip_now = p.input1.precip_now := by
    unfold applied InputData.update_precip_deltas; split <;> rfl
  cases hp : p.input1.precip_now
  · have hpn' : (applied dl p.input1).precip_now = false := by rw [hpn, hp]
    simp [time_compact, precip_event, hpn', snowmelt, evap_cond, h2o_compact, runoff, rainOf, bareAfter]
  · have hpn' : (applied dl p.input1).precip_now = true := by rw [hpn, hp]
    have hm := hs hp
    simp [time_compact, precip_event, hpn', snowmelt, evap_cond, h2o_compact, runoff, rainOf, bareAfter, hm]

theorem bare_below (t : ℝ) {s : Snow} (h : s.layer_count = 0) : below_thold t s = false := by
  simp [below_thold, h]

/-- A forcing record without snowfall. -/
def Rec.NoSnow (r : Rec) : Prop := 0 < r.m_pp → r.percent_snow = 0

/-- Bare ground with `w` of stored water, between data steps. -/
def BareModel (w : ℝ) (m : Model) : Prop :=
  m.phys.snow.layer_count = 0 ∧ m.phys.snow.h2o = w ∧ m.acc.time_since_out = 0

/-- A data step on bare ground without snowfall. -/
theorem do_data_bare {c : Env} {ts : Tsteps} (ht : TileOK ts) {all : Bool} {r1 : Rec}
    {i1 i2 : InputData} (n1 : InputData.new r1 = .ok i1) (hr : r1.NoSnow) {w : ℝ} {m : Model}
    (hm : BareModel w m) : ∃ m', do_data_tstep c ts all i1 i2 m = .ok m' ∧ BareModel w m' ∧
      m'.phys.snow = bareAfter (w + max r1.m_pp 0) m.phys.snow ∧
      m'.current_datetime = m.current_datetime + (ts .normal).timedelta ∧
      m'.output_list = m.output_list ++ [recordOf (bareAfter (w + max r1.m_pp 0) m.phys.snow)
        (m.current_datetime + (ts .normal).timedelta)] := by
  obtain ⟨h1, h2, h3⟩ := hm
  obtain ⟨rfl, -⟩ := new_ok n1
  have hpre : r1.toInput.precip_now = decide (0 < r1.m_pp) := rfl
  have hst := stepPhys_bare (c := c) (dt := (ts .normal).time_step)
    (dl := (deltaRec r1.toInput i2 1).toInput) (p := { m.phys with input1 := r1.toInput }) h1 (by
      intro hp
      have hp' : 0 < r1.m_pp := by simpa [Rec.toInput] using hp
      have := hr hp'
      simp only [applied, hp, if_true, InputData.update_precip_deltas, Rec.toInput, deltaRec, this]
      simp)
  have hrain : rainOf (applied (deltaRec r1.toInput i2 1).toInput r1.toInput) = max r1.m_pp 0 := by
    by_cases hp : 0 < r1.m_pp
    · have := hr hp
      have hpn : r1.toInput.precip_now = true := by rw [hpre]; simp [hp]
      rw [max_eq_left hp.le]
      simp [rainOf, applied, hpn, InputData.update_precip_deltas, Rec.toInput, deltaRec, this, hp]
    · have hpn : r1.toInput.precip_now = false := by rw [hpre]; simp [hp]
      rw [max_eq_right (not_lt.mp hp)]
      simp [rainOf, applied, hpn]
  simp only at hst
  rw [hrain, h2] at hst
  refine ⟨_, do_data_normal ht n1 h3 (bare_below _ h1) hst, ⟨?_, ?_, rfl⟩, rfl, rfl, rfl⟩
  · exact h1
  · exact h2

/-- Any number of data steps on bare ground without snowfall. -/
theorem runSteps_bare {c : Env} {ts : Tsteps} (ht : TileOK ts) {all : Bool} {w : ℝ} :
    ∀ (rs : List Rec) (r1 : Rec) (i1 : InputData) (m : Model), InputData.new r1 = .ok i1 →
      (∀ r ∈ r1 :: rs, r.NoSnow) → BareModel w m →
      ∃ m' out, runSteps c ts all i1 rs m = .ok m' ∧ BareModel w m' ∧
        m'.output_list = m.output_list ++ out ∧
        out.map (·.swi_sum) = (r1 :: rs).dropLast.map (fun r => w + max r.m_pp 0) ∧
        (∀ o ∈ out, ∃ (x : ℝ) (t : ℤ), o = recordOf (bareAfter x m.phys.snow) t) ∧
        (m' = m ∨ ∃ x, m'.phys.snow = bareAfter x m.phys.snow) := by
  intro rs
  induction rs with
  | nil =>
    intro r1 i1 m n1 _ hm
    exact ⟨m, [], rfl, hm, by simp, by simp, by simp, .inl rfl⟩
  | cons r rs ih =>
    intro r1 i1 m n1 hr hm
    have n2 : InputData.new r = .ok r.toInput := by
      rw [new_eq, if_neg]
      rintro ⟨h1, h2, _⟩
      rw [hr r (by simp) h1] at h2
      simp at h2
    obtain ⟨m1, h1, h2, h3, _, h4⟩ := do_data_bare (c := c) (all := all) (i2 := r.toInput) ht n1
      (hr r1 (by simp)) hm
    obtain ⟨m', out, k1, k2, k3, k4, k5, k6⟩ := ih r r.toInput m1 n2 (fun x hx => hr x (by simp [hx])) h2
    have hba : ∀ x y, bareAfter x (bareAfter y m.phys.snow) = bareAfter x m.phys.snow := fun _ _ => rfl
    refine ⟨m', recordOf (bareAfter (w + max r1.m_pp 0) m.phys.snow)
        (m.current_datetime + (ts .normal).timedelta) :: out, ?_, k2, ?_, ?_, ?_, .inr ?_⟩
    · unfold runSteps
      rw [n2, bind_ok, h1, bind_ok, k1]
    · rw [k3, h4, List.append_assoc]; rfl
    · simp only [List.map_cons, k4, List.dropLast_cons_cons]
      rfl
    · intro o ho
      rcases List.mem_cons.mp ho with rfl | ho
      · exact ⟨_, _, rfl⟩
      · obtain ⟨x, t, e⟩ := k5 o ho
        rw [h3, hba] at e
        exact ⟨x, t, e⟩
    · rcases k6 with rfl | ⟨x, hx⟩
      · exact ⟨_, h3⟩
      · rw [h3, hba] at hx
        exact ⟨x, hx⟩

/-! ## C20 -/

/-- The configuration starts without a snow pack. -/
def Config.StartsBare (g : Config) : Prop :=
  g.init_rho * g.init_z_s ≤ g.small_threshold ∨ g.init_z_s ≤ 0

/-- A record that reports no snow and no exchange of any kind apart from runoff. -/
structure OnlyRunoff (r : OutRec) : Prop where
  layers : r.layer_count = 0
  m_s : r.m_s = 0 ∧ r.m_s_0 = 0 ∧ r.m_s_l = 0
  water : r.h2o = 0 ∧ r.h2o_total = r.swi_sum
  melt : r.melt_sum = 0
  E_s : r.E_s_sum = 0
  fluxes : r.R_n_bar = 0 ∧ r.H_bar = 0 ∧ r.L_v_E_bar = 0 ∧ r.G_bar = 0 ∧ r.G_0_bar = 0 ∧ r.M_bar = 0 ∧
    r.delta_Q_bar = 0 ∧ r.delta_Q_0_bar = 0

theorem start_bare {g : Config} (hmax : 0 < g.max_active) (hb : g.StartsBare) {c : Env}
    (hc : mkEnv g = .ok c) : ∃ s, init_snow c (recordSnow g) = .ok s ∧ s.layer_count = 0 ∧ s.h2o = 0 ∧
      s.m_s = 0 ∧ s.m_s_0 = 0 ∧ s.m_s_l = 0 := by
  have hm : 0 < c.max_z_s_0 := by rw [(mkEnv_ok hc).1]; exact hmax
  have hthr := (mkEnv_ok hc).2.1
  have hl : (Snow.calc_layers c { recordSnow g with m_s := (recordSnow g).rho * (recordSnow g).z_s }).layer_count
      = 0 := by
    rcases calc_cases c hm { recordSnow g with m_s := (recordSnow g).rho * (recordSnow g).z_s } with
      h | h | h | h
    · exact h.2.2.2.2
    · exact h.2.2.2.2.2
    · exfalso
      obtain ⟨h1, h2, _⟩ := h
      rw [hthr] at h1
      rcases hb with hb | hb
      · exact absurd h1 (not_lt.mpr hb)
      · exact absurd h2 (not_lt.mpr hb)
    · exfalso
      obtain ⟨h1, h2, _⟩ := h
      rw [hthr] at h1
      rcases hb with hb | hb
      · exact absurd h1 (not_lt.mpr hb)
      · have h2' : c.max_z_s_0 < g.init_z_s := h2
        linarith
  refine ⟨initBare _, ?_, hl, rfl, rfl, rfl, rfl⟩
  unfold init_snow initLayers
  rw [if_pos hl]

/-- C20, run: on bare ground, whatever the forcing is as long as no snow falls, every simulation
completes; each data step reports exactly its rain as runoff and nothing else, and the ground stays
bare. -/
theorem C20_rain_runs_off (g : Config) (hg : g.Tiled) (hmax : 0 < g.max_active) (hb : g.StartsBare)
    (he : ∃ c, mkEnv g = .ok c) (r1 : Rec) (rs : List Rec) (hr : ∀ r ∈ r1 :: rs, r.NoSnow) :
    ∃ m, simulate g (r1 :: rs) = .ok m ∧
      m.output_list.map (·.swi_sum) = (r1 :: rs).dropLast.map (fun r => max r.m_pp 0) ∧
      (∀ o ∈ m.output_list, OnlyRunoff o) ∧
      m.phys.snow.layer_count = 0 ∧ m.phys.snow.m_s = 0 ∧ m.phys.snow.h2o = 0 := by
  obtain ⟨c, hc⟩ := he
  obtain ⟨ts, hts⟩ := parse_of_ne (g := g) (by have := hg.2.1; omega) (by have := hg.2.2.1; omega)
  have ht := parse_tile hg hts
  obtain ⟨s, hs, hs1, hs2, hs3, hs4, hs5⟩ := start_bare hmax hb hc
  have n1 : InputData.new r1 = .ok r1.toInput := by
    rw [new_eq, if_neg]
    rintro ⟨h1, h2, _⟩
    rw [hr r1 (by simp) h1] at h2
    simp at h2
  obtain ⟨m', out, k1, k2, k3, k4, k5, k6⟩ := runSteps_bare (c := c) (w := 0) ht (all := g.output_all) rs r1
    r1.toInput
    { phys := { snow := s, input1 := r1.toInput, init_ustar := none, init_factor := none }
      acc := { acc := { bar := Energy.zero, melt_sum := 0, E_s_sum := 0, swi_sum := none },
               time_since_out := 0 }
      current_datetime := g.start_date
      output_list := [] } n1 hr ⟨hs1, hs2, rfl⟩
  rw [List.nil_append] at k3
  refine ⟨m', ?_, ?_, ?_, k2.1, ?_, k2.2.1⟩
  · unfold simulate mkModel
    dsimp only
    rw [hts, bind_ok, n1, bind_ok, hc, bind_ok, hs]
    exact k1
  · rw [k3, k4]; simp
  · intro o ho
    rw [k3] at ho
    obtain ⟨x, t, rfl⟩ := k5 o ho
    exact ⟨hs1, ⟨hs3, hs4, hs5⟩, ⟨hs2, rfl⟩, rfl, rfl, rfl, rfl, rfl, rfl, rfl, rfl, rfl, rfl⟩
  · rcases k6 with rfl | ⟨x, hx⟩
    · exact hs3
    · rw [hx]; exact hs3

/-- C20, run step: in any simulation, a run step that starts without snow and stored water and in which
no snow falls produces exactly its rain as runoff, no melt, no vapour exchange, and leaves bare ground. -/
theorem C20_bare_step (g : Config) (hmax : 0 < g.max_active) (rows : List Rec)
    (ls : List (List (RStep Phys))) (m : Model) (h : RunTrace g rows ls m) :
    ∀ l ∈ ls, ∀ x ∈ l, x.pre.snow.layer_count = 0 → x.pre.snow.h2o = 0 →
      (x.post.input1.precip_now = true → x.post.input1.m_snow ≤ 0) →
      x.post.snow.swi = (if x.post.input1.precip_now then x.post.input1.m_rain else 0) ∧
      x.post.snow.melt = 0 ∧ x.post.snow.E_s = 0 ∧ x.post.snow.m_s = 0 ∧ x.post.snow.h2o = 0 ∧
      x.post.snow.layer_count = 0 := by
  obtain ⟨c, ts, hc, hts, hm, hx⟩ := trace_step hmax h
  intro l hl x hxl h0 hw hs
  obtain ⟨d, h1, h2, h3⟩ := hx l hl x hxl
  have hin := (stepPhys_input h3).1
  have hs' : x.pre.input1.precip_now = true → ¬ 0 < (applied d x.pre.input1).m_snow := by
    intro hp
    rw [hin] at hs
    refine not_lt.mpr (hs ?_)
    show (applied d x.pre.input1).precip_now = true
    unfold applied InputData.update_precip_deltas
    split <;> exact hp
  rw [stepPhys_bare h0 hs'] at h3
  have e := Except.ok.inj h3
  have hms : x.pre.snow.m_s = 0 := (h1.bare ((h1.lc_zero_iff hm).mp h0)).1
  rw [← e]
  refine ⟨?_, rfl, rfl, hms, hw, h0⟩
  show x.pre.snow.h2o + rainOf (applied d x.pre.input1) = _
  rw [hw, zero_add]
  rfl

/-! ## C45 -/

/-- C45: from bare ground without stored water, any number of dry data steps completes; every record
reports no runoff, no melt, no vapour exchange and no flux. -/
theorem C45_dry_bare_ground (g : Config) (hg : g.Tiled) (hmax : 0 < g.max_active) (hb : g.StartsBare)
    (he : ∃ c, mkEnv g = .ok c) (r1 : Rec) (rs : List Rec) (hr : ∀ r ∈ r1 :: rs, r.m_pp ≤ 0) :
    ∃ m, simulate g (r1 :: rs) = .ok m ∧ (∀ o ∈ m.output_list, OnlyRunoff o ∧ o.swi_sum = 0) := by
  obtain ⟨m, h1, h2, h3, _⟩ := C20_rain_runs_off g hg hmax hb he r1 rs
    (fun r hr' h => absurd h (not_lt.mpr (hr r hr')))
  refine ⟨m, h1, fun o ho => ⟨h3 o ho, ?_⟩⟩
  have : o.swi_sum ∈ m.output_list.map (·.swi_sum) := List.mem_map_of_mem ho
  rw [h2] at this
  obtain ⟨r, hr', e⟩ := List.mem_map.mp this
  rw [← e]
  exact max_eq_right (hr r (List.mem_of_mem_dropLast hr'))

/-- C45, fixed point: a snow-free, dry, quiescent snow state is reproduced exactly by any number of dry
data steps, from any model state. -/
theorem C45_fixed_point (g : Config) (hg : g.Tiled) (ts : Tsteps) (hts : parse_time_steps g = .ok ts)
    (c : Env) (all : Bool) (r1 : Rec) (i1 : InputData) (h1 : InputData.new r1 = .ok i1) (rs : List Rec)
    (hr : ∀ r ∈ r1 :: rs, r.m_pp ≤ 0) (m : Model) (h0 : m.acc.time_since_out = 0)
    (hl : m.phys.snow.layer_count = 0) (hw : m.phys.snow.h2o = 0)
    (hq : m.phys.snow = { m.phys.snow with h2o_total := 0, snowcover := false, E := 0, en := Energy.zero,
                                           melt := 0, E_s := 0, swi := 0 }) :
    ∃ m', runSteps c ts all i1 rs m = .ok m' ∧ m'.phys.snow = m.phys.snow := by
  have ht := parse_tile hg hts
  have key : ∀ (rs : List Rec) (r1 : Rec) (i1 : InputData) (m : Model), InputData.new r1 = .ok i1 →
      (∀ r ∈ r1 :: rs, r.m_pp ≤ 0) → BareModel 0 m → m.phys.snow = bareAfter 0 m.phys.snow →
      ∃ m', runSteps c ts all i1 rs m = .ok m' ∧ m'.phys.snow = m.phys.snow := by
    intro rs
    induction rs with
    | nil => intro r1 i1 m _ _ _ _; exact ⟨m, rfl, rfl⟩
    | cons r rs ih =>
      intro r1 i1 m n1 hr hm hq
      have ns : ∀ r ∈ r1 :: rs, r.NoSnow := fun r hr' h => absurd h (not_lt.mpr (hr r (by
        rcases List.mem_cons.mp hr' with h | h
        · simp [h]
        · simp [h])))
      have n2 : InputData.new r = .ok r.toInput := by
        rw [new_eq, if_neg]
        rintro ⟨h1, _⟩
        exact absurd h1 (not_lt.mpr (hr r (by simp)))
      obtain ⟨m1, a1, a2, a3, _⟩ := do_data_bare (c := c) (all := all) (i2 := r.toInput) ht n1
        (ns r1 (by simp)) hm
      have e : m1.phys.snow = m.phys.snow := by
        rw [a3, max_eq_right (hr r1 (by simp)), add_zero]; exact hq.symm
      obtain ⟨m', b1, b2⟩ := ih r r.toInput m1 n2 (fun x hx => hr x (by simp [hx])) a2 (by rw [e]; exact hq)
      refine ⟨m', ?_, b2.trans e⟩
      unfold runSteps
      rw [n2, bind_ok, a1, bind_ok, b1]
  exact key rs r1 i1 m h1 hr ⟨hl, hw, h0⟩ hq

/-! ## C22: stored water of a vanished pack runs off again and again -/

/-- C22, general form: bare ground that still carries water `w` in its `h2o` variable reports `w` as
runoff in every later dry data step, for as long as no snow falls. -/
theorem C22_stored_water_repeats (g : Config) (hg : g.Tiled) (ts : Tsteps)
    (hts : parse_time_steps g = .ok ts) (c : Env) (all : Bool) (r1 : Rec) (i1 : InputData)
    (h1 : InputData.new r1 = .ok i1) (rs : List Rec) (hr : ∀ r ∈ r1 :: rs, r.NoSnow) (m : Model)
    (h0 : m.acc.time_since_out = 0) (hl : m.phys.snow.layer_count = 0) :
    ∃ m' out, runSteps c ts all i1 rs m = .ok m' ∧ m'.output_list = m.output_list ++ out ∧
      out.map (·.swi_sum) = (r1 :: rs).dropLast.map (fun r => m.phys.snow.h2o + max r.m_pp 0) := by
  obtain ⟨m', out, k1, _, k3, k4, _⟩ := runSteps_bare (c := c) (all := all) (parse_tile hg hts) rs r1 i1 m h1 hr
    ⟨hl, rfl, h0⟩
  exact ⟨m', out, k1, k3, k4⟩

end

end Pysnobal
