import Verif.Lemmas.Hold

/-! # C89: a larger retention capacity only acts through the runoff -/

namespace Pysnobal

noncomputable section

/-! ## Specification -/

/-- No wet snow falls: if there is snow in the precipitation, it is all snow, and colder than freezing. -/
def Rec.DrySnow (r : Rec) : Prop := 0 < r.m_pp → 0 < r.percent_snow → 1 ≤ r.percent_snow ∧ r.t_pp < 273.16

/-- Two records agree in every column except the three that report the retention capacity and the water relative to it. -/
def SameButCapacity (r r' : OutRec) : Prop :=
  r' = { r with h2o_sat := r'.h2o_sat, h2o_max := r'.h2o_max, h2o_vol := r'.h2o_vol }

/-- The states agree in the same sense. -/
def Snow.SameButCapacity (s s' : Snow) : Prop :=
  s' = { s with h2o_sat := s'.h2o_sat, h2o_max := s'.h2o_max, h2o_vol := s'.h2o_vol }

/-- What a step with a larger retention capacity leaves (`t`) compared to the same step without (`s`): the same energy, melt, vapour
exchange, depth, layers and cold content; less runoff or the same, and what does not run off stays in the pack as liquid water. -/
structure HoldsMore (s t : Snow) : Prop where
  en : t.en = s.en
  melt : t.melt = s.melt
  E_s : t.E_s = s.E_s
  z_s : t.z_s = s.z_s
  z_s_0 : t.z_s_0 = s.z_s_0
  z_s_l : t.z_s_l = s.z_s_l
  layer_count : t.layer_count = s.layer_count
  cc_s_0 : t.cc_s_0 = s.cc_s_0
  cc_s_l : t.cc_s_l = s.cc_s_l
  h2o_total : t.h2o_total = s.h2o_total
  snowcover : t.snowcover = s.snowcover
  swi : t.swi ≤ s.swi
  h2o : t.h2o - s.h2o = s.swi - t.swi
  m_s : t.m_s - s.m_s = s.swi - t.swi

/-! ## Run steps -/

theorem drySnow_sat {r : Rec} (h : r.DrySnow) {i : InputData} (hn : InputData.new r = .ok i) : i.h2o_sat_snow = 0 := by
  obtain ⟨rfl, _⟩ := new_ok hn
  unfold Rec.toInput
  dsimp only
  rw [if_neg]
  rintro ⟨h1, h2, h3⟩
  have hp : 0 < r.percent_snow := by
    by_contra h
    nlinarith [not_lt.mp h]
  obtain ⟨k1, k2⟩ := h h1 hp
  have k3 : ¬ 0 < r.m_pp - r.m_pp * r.percent_snow := by nlinarith
  have k2' : r.t_pp < FREEZE := by unfold FREEZE; linarith
  rcases h3 with h3 | h3
  · exact k3 h3
  · exact absurd k2' (not_lt.mpr h3)

/-- The run steps of a run with dry snow: what is known of each. -/
theorem trace_dry {g : Config} (hg : g.Tiled) (ha : g.AdmissibleStart) {rows : List Rec}
    (hr : ∀ r ∈ rows, r.Admissible ∧ r.DrySnow) {ls : List (List (RStep Phys))} {m : Model} (h : RunTrace g rows ls m)
    {c : Env} (hc : mkEnv g = .ok c) {ts : Tsteps} (hts : parse_time_steps g = .ok ts) :
    ∀ l ∈ ls, ∀ x ∈ l, ∃ d, stepPhys c (ts x.lv).time_step d x.pre = .ok x.post ∧ WetInv c x.pre.snow ∧
      (x.post.input1.precip_now = true → StepForcing x.post.input1) ∧ x.post.input1.h2o_sat_snow = 0 := by
  have ho := ha.toAdmissible.env hc
  have ht := parse_tile hg hts
  intro l hl x hx
  obtain ⟨i, d, hd, ⟨⟨h1, ha1⟩, hb⟩, h2, h3⟩ := RunRule.trace hc hts ((wetRule ho ht).and_record fun i => i.h2o_sat_snow = 0)
    (fun r i s hr hn hs => ⟨forcingRule_start hr.1 hn (wet_start ha hc hs), hr.2 i hn⟩)
    (fun r hm => ⟨(hr r hm).1, fun i hi => drySnow_sat (hr r hm).2 hi⟩) h l hl x hx
  obtain ⟨k1, k2⟩ := step_forcing hd ha1 h3
  exact ⟨d, h3, h1, k2, k1.sat.trans hb⟩

theorem hold_less {c : Env} (hc : c.OK) {v : ℝ} (hv : c.max_h2o_vol ≤ v) {dt : ℝ} {dl : InputData} {p p' q' : Phys}
    (hw : WetInv c p.snow) (hf : p'.input1.precip_now = true → StepForcing p'.input1)
    (hd : p'.input1.h2o_sat_snow = 0) (hp : stepPhys c dt dl p = .ok p') (hq : stepPhys (c.hold v) dt dl p = .ok q') :
    HoldsMore p'.snow q'.snow := by
  obtain ⟨s0, s1, s2, s3, s4, s5, s6, k⟩ := step_chain hc.max_z hw.1 hp
  have b5 := (k.books5 hc (k.books4 hc (k.books3 hc (k.books2 hc hw.2 hf)).1).1).1
  obtain ⟨q0, t5, e0, g2, g3, g4, e5, x, y, z, rfl⟩ := hold_before v k ⟨SameCap.refl p.snow, rfl, rfl, rfl⟩ (fun _ => hd)
  rw [stepPhys_eq, e0, bind_ok, g2, mass_balance_split, e5, bind_ok] at hq
  obtain ⟨t7, e7, hq⟩ := bind_eq_ok.mp hq
  cases hq
  obtain ⟨t6, e6, e7⟩ := bind_eq_ok.mp e7
  show HoldsMore p'.snow t7
  cases h5 : s5.snowcover
  · -- the pack is gone
    have f6 := k.dead5 h5
    have e6' : runoff (c.hold v) (s5.cap x y z) = .ok { s5.cap x y z with swi := (s5.cap x y z).h2o_total } :=
      if_pos (show (s5.cap x y z).snowcover = false ∨ (s5.cap x y z).layer_count = 0 from .inl h5)
    rw [e6'] at e6
    cases e6
    rw [if_neg (by show ¬ s5.snowcover = true; rw [h5]; simp)] at e7
    cases e7
    rw [f6]
    exact ⟨rfl, rfl, rfl, rfl, rfl, rfl, rfl, rfl, rfl, rfl, rfl, le_refl _, by show s5.h2o - s5.h2o = s5.h2o_total - s5.h2o_total; ring,
      by show s5.m_s - s5.m_s = s5.h2o_total - s5.h2o_total; ring⟩
  · have hz := k.i5.flag h5
    have hr := (k.flag5 hc.max_z h5).2.2
    obtain ⟨c1, c2⟩ := capacity_hold hv hc.vol k.i5 hz hr b5.total x y z
    have it : Inv (c.hold v) (s5.cap x y z) := ⟨k.i5.sum, k.i5.zl, k.i5.full, k.i5.one, fun h => absurd hz (not_lt.mpr h), k.i5.pack, k.i5.flag⟩
    have D := k.drained hc.max_z h5
    have D' : Drained (c.hold v) (s5.cap x y z) t6 := by
      rcases runoff_out (c := c.hold v) hc.max_z it hr e6 with ⟨h1, _⟩ | ⟨_, h2⟩
      · rw [show (s5.cap x y z).snowcover = s5.snowcover from rfl, h5] at h1; cases h1
      · exact h2
    obtain ⟨d1, _, d3, d4, d5, d6, d7, d8, d9, d10, d11, d12, d13, d14, d15, d16, d17, d18, d19⟩ := D
    obtain ⟨r1, _, r3, r4, r5, r6, r7, r8, r9, r10, r11, r12, r13, r14, r15, r16, r17, r18, r19⟩ := D'
    have f := k.frame7
    have f' : t7 = { t6 with t_s := t7.t_s, t_s_0 := t7.t_s_0, t_s_l := t7.t_s_l } := by
      rw [r1, if_pos rfl] at e7
      exact adjust_frame e7
    have hle : t6.swi ≤ s6.swi := by
      have h0 : (s5.cap x y z).h2o_total = s5.h2o_total := rfl
      rw [h0] at r19
      rcases d19 with ⟨a1, a2, _⟩ | ⟨a1, _, a2, _⟩ <;> rcases r19 with ⟨w1, w2, _⟩ | ⟨w1, _, w2, _⟩ <;> linarith
    have u1 : (s5.cap x y z).m_s = s5.m_s := rfl
    have u2 : (s5.cap x y z).h2o_total = s5.h2o_total := rfl
    rw [f, f']
    refine ⟨r10.trans d10.symm, r7.trans d7.symm, r8.trans d8.symm, r18.trans d18.symm, r16.trans d16.symm, r17.trans d17.symm, ?_,
      r11.trans d11.symm, r12.trans d12.symm, r6.trans d6.symm, r1.trans d1.symm, hle, ?_, ?_⟩
    · show t6.layer_count = s6.layer_count
      unfold Snow.layer_count
      rw [r16, r17, d16, d17]
      rfl
    · show t6.h2o - s6.h2o = s6.swi - t6.swi
      linarith
    · show t6.m_s - s6.m_s = s6.swi - t6.swi
      linarith

/-- C89, run steps: in every run step of every simulation with admissible data and no wet snowfall, if the configured retention capacity had been
larger (`v` instead of `max_h2o_vol`) and the step had been completed as well: no energy flux, melt, vapour exchange, layer or cold content
would have been different, no more water would have run off, and the water that would not have run off would have stayed in the pack. -/
theorem C89_holds_more_step (g : Config) (hg : g.Tiled) (ha : g.AdmissibleStart) (v : ℝ) (hv : g.max_h2o ≤ v) (rows : List Rec)
    (hr : ∀ r ∈ rows, r.Admissible ∧ r.DrySnow) (ls : List (List (RStep Phys))) (m : Model)
    (h : RunTrace g rows ls m) : ∃ c c' ts, mkEnv g = .ok c ∧ mkEnv { g with max_h2o := v } = .ok c' ∧ parse_time_steps g = .ok ts ∧
      ∀ l ∈ ls, ∀ x ∈ l, ∃ d, stepPhys c (ts x.lv).time_step d x.pre = .ok x.post ∧
        ∀ y, stepPhys c' (ts x.lv).time_step d x.pre = .ok y → HoldsMore x.post.snow y.snow := by
  obtain ⟨c, ts, hc, hts⟩ := simulate_parts h.simulate
  have hc' : mkEnv { g with max_h2o := v } = .ok (c.hold v) := by
    unfold mkEnv at hc ⊢
    obtain ⟨P, e, hc⟩ := bind_eq_ok.mp hc
    cases hc
    dsimp only
    rw [e]
    rfl
  refine ⟨c, c.hold v, ts, hc, hc', hts, fun l hl x hx => ?_⟩
  obtain ⟨d, k1, k2, k3, k4⟩ := trace_dry hg ha hr h hc hts l hl x hx
  refine ⟨d, k1, fun y hy => ?_⟩
  exact hold_less (ha.toAdmissible.env hc) (by rw [(mkEnv_ok hc).2.2.1]; exact hv) k2 k3 k4 k1 hy

/-! ## Runs -/

/-- The run step loses no water from a pack that lasts. -/
def HoldsWater (x : RStep Phys) : Prop := x.post.snow.snowcover = true → x.post.snow.swi = 0

theorem hold_follows {c : Env} (hc : c.OK) {v : ℝ} (hv : c.max_h2o_vol ≤ v) (ts : Tsteps) (all : Bool) (dl : Level → InputData) :
    (snobalSim c ts all dl).Follows (snobalSim (c.hold v) ts all dl) SameCapP SameCapP (· = ·) SameButCapacity fun x =>
      WetInv c x.pre.snow ∧ (x.post.input1.precip_now = true → StepForcing x.post.input1) ∧ x.post.input1.h2o_sat_snow = 0 ∧ HoldsWater x where
  intervals := rfl
  timedelta := rfl
  divided := rfl
  below lv p q h := by
    obtain ⟨⟨x, y, z, h1⟩, _⟩ := h
    show below_thold _ q.snow = below_thold _ p.snow
    rw [h1]
    rfl
  enter p q h := by
    obtain ⟨h1, h2, h3, h4⟩ := h
    show SameCapP (if p.input1.precip_now then _ else p) (if q.input1.precip_now then _ else q)
    rw [h2]
    cases p.input1.precip_now
    · exact ⟨h1, h2, h3, h4⟩
    · exact ⟨h1, rfl, h3, h4⟩
  phys lv p q p' h hp hg := by
    obtain ⟨g1, g2, g3, g4⟩ := hg
    exact hold_step hc hv g1 g2 (fun _ => g3) g4 h hp
  accum lv p q a b a' h hab ha := by
    subst hab
    refine ⟨a', ?_, rfl⟩
    obtain ⟨⟨x, y, z, h1⟩, _⟩ := h
    show accumulate _ q.snow a = _
    rw [h1]
    exact ha
  finish lv p q h := by
    obtain ⟨h1, h2, h3, h4⟩ := h
    exact ⟨h1, congrArg (fun i => InputData.add_deltas i (dl lv)) h2, h3, h4⟩
  snap p q a b t r h hab hs := by
    subst hab
    obtain ⟨x, y, z, h1⟩ : SameCap p.snow q.snow := h.elim (·.1) (·.1)
    show ∃ r', snapshot q.snow a.acc t = .ok r' ∧ _
    have hs' : snapshot p.snow a.acc t = .ok r := hs
    rw [h1]
    unfold snapshot at hs' ⊢
    cases ho : a.acc.swi_sum with
    | none => rw [ho] at hs'; cases hs'
    | some w =>
      rw [ho] at hs'
      cases hs'
      exact ⟨_, rfl, rfl⟩
  reset a b h := by rw [h]; rfl

/-- C89, runs: with admissible data, a dry initial pack and no wet snowfall, if no run step loses water from a pack that lasts, then the same run
with any larger retention capacity is completed as well and has the same records, except for the columns that report the capacity itself and
the water relative to it. -/
theorem C89_capacity_unused_run (g : Config) (hg : g.Tiled) (ha : g.AdmissibleStart) (v : ℝ) (hv : g.max_h2o ≤ v) (h0 : g.init_h2o_sat = 0)
    (rows : List Rec) (hr : ∀ r ∈ rows, r.Admissible ∧ r.DrySnow) (ls : List (List (RStep Phys))) (m : Model)
    (h : RunTrace g rows ls m) (hold : ∀ l ∈ ls, ∀ x ∈ l, HoldsWater x) :
    ∃ m', simulate { g with max_h2o := v } rows = .ok m' ∧ List.Forall₂ SameButCapacity m.output_list m'.output_list ∧
      m.phys.snow.SameButCapacity m'.phys.snow := by
  have htr := h
  obtain ⟨c, ts, i1, m0, r, rs, rfl, e1, e2, e3, e4, e5⟩ := h
  have ho := ha.toAdmissible.env e2
  have hvc : c.max_h2o_vol ≤ v := by rw [(mkEnv_ok e2).2.2.1]; exact hv
  have hc' : mkEnv { g with max_h2o := v } = .ok (c.hold v) := by
    unfold mkEnv at e2 ⊢
    obtain ⟨P, e, e2⟩ := bind_eq_ok.mp e2
    cases e2
    dsimp only
    rw [e]
    rfl
  have hi := cap_init v (recordSnow g).h2o_sat (recordSnow g).h2o_max (recordSnow g).h2o_vol c (recordSnow g) h0 h0
  have e4' := e4
  unfold mkModel at e4'
  obtain ⟨s, es, e4'⟩ := bind_eq_ok.mp e4'
  rw [es] at hi
  obtain ⟨s', es', hs'⟩ := hi.of_ok
  have hm' : mkModel { g with max_h2o := v } (c.hold v) i1 = .ok { m0 with phys := { m0.phys with snow := s' } } := by
    unfold mkModel
    rw [show init_snow (c.hold v) (recordSnow { g with max_h2o := v }) = .ok s' from es', bind_ok]
    cases e4'
    rfl
  obtain ⟨m', q1, q2, _, q4⟩ := follow_steps (fun dl => hold_follows ho hvc ts g.output_all dl)
    (fun p q i h => ⟨h.1, rfl, h.2.2⟩) e5 (fun l hl x hx => by
      obtain ⟨d, _, k2, k3, k4⟩ := trace_dry hg ha hr htr e2 e1 l hl x hx
      exact ⟨k2, k3, k4, hold l hl x hx⟩) { m0 with phys := { m0.phys with snow := s' } }
    (by cases e4'; exact ⟨hs', rfl, rfl, rfl⟩) rfl rfl (by
      show List.Forall₂ _ m0.output_list m0.output_list
      rw [(mkModel_ok e4).2.1]
      exact .nil)
  refine ⟨m', ?_, q4, ?_⟩
  · unfold simulate
    dsimp only
    rw [show parse_time_steps { g with max_h2o := v } = parse_time_steps g from rfl, e1, bind_ok, e3, bind_ok, hc', bind_ok, hm', bind_ok]
    exact q1
  · obtain ⟨x, y, z, e⟩ := q2.1
    rw [e]
    exact rfl

/-- C89, records: the same if no record reports any runoff. -/
theorem C89_capacity_unused_records (g : Config) (hg : g.Tiled) (ha : g.AdmissibleStart) (v : ℝ) (hv : g.max_h2o ≤ v) (h0 : g.init_h2o_sat = 0)
    (rows : List Rec) (hr : ∀ r ∈ rows, r.Admissible ∧ r.DrySnow) (m : Model) (h : simulate g rows = .ok m)
    (dry : ∀ o ∈ m.output_list, o.swi_sum = 0) :
    ∃ m', simulate { g with max_h2o := v } rows = .ok m' ∧ List.Forall₂ SameButCapacity m.output_list m'.output_list := by
  obtain ⟨ls, htr⟩ := simulate_trace h
  obtain ⟨m', q1, q2, _⟩ := C89_capacity_unused_run g hg ha v hv h0 rows hr ls m htr (by
    have hn := C30_water_nonneg_steps g hg ha rows (fun r hm => (hr r hm).1) ls m htr
    obtain ⟨c, ts, i1, m0, ra, rs, rfl, e1, e2, e3, e4, e5⟩ := htr
    obtain ⟨k0, k1, k2, k3, _⟩ := mkModel_ok e4
    obtain ⟨out, q1, _, _, q4, _⟩ := dataSteps_records (parse_tile hg e1) e5 k2
    rw [k1, List.nil_append] at q1
    rw [q1] at dry
    have hz : (out.map (·.swi_sum)).sum = 0 := by
      apply List.sum_eq_zero
      intro w hw
      obtain ⟨o, ho, rfl⟩ := List.mem_map.mp hw
      exact dry o ho
    rw [q4] at hz
    intro l hl x hx _
    have h1 : ∀ l ∈ ls, 0 ≤ (l.map fun x => x.post.snow.swi).sum := fun l hl => by
      apply List.sum_nonneg
      intro w hw
      obtain ⟨y, hy, rfl⟩ := List.mem_map.mp hw
      exact (hn l hl y hy).2.1
    have h2 : (l.map fun x => x.post.snow.swi).sum ≤ (ls.map fun l => (l.map fun x => x.post.snow.swi).sum).sum :=
      List.single_le_sum (by
        intro w hw
        obtain ⟨y, hy, rfl⟩ := List.mem_map.mp hw
        exact h1 y hy) _ (List.mem_map_of_mem hl)
    have h3 : x.post.snow.swi ≤ (l.map fun x => x.post.snow.swi).sum :=
      List.single_le_sum (by
        intro w hw
        obtain ⟨y, hy, rfl⟩ := List.mem_map.mp hw
        exact (hn l hl y hy).2.1) _ (List.mem_map_of_mem hx)
    have h4 := (hn l hl x hx).2.1
    rw [hz] at h2
    linarith)
  exact ⟨m', q1, q2⟩

end

end Pysnobal
