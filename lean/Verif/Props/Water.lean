import Verif.Props.Mass

/-! # C20, C21, C30: signs of the water quantities, and no water is ever lost -/

namespace Pysnobal

noncomputable section

/-- Admissible initial snow: not denser than ice, saturation between 0 and 1. -/
structure Config.AdmissibleStart (g : Config) : Prop extends g.Admissible where
  rho : g.init_rho ≤ RHO_ICE
  sat : 0 ≤ g.init_h2o_sat ∧ g.init_h2o_sat ≤ 1

/-- The snow invariant behind C21 and C30. -/
def WetInv (c : Env) (s : Snow) : Prop := Inv c s ∧ 0 ≤ s.h2o

theorem wetRule {c : Env} (hc : c.OK) {ts : Tsteps} (ht : TileOK ts) :
    RunRule c ts Rec.Admissible (fun i p => WetInv c p.snow ∧ Agree i p.input1) ShareOf (WetInv c) :=
  forcingRule ht fun lv d p p' ⟨hi, hh⟩ hf h => by
    obtain ⟨s0, s1, s2, s3, s4, s5, s6, k⟩ := step_chain hc.max_z hi h
    have := k.closed hc hh hf
    have hi' := stepPhys_inv hc.max_z hi h
    exact ⟨⟨hi', this.h2o⟩, hi', this.h2o⟩

theorem wet_start {g : Config} (ha : g.AdmissibleStart) {c : Env} (hc : mkEnv g = .ok c) {s : Snow}
    (hs : init_snow c (recordSnow g) = .ok s) : WetInv c s := by
  have ho := ha.toAdmissible.env hc
  refine ⟨init_snow_inv ho.max_z hs rfl, ?_⟩
  rcases init_snow_out ho.max_z hs with h | h
  · obtain ⟨_, h2, d, _, h3, _, _, _, _, h5, h6, _⟩ := h
    have := fresh_h2o_nonneg ho (s := recordSnow g) h2 ha.rho ha.sat h3
    rw [h6, h5]; exact this.2
  · obtain ⟨_, _, _, h2, _⟩ := h
    rw [h2]

/-- Every executed run step of a simulation with admissible data closes its ledger. -/
theorem trace_closed {g : Config} (hg : g.Tiled) (ha : g.AdmissibleStart) {rows : List Rec}
    (hr : ∀ r ∈ rows, r.Admissible) {ls : List (List (RStep Phys))} {m : Model}
    (h : RunTrace g rows ls m) :
    ∃ c ts, mkEnv g = .ok c ∧ parse_time_steps g = .ok ts ∧ c.OK ∧ TileOK ts ∧
      ∀ l ∈ ls, ∀ x ∈ l, ∃ d, WetInv c x.pre.snow ∧ WetInv c x.post.snow ∧
        (x.post.input1.precip_now = true → StepForcing x.post.input1) ∧
        stepPhys c (ts x.lv).time_step d x.pre = .ok x.post ∧ Closed x.pre.snow.m_s x.post := by
  obtain ⟨c, ts, hc, hts⟩ := simulate_parts h.simulate
  have ho := ha.toAdmissible.env hc
  have ht := parse_tile hg hts
  refine ⟨c, ts, hc, hts, ho, ht, fun l hl x hx => ?_⟩
  obtain ⟨i, d, hd, ⟨⟨h1, h1'⟩, ha1⟩, h2, h3⟩ := RunRule.trace hc hts (wetRule ho ht)
    (fun r i s hr hn hs => forcingRule_start hr hn (wet_start ha hc hs)) hr h l hl x hx
  obtain ⟨s0, s1, s2, s3, s4, s5, s6, k⟩ := step_chain ho.max_z h1 h3
  have hf := (step_forcing hd ha1 h3).2
  exact ⟨d, ⟨h1, h1'⟩, h2, hf, h3, k.closed ho h1' hf⟩

/-! ## C30 -/

/-- C30, run steps: with admissible data, melt, runoff, retained water and total liquid water are never
negative, in any run step of any simulation. -/
theorem C30_water_nonneg_steps (g : Config) (hg : g.Tiled) (ha : g.AdmissibleStart) (rows : List Rec)
    (hr : ∀ r ∈ rows, r.Admissible) (ls : List (List (RStep Phys))) (m : Model)
    (h : RunTrace g rows ls m) : ∀ l ∈ ls, ∀ x ∈ l,
      0 ≤ x.post.snow.melt ∧ 0 ≤ x.post.snow.swi ∧ 0 ≤ x.post.snow.h2o ∧ 0 ≤ x.post.snow.h2o_total := by
  obtain ⟨c, ts, _, _, _, _, hx⟩ := trace_closed hg ha hr h
  intro l hl x hxl
  obtain ⟨d, _, _, _, _, k⟩ := hx l hl x hxl
  exact ⟨k.melt, k.swi, k.h2o, k.total⟩

/-- Every record of a run summarises some of its run steps. -/
theorem records_summarise {g : Config} (hg : g.Tiled) {rows : List Rec}
    {ls : List (List (RStep Phys))} {m : Model} (h : RunTrace g rows ls m) {ts : Tsteps}
    (hts : parse_time_steps g = .ok ts) : ∀ r ∈ m.output_list, ∃ l ∈ ls, ∃ l', l' ≠ [] ∧ (∀ x ∈ l', x ∈ l) ∧
      Summarises (l'.map (stepOf ts)) r := by
  obtain ⟨c, ts', i1, m0, ra, rs, rfl, e1, e2, e3, e4, e5⟩ := h
  rw [hts] at e1
  cases e1
  have ht := parse_tile hg hts
  obtain ⟨k0, k1, k2, k3, _⟩ := mkModel_ok e4
  have key : ∀ {i1 : InputData} {rs : List Rec} {m m' : Model} {ls : List (List (RStep Phys))},
      DataSteps c ts g.output_all i1 rs m ls m' → m.acc.time_since_out = 0 →
      ∀ r ∈ m'.output_list, r ∈ m.output_list ∨ ∃ l ∈ ls, ∃ l', l' ≠ [] ∧ (∀ x ∈ l', x ∈ l) ∧
        Summarises (l'.map (stepOf ts)) r := by
    intro i1 rs m m' ls h
    induction h with
    | nil => exact fun _ r hr => .inl hr
    | @cons i1 i2 r0 rs m m1 m' l ls h1 h2 h3 h4 ih =>
      intro h0 r hr
      rcases ih (data_time_since_out ht h0 h2) r hr with h | ⟨l1, hl1, h⟩
      · obtain ⟨dl, mid, hdl, hrn, hl, ho⟩ := h3.parts
        have hne : l ≠ [] := by
          have := IsDataStep.ne_nil (by simp [ht.n_normal]) (by simpa using ht.m_pos)
            (by simpa using ht.s_pos) hl
          simpa using this
        cases hall : g.output_all
        · rw [hall] at hrn ho
          rcases ho with ⟨ho, _⟩ | ⟨_, ho⟩
          · cases ho
          · obtain ⟨r', hr', e⟩ := output_ok ho
            have acc := runs_acc_normal ht hrn (xs := []) ⟨by simp, by simp [duration, h0],
              fun h => absurd rfl h⟩
            obtain ⟨r2, q1, q2, _⟩ := snapshot_accFor acc (by simpa using hne) mid.phys.snow
              mid.current_datetime
            have q3 : snapshot mid.phys.snow mid.acc.acc mid.current_datetime = .ok r' := hr'
            rw [q1] at q3
            cases q3
            rw [e] at h
            have h' : r ∈ mid.output_list ++ [r'] := h
            rcases List.mem_append.mp h' with h' | h'
            · left
              rw [hrn.output_nil rfl] at h'
              exact h'
            · rw [List.mem_singleton] at h'
              subst h'
              exact .inr ⟨l, by simp, l, hne, fun x hx => hx, by simpa using q2⟩
        · rw [hall] at hrn ho
          rcases ho with ⟨_, rfl⟩ | ⟨ho, _⟩
          · obtain ⟨_, out, q1, q2⟩ := runs_acc_all ht hrn h0
            rw [q1] at h
            rcases List.mem_append.mp h with h | h
            · exact .inl h
            · right
              obtain ⟨n, hn, e⟩ := List.getElem_of_mem h
              have hlen := q2.length_eq
              refine ⟨l, by simp, [l[n]'(by omega)], by simp, by simp, ?_⟩
              have := (List.forall₂_iff_get.mp q2).2 n (by omega) hn
              simp only [List.get_eq_getElem, e] at this
              simpa using this
          · cases ho
      · exact .inr ⟨l1, by simp [hl1], h⟩
  intro r hr
  rcases key e5 k2 r hr with h | h
  · rw [k1] at h; simp at h
  · exact h

/-- C30, records: with admissible data the columns melt, swi, h2o and h2o_total of every record are
non-negative. -/
theorem C30_water_nonneg_records (g : Config) (hg : g.Tiled) (ha : g.AdmissibleStart) (rows : List Rec)
    (hr : ∀ r ∈ rows, r.Admissible) (m : Model) (h : simulate g rows = .ok m) :
    ∀ r ∈ m.output_list, 0 ≤ r.melt_sum ∧ 0 ≤ r.swi_sum ∧ 0 ≤ r.h2o ∧ 0 ≤ r.h2o_total := by
  obtain ⟨ls, htr⟩ := simulate_trace h
  obtain ⟨c, ts, hc, hts, ho, ht, hx⟩ := trace_closed hg ha hr htr
  intro r hro
  obtain ⟨l, hl, l', hne, hsub, hsum⟩ := records_summarise hg htr hts r hro
  have hst := C30_water_nonneg_steps g hg ha rows hr ls m htr l hl
  obtain ⟨_, _, _, _, _, _, _, _, _, q2, q3⟩ := hsum
  have hO := (RunRule.simulate (O := fun s => 0 ≤ s.h2o ∧ 0 ≤ s.h2o_total) hc hts
    (forcingRule (S := WetInv c) ht fun lv d p p' ⟨hi, hh⟩ hf h => by
      obtain ⟨s0, s1, s2, s3, s4, s5, s6, k⟩ := step_chain ho.max_z hi h
      have := k.closed ho hh hf
      exact ⟨⟨this.h2o, this.total⟩, stepPhys_inv ho.max_z hi h, this.h2o⟩)
    (fun r i s hr hn hs => forcingRule_start hr hn (wet_start ha hc hs)) hr h).2 r hro
  obtain ⟨s, a, t, ⟨o1, o2⟩, hsn⟩ := hO
  obtain ⟨_, _, _, _, _, _, _, _, _, _, _, _, _, _, _, w1, _, _, w2⟩ := snapshot_snow hsn
  refine ⟨?_, ?_, by rw [w1]; exact o1, by rw [w2]; exact o2⟩
  · rw [q2]
    unfold total
    refine List.sum_nonneg ?_
    simp only [List.mem_map]
    rintro _ ⟨_, ⟨x, hx', rfl⟩, rfl⟩
    exact (hst x (hsub x hx')).1
  · rw [q3]
    unfold total
    refine List.sum_nonneg ?_
    simp only [List.mem_map]
    rintro _ ⟨_, ⟨x, hx', rfl⟩, rfl⟩
    exact (hst x (hsub x hx')).2.1

/-! ## C21 -/

/-- C21, run step: with admissible data no run step loses water: what is left as snow or has run off is
at least what was there plus precipitation and vapour exchange.  (With `C19_mass_balance_step` a surplus
needs the snow cover flag to be down at the end of the step.) -/
theorem C21_never_a_deficit_step (g : Config) (hg : g.Tiled) (ha : g.AdmissibleStart) (rows : List Rec)
    (hr : ∀ r ∈ rows, r.Admissible) (ls : List (List (RStep Phys))) (m : Model)
    (h : RunTrace g rows ls m) : ∀ l ∈ ls, ∀ x ∈ l,
      x.pre.snow.m_s + x.precip + x.post.snow.E_s ≤ x.post.snow.m_s + x.post.snow.swi := by
  obtain ⟨c, ts, _, _, _, _, hx⟩ := trace_closed hg ha hr h
  intro l hl x hxl
  obtain ⟨d, _, _, _, _, k⟩ := hx l hl x hxl
  cases hs : x.post.snow.snowcover
  · exact k.dead hs
  · rw [k.alive hs]
    have : stepPrecip x.post = x.precip := rfl
    rw [this]; linarith

theorem telescope_le {c : Env} {ts : Tsteps} {all : Bool} {i1 : InputData} {rs : List Rec}
    {m m' : Model} {ls : List (List (RStep Phys))} (h : DataSteps c ts all i1 rs m ls m') (f : Snow → ℝ)
    (g : RStep Phys → ℝ) (hf : ∀ l ∈ ls, ∀ x ∈ l, f x.pre.snow + g x ≤ f x.post.snow) :
    f m.phys.snow + (ls.map fun l => (l.map g).sum).sum ≤ f m'.phys.snow := by
  have h1 := h.telescope f (fun x => f x.post.snow - f x.pre.snow) (fun l hl x hx => by ring)
  have h2 : (ls.map fun l => (l.map g).sum).sum ≤
      (ls.map fun l => (l.map fun x => f x.post.snow - f x.pre.snow).sum).sum := by
    refine List.sum_le_sum fun l hl => List.sum_le_sum fun x hx => ?_
    have := hf l hl x hx
    linarith
  linarith

/-- C21, run: with admissible data no run loses water: final mass plus all reported runoff is at least
the initial mass plus all precipitation plus all reported vapour exchange.  (The initial mass is the
mass of the pack `Snobal` starts with; an initial pack not heavier than the small threshold is dropped
by the constructor, before the first step.) -/
theorem C21_never_a_deficit_run (g : Config) (hg : g.Tiled) (ha : g.AdmissibleStart) (rows : List Rec)
    (hr : ∀ r ∈ rows, r.Admissible) (m : Model) (h : simulate g rows = .ok m) :
    (if g.init_rho * g.init_z_s ≤ g.small_threshold ∨ g.init_z_s ≤ 0 then 0
        else g.init_rho * g.init_z_s) +
      (rows.dropLast.map fun r => max r.m_pp 0).sum + (m.output_list.map (·.E_s_sum)).sum ≤
    m.phys.snow.m_s + (m.output_list.map (·.swi_sum)).sum := by
  obtain ⟨ls, htr⟩ := simulate_trace h
  have hstep := C21_never_a_deficit_step g hg ha rows hr ls m htr
  obtain ⟨c, ts, i1, m0, ra, rs, rfl, e1, e2, e3, e4, e5⟩ := htr
  have ht := parse_tile hg e1
  have hm : 0 < c.max_z_s_0 := (ha.toAdmissible.env e2).max_z
  obtain ⟨k0, k1, k2, k3, _⟩ := mkModel_ok e4
  obtain ⟨out, q1, q2, _, q4, _⟩ := dataSteps_records ht e5 k2
  have hp := dataSteps_precip ht e3 e5
  have := telescope_le e5 (·.m_s) (fun x => x.precip + x.post.snow.E_s - x.post.snow.swi)
    (fun l hl x hx => by have := hstep l hl x hx; linarith)
  have e : (fun l : List (RStep Phys) => (l.map fun x => x.precip + x.post.snow.E_s - x.post.snow.swi).sum)
      = fun l => (l.map fun x => x.precip).sum + (l.map fun x => x.post.snow.E_s).sum -
          (l.map fun x => x.post.snow.swi).sum := by
    funext l; exact sum_three _ _ _ _
  rw [e, sum_three] at this
  simp only [RStep.precip] at this
  rw [k1, List.nil_append] at q1
  rw [q1, q2, q4, ← hp]
  have hi : m0.phys.snow.m_s = (if g.init_rho * g.init_z_s ≤ g.small_threshold ∨ g.init_z_s ≤ 0 then 0
        else g.init_rho * g.init_z_s) := by
    have hst := (mkEnv_ok e2).2.1
    rcases init_snow_out hm k3 with h | h
    · obtain ⟨h1, h2, _, _, _, h, _⟩ := h
      have h1' : g.small_threshold < g.init_rho * g.init_z_s := by rw [← hst]; exact h1
      have h2' : 0 < g.init_z_s := h2
      rw [if_neg (by push Not; exact ⟨h1', h2'⟩), h]
      rfl
    · obtain ⟨h1, h, _⟩ := h
      have h1' : g.init_rho * g.init_z_s ≤ g.small_threshold ∨ g.init_z_s ≤ 0 := by
        rw [← hst]; exact h1
      rw [if_pos h1', h]
  rw [← hi]
  linarith

end

end Pysnobal
