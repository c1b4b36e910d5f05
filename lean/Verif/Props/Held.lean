import Verif.Props.Water

/-! # C85: the pack never holds more than was put into it -/

namespace Pysnobal

noncomputable section

variable {c : Env} {dt : ℝ} {dl : InputData} {p p' : Phys} {s0 s1 s2 s3 s4 s5 s6 : Snow}

theorem precip_event_lost {i : InputData} {s s' : Snow} (hmax : 0 < c.max_z_s_0) (hi : Inv c s)
    (hs0 : s.snowcover = false → s.m_s = 0) (h : precip_event c i s = .ok s') (hf : s'.snowcover = false) :
    s'.m_s = 0 ∨ i.precip_now = true ∧ s'.m_s = i.rho_snow * i.z_snow ∧ 0 < i.m_snow := by
  rcases precip_event_ok h with ⟨_, rfl⟩ | ⟨_, hs, t, ht, rfl⟩ | ⟨hp, hs, hm, t, h1, rfl⟩ | ⟨_, hs, _, rfl⟩
  · exact .inl (hs0 hf)
  · rcases adj_snow_cases hmax i.z_snow i.m_pp (hi.flag hs) with ⟨a, _⟩ | ⟨a, _⟩
    · rw [← ht] at a
      have h' : t.snowcover = false := hf
      rw [a.snowcover, hs] at h'; cases h'
    · rw [← ht] at a; exact .inl a.m_s
  · rcases init_snow_out hmax h1 with h2 | h2
    · obtain ⟨_, _, _, _, _, e, _⟩ := h2
      exact .inr ⟨hp, e, hm⟩
    · exact .inl h2.2.1
  · exact .inl (hs0 hf)

/-- A run step after which the cover flag is down leaves no snow, or snow that fell on bare ground in it. -/
theorem StepChain.lost (hmax : 0 < c.max_z_s_0) (k : StepChain c dt dl p p' s0 s1 s2 s3 s4 s5 s6)
    (h : p'.snow.snowcover = false) :
    p'.snow.m_s = 0 ∨ p'.input1.precip_now = true ∧ p'.snow.m_s = p'.input1.rho_snow * p'.input1.z_snow ∧
      0 < p'.input1.m_snow ∧ s1.snowcover = false := by
  have h1 : s1.snowcover = false → s1.m_s = 0 := by
    intro hf
    rcases time_compact_out hmax k.i0 k.tc with ⟨_, h2⟩ | ⟨h1, h2, _⟩ | ⟨_, h2⟩
    · have hl : s1.layer_count = 0 := by
        have h3 := k.flag0
        rw [← h2, hf] at h3
        have h' : ¬ p.snow.layer_count > 0 := by simpa using h3.symm
        have e : s1.layer_count = p.snow.layer_count := by rw [h2, k.start]; rfl
        omega
      exact (k.i1.bare ((k.i1.lc_zero_iff hmax).mp hl)).1
    · rw [h2.snowcover, h1] at hf; cases hf
    · exact h2.m_s
  cases h5 : s5.snowcover
  · rw [k.dead5 h5]
    show s5.m_s = 0 ∨ _ ∧ s5.m_s = _ ∧ _
    rcases h2o_compact_out hmax k.i4 k.hc with ⟨h4, e⟩ | ⟨h4, a | a⟩
    · rw [e]
      rcases evap_cond_out hmax k.i3 k.ec with ⟨h3, e⟩ | ⟨_, _, _, _, _, _, _, a | a⟩
      · rw [e]
        show s3.m_s = 0 ∨ _ ∧ s3.m_s = _ ∧ _
        rcases snowmelt_out hmax k.i2 k.sm with ⟨h2, e⟩ | ⟨h2, t, r, m, _, a | a⟩
        · rw [e]
          show s2.m_s = 0 ∨ _ ∧ s2.m_s = _ ∧ _
          rcases precip_event_lost hmax k.i1 h1 k.pe h2 with h | ⟨a, b, d⟩
          · exact .inl h
          · cases hf : s1.snowcover
            · exact .inr ⟨a, b, d, rfl⟩
            · left
              rcases precip_event_ok k.pe with ⟨_, e⟩ | ⟨_, hs, t, ht, e⟩ | ⟨_, hs, _⟩ | ⟨_, hs, _⟩
              · rw [e] at h2
                have h' : s1.snowcover = false := h2
                rw [hf] at h'; cases h'
              · rcases adj_snow_cases hmax p'.input1.z_snow p'.input1.m_pp (k.i1.flag hs) with ⟨a, _⟩ | ⟨a, _⟩
                · rw [← ht] at a
                  rw [e] at h2
                  have h' : t.snowcover = false := h2
                  rw [a.snowcover, hs] at h'; cases h'
                · rw [← ht] at a; rw [e]; exact a.m_s
              · rw [hf] at hs; cases hs
              · rw [hf] at hs; cases hs
        · rw [a.1.snowcover] at h3
          have h' : t.snowcover = s2.snowcover := by rw [m.frame]
          rw [h', h2] at h3; cases h3
        · exact .inl a.m_s
      · rename_i h3 _ _ _ _ _ _
        rw [a.1.snowcover] at h4
        have h' : s3.snowcover = false := h4
        rw [h3] at h'; cases h'
      · exact .inl a.m_s
    · rw [a.1.snowcover, h4] at h5; cases h5
    · exact .inl a.m_s
  · have hd := (k.drained hmax h5).1
    rw [k.frame7] at h
    have h' : s6.snowcover = false := h
    rw [hd] at h'; cases h'

/-- The mass after a run step is at most what was there, what fell and what condensed. -/
theorem StepChain.held (hmax : 0 < c.max_z_s_0) (k : StepChain c dt dl p p' s0 s1 s2 s3 s4 s5 s6)
    (hi : Inv c p.snow) (h : stepPhys c dt dl p = .ok p')
    (hf : p'.input1.precip_now = true → StepForcing p'.input1) :
    p'.snow.m_s ≤ max p.snow.m_s 0 + stepPrecip p' + max p'.snow.E_s 0 := by
  have hp : 0 ≤ stepPrecip p' := by
    unfold stepPrecip
    split
    · next h => have F := hf h; rw [F.m_pp]; linarith [F.snow, F.rain]
    · exact le_refl _
  have a1 := le_max_left p.snow.m_s 0
  have a2 := le_max_right p.snow.m_s 0
  have a3 := le_max_left p'.snow.E_s 0
  have a4 := le_max_right p'.snow.E_s 0
  cases hs : p'.snow.snowcover
  · rcases k.lost hmax hs with e | ⟨hp', e, _⟩
    · rw [e]; linarith
    · have F := hf hp'
      rw [e]
      unfold stepPrecip
      rw [if_pos hp', F.m_pp]
      have := F.depth
      have := F.rain
      nlinarith
  · have e := step_mass hmax hi h hs
    have h5 := (k.persist hmax hs).2.1
    obtain ⟨_, _, _, _, _, _, _, _, _, _, _, _, _, _, _, _, _, _, d⟩ := k.drained hmax h5
    have hw : 0 ≤ p'.snow.swi := by
      rw [k.frame7]
      show 0 ≤ s6.swi
      rcases d with ⟨d1, d2, _⟩ | ⟨_, _, d3, _⟩
      · rw [d2]; linarith
      · rw [d3]
    linarith

/-- C85, run step: with admissible precipitation a run step leaves at most the mass that was there, what fell in the
step and what condensed in it; on bare ground at most the snow that fell in it, whatever the rain. -/
theorem C85_step (g : Config) (hg : g.Tiled) (ha : g.AdmissibleStart) (rows : List Rec)
    (hr : ∀ r ∈ rows, r.Admissible) (ls : List (List (RStep Phys))) (m : Model) (h : RunTrace g rows ls m) :
    ∀ l ∈ ls, ∀ x ∈ l,
      x.post.snow.m_s ≤ max x.pre.snow.m_s 0 + x.precip + max x.post.snow.E_s 0 ∧
      (x.pre.snow.layer_count = 0 → x.post.snow.m_s ≤ if x.post.input1.precip_now then x.post.input1.m_snow else 0) := by
  obtain ⟨c, ts, _, _, hc, _, hx⟩ := trace_closed hg ha hr h
  intro l hl x hxl
  obtain ⟨d, h1, _, hf, h3, _⟩ := hx l hl x hxl
  obtain ⟨s0, s1, s2, s3, s4, s5, s6, k⟩ := step_chain hc.max_z h1.1 h3
  refine ⟨k.held hc.max_z h1.1 h3 hf, fun h0 => ?_⟩
  have hs : x.post.snow.snowcover = false := by
    cases hs : x.post.snow.snowcover
    · rfl
    · have := (k.persist hc.max_z hs).2.2.2.2.2.2.2
      omega
  rcases k.lost hc.max_z hs with e | ⟨hp', e, _⟩
  · rw [e]
    split
    · next h => exact (hf h).snow
    · exact le_refl _
  · rw [if_pos hp', e, ← (hf hp').depth, mul_comm]

theorem precip_nonneg_of {g : Config} (hg : g.Tiled) (ha : g.AdmissibleStart) {rows : List Rec}
    (hr : ∀ r ∈ rows, r.Admissible) {ls : List (List (RStep Phys))} {m : Model} (h : RunTrace g rows ls m) :
    ∀ l ∈ ls, ∀ x ∈ l, 0 ≤ x.precip := by
  obtain ⟨c, ts, _, _, hc, _, hx⟩ := trace_closed hg ha hr h
  intro l hl x hxl
  obtain ⟨d, _, _, hf, _, _⟩ := hx l hl x hxl
  unfold RStep.precip
  split
  · next h => have F := hf h; rw [F.m_pp]; linarith [F.snow, F.rain]
  · exact le_refl _

theorem telescope_ge {c : Env} {ts : Tsteps} {all : Bool} {i1 : InputData} {rs : List Rec}
    {m m' : Model} {ls : List (List (RStep Phys))} (h : DataSteps c ts all i1 rs m ls m') (f : Snow → ℝ)
    (g : RStep Phys → ℝ) (hf : ∀ l ∈ ls, ∀ x ∈ l, f x.post.snow ≤ f x.pre.snow + g x) :
    f m'.phys.snow ≤ f m.phys.snow + (ls.map fun l => (l.map g).sum).sum := by
  have := telescope_le h (fun s => - f s) (fun x => - g x) (fun l hl x hx => by
    have := hf l hl x hx
    linarith)
  have e : (ls.map fun l => (l.map fun x => - g x).sum).sum = - (ls.map fun l => (l.map g).sum).sum := by
    clear * -
    have e1 : ∀ l : List (RStep Phys), (l.map fun x => - g x).sum = - (l.map g).sum := by
      intro l
      induction l with
      | nil => simp
      | cons x l ih => simp only [List.map_cons, List.sum_cons, ih]; ring
    induction ls with
    | nil => simp
    | cons x l ih => simp only [List.map_cons, List.sum_cons]; rw [ih, e1]; ring
  rw [e] at this
  linarith

theorem sum_two {α : Type} (l : List α) (a b : α → ℝ) :
    (l.map fun x => a x + b x).sum = (l.map a).sum + (l.map b).sum := by
  induction l with
  | nil => simp
  | cons x l ih => simp only [List.map_cons, List.sum_cons, ih]; ring

/-- C85, run: with admissible data the mass in any record of a run (the last one; every initial segment of a run is a
run, C12) is at most the initial mass, all precipitation so far and all vapour that condensed in run steps so far. -/
theorem C85_run (g : Config) (hg : g.Tiled) (ha : g.AdmissibleStart) (rows : List Rec)
    (hr : ∀ r ∈ rows, r.Admissible) (ls : List (List (RStep Phys))) (m : Model) (h : RunTrace g rows ls m)
    (r : OutRec) (hl : m.output_list.getLast? = some r) :
    r.m_s ≤ max (g.init_rho * g.init_z_s) 0 + (rows.dropLast.map fun r => max r.m_pp 0).sum +
      (ls.flatten.map fun x => max x.post.snow.E_s 0).sum := by
  have hstep := fun l hl x hx => (C85_step g hg ha rows hr ls m h l hl x hx).1
  have hpos := fun l hl x hx => precip_nonneg_of hg ha hr h l hl x hx
  obtain ⟨c, ts, i1, m0, ra, rs, rfl, e1, e2, e3, e4, e5⟩ := h
  have ht := parse_tile hg e1
  have hm : 0 < c.max_z_s_0 := (ha.toAdmissible.env e2).max_z
  obtain ⟨k0, k1, k2, k3, _⟩ := mkModel_ok e4
  obtain ⟨out, q1, _, _, _, q5⟩ := dataSteps_records ht e5 k2
  have hp := dataSteps_precip ht e3 e5
  rw [k1, List.nil_append] at q1
  rcases q5 with ⟨rfl, _⟩ | ⟨o, r', rfl, e⟩
  · rw [q1] at hl; simp at hl
  · rw [q1] at hl
    have : r' = r := by simpa using hl
    subst this
    have t := telescope_ge e5 (fun s => max s.m_s 0) (fun x => x.precip + max x.post.snow.E_s 0)
      (fun l hl x hx => max_le (by linarith [hstep l hl x hx])
        (by linarith [hpos l hl x hx, le_max_right x.pre.snow.m_s 0, le_max_right x.post.snow.E_s 0]))
    have e6 : (ls.map fun l => (l.map fun x => x.precip + max x.post.snow.E_s 0).sum).sum =
        ((ra :: rs).dropLast.map fun r => max r.m_pp 0).sum + (ls.flatten.map fun x => max x.post.snow.E_s 0).sum := by
      rw [← hp]
      clear * -
      induction ls with
      | nil => simp
      | cons l ls ih =>
        simp only [List.map_cons, List.sum_cons, List.flatten_cons, List.map_append, List.sum_append, ih]
        rw [sum_two]
        show (l.map RStep.precip).sum + _ + _ = (l.map RStep.precip).sum + _ + _
        ring
    have h0 : max m0.phys.snow.m_s 0 ≤ max (g.init_rho * g.init_z_s) 0 := by
      rcases init_snow_out hm k3 with h | h
      · obtain ⟨_, _, _, _, _, h, _⟩ := h
        rw [h]; exact le_refl _
      · rw [h.2.1]; simp
    rw [e]
    have := le_max_left m.phys.snow.m_s 0
    have t' : max m.phys.snow.m_s 0 ≤ max m0.phys.snow.m_s 0 + _ := t
    rw [e6] at t'
    linarith

/-- C85, runs without condensation: the mass in the last record is at most the initial mass and all precipitation. -/
theorem C85_no_condensation (g : Config) (hg : g.Tiled) (ha : g.AdmissibleStart) (rows : List Rec)
    (hr : ∀ r ∈ rows, r.Admissible) (ls : List (List (RStep Phys))) (m : Model) (h : RunTrace g rows ls m)
    (hE : ∀ l ∈ ls, ∀ x ∈ l, x.post.snow.E_s ≤ 0) (r : OutRec) (hl : m.output_list.getLast? = some r) :
    r.m_s ≤ max (g.init_rho * g.init_z_s) 0 + (rows.dropLast.map fun r => max r.m_pp 0).sum := by
  have k := C85_run g hg ha rows hr ls m h r hl
  have e : (ls.flatten.map fun x => max x.post.snow.E_s 0).sum = 0 := by
    refine List.sum_eq_zero ?_
    simp only [List.mem_map, List.mem_flatten]
    rintro _ ⟨x, ⟨l, hl', hx⟩, rfl⟩
    exact max_eq_right (hE l hl' x hx)
  rw [e] at k
  linarith

end

end Pysnobal
