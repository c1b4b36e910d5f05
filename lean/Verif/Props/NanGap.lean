import Verif.Lemmas.NanGapRun

/-! # C78: a run with a blank row does not stop

The missing value is not reported: where the run goes through with the cell filled in, it goes through with the cell
blank.  No exception, and no snow. -/

namespace Pysnobal

noncomputable section

open Classical

/-- `n` is the row `r` with some of its six weather cells left blank. -/
structure NRec.FilledBy (n : NRec) (r : Rec) : Prop where
  S_n : n.S_n = none ∨ n.S_n = some r.S_n
  I_lw : n.I_lw = none ∨ n.I_lw = some r.I_lw
  t_a : n.t_a = none ∨ n.t_a = some r.t_a
  e_a : n.e_a = none ∨ n.e_a = some r.e_a
  u : n.u = none ∨ n.u = some r.u
  t_g : n.t_g = none ∨ n.t_g = some r.t_g

namespace Nan

theorem FilledBy.gaps {n : NRec} {r : Rec} (h : n.FilledBy r) {d : NInput} {i : InputData} (hd : NInput.new n = .ok d)
    (hi : InputData.new r = .ok i) (h1 : d.precip_now = false) (h2 : i.precip_now = false) : d.Gaps i := by
  have e : NInput.new r.cells = .ok i.cells := by rw [cells_new, hi]; rfl
  have e' := nnew_ok e
  rw [nnew_ok hd] at h1 ⊢
  have f : i.S_n = r.S_n ∧ i.I_lw = r.I_lw ∧ i.t_a = r.t_a ∧ i.e_a = r.e_a ∧ i.u = r.u ∧ i.t_g = r.t_g := by
    refine ⟨?_, ?_, ?_, ?_, ?_, ?_⟩
    · exact Option.some.inj (congrArg NInput.S_n e')
    · exact Option.some.inj (congrArg NInput.I_lw e')
    · exact Option.some.inj (congrArg NInput.t_a e')
    · exact Option.some.inj (congrArg NInput.e_a e')
    · exact Option.some.inj (congrArg NInput.u e')
    · exact Option.some.inj (congrArg NInput.t_g e')
  obtain ⟨f1, f2, f3, f4, f5, f6⟩ := f
  refine ⟨?_, ?_, ?_, ?_, ?_, ?_, h1.trans h2.symm⟩
  · rw [f1]; exact h.S_n
  · rw [f2]; exact h.I_lw
  · rw [f3]; exact h.t_a
  · rw [f4]; exact h.e_a
  · rw [f5]; exact h.u
  · rw [f6]; exact h.t_g

/-- The first run step of a dry data step. -/
theorem first_step {c : Env} {ts : Tsteps} {all : Bool} {dl : Level → NInput} {st st' : Model} {l : List (RStep Phys)}
    (h : (snobalSim c ts all dl).Runs st l st') : l ≠ [] → st.phys.input1.precip_now = false →
    ∃ lv p, stepPhys c (ts lv).time_step (dl lv) st.phys = .ok p := by
  induction h with
  | nil => exact fun h => absurd rfl h
  | @enter st st' l hr ih =>
    intro hl hp
    have : (snobalSim c ts all dl).enter .small st.phys = st.phys := by
      simp only [snobalSim]
      rw [if_neg (by rw [hp]; simp)]
    rw [this] at ih
    exact ih hl hp
  | @step st st1 st2 l lv p hb hp hd hr ih => exact fun _ _ => ⟨lv, p, hp⟩

theorem simulate_cells {g : Config} {rows : List Rec} {m : Pysnobal.Model} (e : Pysnobal.simulate g rows = .ok m) :
    ∃ M, simulate g (rows.map Rec.cells) = .ok M ∧ ModelReads M m := by
  have h := simulate_s g (fun ts _ => faithful_cells ts)
      (List.forall₂_map_left_iff.mpr (List.forall₂_same.mpr fun (x : Rec) (_ : x ∈ rows) => rfl))
  rw [e] at h
  cases hr : simulate g (rows.map Rec.cells) with
  | error x => rw [hr] at h; exact h.elim
  | ok M => rw [hr] at h; exact ⟨M, rfl, h⟩

/-- The row at the end of an interval that is not subdivided is not read in it. -/
theorem simulate_next {g : Config} (hg : g.Tiled) {rows : List Rec} {r1 : Rec} {n1 : NRec} {i : NInput} {m1 : Pysnobal.Model}
    (e1 : Pysnobal.simulate g (rows ++ [r1]) = .ok m1) (hn : NInput.new n1 = .ok i)
    (thick : ∀ m0, Pysnobal.simulate g rows = .ok m0 → Pysnobal.below_thold g.norm_threshold m0.phys.snow = false) :
    ∃ M, simulate g (rows.map Rec.cells ++ [n1]) = .ok M ∧ M.phys.snow = Snow.ofReal m1.phys.snow ∧
      M.phys.init_ustar = m1.phys.init_ustar.map some ∧ M.phys.init_factor = m1.phys.init_factor.map some := by
  obtain ⟨M1, h1, k1, k2, k3, _⟩ := simulate_cells e1
  rw [List.map_append, List.map_singleton] at h1
  by_cases h0 : rows = []
  · subst h0
    simp only [List.map_nil, List.nil_append, simulate] at h1 ⊢
    obtain ⟨ts, q1, h1⟩ := bind_eq_ok.mp h1
    obtain ⟨i', q2, h1⟩ := bind_eq_ok.mp h1
    obtain ⟨c, q3, h1⟩ := bind_eq_ok.mp h1
    obtain ⟨m0, q4, h1⟩ := bind_eq_ok.mp h1
    have h1 : m0 = M1 := Except.ok.inj h1
    subst h1
    unfold mkModel at q4
    obtain ⟨s, q5, q4⟩ := bind_eq_ok.mp q4
    cases q4
    rw [q1, bind_ok, hn, bind_ok, q3, bind_ok]
    unfold mkModel
    rw [q5, bind_ok]
    exact ⟨_, rfl, k1, k2, k3⟩
  · obtain ⟨M0, h2, _⟩ := simulate_output hg (by simpa using h0) _ h1
    obtain ⟨c, ts, i0, _, hts, _, _, hk⟩ := simulate_continue hg h2
    rw [hk] at h1 ⊢
    simp only [runSteps] at h1 ⊢
    obtain ⟨j, hj, h1⟩ := bind_eq_ok.mp h1
    obtain ⟨M1', h3, h1⟩ := bind_eq_ok.mp h1
    have h1 : M1' = M1 := Except.ok.inj h1
    subst h1
    have hs := simulate_s g (fun ts _ => faithful_cells ts)
      (List.forall₂_map_left_iff.mpr (List.forall₂_same.mpr fun (x : Rec) (_ : x ∈ rows) => rfl))
    rw [h2] at hs
    cases hm : Pysnobal.simulate g rows with
    | error x => rw [hm] at hs; exact hs.elim
    | ok m0 =>
      rw [hm] at hs
      obtain ⟨_, _, t1, _, _⟩ := parse_ok hts
      obtain ⟨M, h4, j1, j2, j3⟩ := data_next (parse_tile hg hts) (i3 := i) (by
        rw [show M0.phys.snow = Snow.ofReal m0.phys.snow from hs.1, below_thold_s, t1]
        exact thick m0 hm) h3
      rw [hn, bind_ok, h4, bind_ok]
      exact ⟨M, rfl, j1.trans k1, j2.trans k2, j3.trans k3⟩

end Nan

/-- C78: a blank cell is not reported.  A run over complete `rows` and then `r1` and `r2` completes; if the wind, air
temperature, humidity or ground temperature of the dry row `r1` is left blank, then the run over the table with the blank,
and any dry rows after it, complete or not, completes as well, and when the interval after the blank has been computed no
snow lies.  (The pack at `r1` has positive mass and temperatures above absolute zero and not above freezing, the ground is
above absolute zero and below boiling, and the interval before the blank is not subdivided.) -/
theorem C78_blank_row_completes {g : Config} (hg : g.Tiled) (ha : g.Admissible) {c : Env} (hc : mkEnv g = .ok c)
    {rows : List Rec} {r1 r2 : Rec} {i1 : InputData} {m1 m2 : Model} {n1 : NRec} {later : List NRec}
    (e1 : simulate g (rows ++ [r1]) = .ok m1) (e2 : simulate g (rows ++ [r1] ++ [r2]) = .ok m2)
    (thick : ∀ m0, simulate g rows = .ok m0 → below_thold g.norm_threshold m0.phys.snow = false)
    (hf : n1.FilledBy r1) (hb : n1.BlankAir) (hd : n1.Dry) (hl : ∀ n ∈ later, n.Dry)
    (hi : InputData.new r1 = .ok i1) (hp : i1.precip_now = false) (soil : SoilOK c i1) (depth : 0 < c.z_g) (cool : i1.t_g ≤ BOIL)
    (mass : 0 < m1.phys.snow.layer_count → 0 < m1.phys.snow.m_s) (frozen : 0 < m1.phys.snow.layer_count → m1.phys.snow.Frozen)
    (hP : i1.e_a < c.P_a) (hT : c.z_t - m1.phys.snow.z_s ≠ 5.9 * c.z_0) (hU : c.z_u - m1.phys.snow.z_s ≠ 5.9 * c.z_0) :
    ∃ m, Nan.simulate g (rows.map Rec.cells ++ [n1] ++ later) = .ok m ∧ (later ≠ [] → m.phys.snow.layer_count = 0) := by
  obtain ⟨d1, hd1, hnow, _⟩ := Nan.dry_new hd
  obtain ⟨M, hM, k1, k2, k3⟩ := Nan.simulate_next hg e1 hd1 thick
  obtain ⟨c', ts, i', hc', hts, hJ, hlast, hk⟩ := Nan.simulate_continue hg hM
  have hcc : c' = c := by rw [hc'] at hc; exact Except.ok.inj hc
  subst hcc
  have hii : i' = d1 := by
    have := hlast n1 (by simp)
    rw [hd1] at this
    exact (Except.ok.inj this).symm
  subst hii
  have ht := parse_tile hg hts
  have hC := ha.env hc
  have hrel : c'.relative_hts = false := (mkEnv_ok hc).2.2.2.2.1
  have gaps := Nan.FilledBy.gaps hf hd1 hi hnow hp
  rw [hk]
  cases later with
  | nil => exact ⟨M, rfl, fun h => absurd rfl h⟩
  | cons r rs =>
    obtain ⟨i2, hi2, _⟩ := Nan.dry_new (hl r (by simp))
    have step : M.phys.snow.layer_count = 0 ∨ ∀ lv d, ∃ p', Nan.stepPhys c' (ts lv).time_step d { M.phys with input1 := i' } = .ok p' ∧
        p'.snow.layer_count = 0 ∧ p'.input1.precip_now = false := by
      by_cases h0 : m1.phys.snow.layer_count = 0
      · left; rw [k1, Nan.layer_count_s]; exact h0
      · right
        have hlp := Nat.pos_of_ne_zero h0
        -- the turbulent fluxes of the complete run
        have turb : ∃ r, h_le c' { m1.phys with input1 := i1, snow := Nan.startPack m1.phys.snow } = .ok r := by
          obtain ⟨M2, h2, _⟩ := Nan.simulate_cells e2
          obtain ⟨M1, h1, q1, q2, q3, _⟩ := Nan.simulate_cells e1
          rw [List.map_append] at h2
          obtain ⟨c2, ts2, j, hc2, hts2, _, hj, hk2⟩ := Nan.simulate_continue hg h1
          have hcc : c2 = c' := by rw [hc2] at hc; exact Except.ok.inj hc
          subst hcc
          have hjj : j = i1.cells := by
            have := hj r1.cells (by simp)
            rw [cells_new, hi] at this
            exact (Except.ok.inj this).symm
          subst hjj
          rw [hk2] at h2
          simp only [List.map_singleton, Nan.runSteps] at h2
          obtain ⟨j2, hj2, h2⟩ := bind_eq_ok.mp h2
          obtain ⟨M2', h3, _⟩ := bind_eq_ok.mp h2
          obtain ⟨dl, l, mid, _, hr, hl', _⟩ := Nan.data_parts (parse_tile hg hts2) h3
          obtain ⟨lv, p, hs⟩ := Nan.first_step hr hl' hp
          obtain ⟨q, he, _⟩ := Nan.stepPhys_parts hs
          have hR : Nan.PhysReads false (Nan.Phys.begin { M1.phys with input1 := i1.cells } (dl lv))
              { m1.phys with input1 := i1, snow := Nan.startPack m1.phys.snow } := by
            refine ⟨?_, ?_, hp, q2, q3⟩
            · unfold Nan.Phys.begin Nan.startPack
              dsimp only
              rw [q1, Nan.layer_count_s]
              rfl
            · unfold Nan.Phys.begin Nan.Phys.forcing
              rw [if_neg (by show ¬i1.precip_now = true; rw [hp]; simp)]
              exact i1.cells_reads
          have hE := Nan.energy_balance_s c2 (ts2 lv).time_step hR
          rw [he] at hE
          cases hq : energy_balance c2 (ts2 lv).time_step { m1.phys with input1 := i1, snow := Nan.startPack m1.phys.snow } with
          | error x => rw [hq] at hE; exact hE.elim
          | ok q' =>
            rcases energy_balance_ok hq with ⟨_, r, p1, _, _, _, h1, _⟩ | ⟨hz, _⟩
            · exact ⟨_, h1⟩
            · exact absurd hz h0
        have hE : EnergyStart c' i1 m1.phys.snow :=
          ⟨(records_inv ha.max_active e1 hc).1, soil, depth, cool, mass, frozen⟩
        intro lv d
        refine Nan.step_gap hC (ht.step_pos lv) (q := { m1.phys with input1 := i1 }) hE hlp k1 gaps k2 k3 hp hP
          (by rw [hrel]; simpa using hT) (by rw [hrel]; simpa using hU) ?_ turb
        rw [show ({ M.phys with input1 := i' } : Nan.Phys).input1 = n1.toNInput from nnew_ok hd1]
        exact hb
    obtain ⟨m', h1, h2, h3⟩ := Nan.data_dry (c := c') (all := g.output_all) ht hd hd1 i2 hJ step
    obtain ⟨m'', h4, h5⟩ := Nan.runSteps_dry (c := c') (all := g.output_all) ht rs (hl r (by simp)) hi2 (fun x hx => hl x (by simp [hx])) h2 h3
    refine ⟨m'', ?_, fun _ => h5⟩
    simp only [Nan.runSteps, hi2, bind_ok, h1, h4]

end

end Pysnobal
