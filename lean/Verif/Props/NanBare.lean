import Verif.Lemmas.NanBare
import Verif.Props.NanGap
import Verif.Props.Bare

/-! # C80: blank weather cells on bare ground have no effect

A run step reads the weather only if snow lies when it begins; and the increments towards the next row are read only in
the steps of a subdivided interval. -/

namespace Pysnobal

noncomputable section

open Classical

namespace Nan

theorem runSteps_unread {g : Config} {c : Env} {ts : Tsteps} (ht : TileOK ts) (hth : (ts .normal).threshold = g.norm_threshold) :
    ∀ (L : List (NRec × NRec)) (pre : List NRec) (d1 d1' : NInput) (m m' : Model), d1.FallsAs d1' → m.Same m' →
    (∀ l, simulate g (pre ++ l) = runSteps c ts g.output_all d1' l m') → (d1 = d1' ∨ m'.phys.snow.layer_count = 0) →
    (∀ x ∈ L, x.1.FallsAs x.2) →
    (∀ a x b, L = a ++ x :: b → x.1 = x.2 ∨
      (∀ m0, simulate g (pre ++ a.map Prod.snd ++ [x.2]) = .ok m0 → m0.phys.snow.layer_count = 0) ∧
      (∀ m0, simulate g (pre ++ a.map Prod.snd) = .ok m0 → below_thold g.norm_threshold m0.phys.snow = false)) →
    RelE Model.Same (runSteps c ts g.output_all d1 (L.map Prod.fst) m) (runSteps c ts g.output_all d1' (L.map Prod.snd) m') := by
  intro L
  induction L with
  | nil => exact fun _ _ _ _ _ _ h _ _ _ _ => h
  | cons x L ih =>
    intro pre d1 d1' m m' hd hm hk hc hf h
    simp only [List.map_cons, runSteps]
    have hx := h [] x L rfl
    simp only [List.map_nil, List.append_nil] at hx
    have hN := falls_new (hf x (by simp))
    cases e2 : NInput.new x.1 with
    | error e => cases e2' : NInput.new x.2 with
      | error e' => rw [e2, e2'] at hN; exact hN
      | ok i2 => rw [e2, e2'] at hN; exact hN.elim
    | ok d2 => cases e2' : NInput.new x.2 with
      | error e' => rw [e2, e2'] at hN; exact hN.elim
      | ok d2' =>
        rw [e2, e2'] at hN
        simp only [bind_ok]
        have h0 : simulate g pre = .ok m' := by simpa [runSteps] using hk []
        have hthick : d1 = d1' ∧ x.1 = x.2 ∨ below_thold (ts .normal).threshold m'.phys.snow = false := by
          rcases hc with hc | hc
          · rcases hx with hx | hx
            · exact .inl ⟨hc, hx⟩
            · exact .inr (by rw [hth]; exact hx.2 m' h0)
          · exact .inr (by unfold below_thold; rw [if_pos hc])
        have hstep : RelE Model.Same (do_data_tstep c ts g.output_all d1 d2 m) (do_data_tstep c ts g.output_all d1' d2' m') := by
          rcases hthick with ⟨q1, q2⟩ | q
          · subst q1
            rw [q2, e2'] at e2
            cases e2
            rw [data_same hm]
            cases do_data_tstep c ts g.output_all d1 d2 m' with
            | error e => rfl
            | ok a => exact Model.Same.rfl' a
          · exact data_unread ht hd hm q hc.symm
        cases r1 : do_data_tstep c ts g.output_all d1 d2 m with
        | error e => cases r2 : do_data_tstep c ts g.output_all d1' d2' m' with
          | error e' => rw [r1, r2] at hstep; exact hstep
          | ok b => rw [r1, r2] at hstep; exact hstep.elim
        | ok a => cases r2 : do_data_tstep c ts g.output_all d1' d2' m' with
          | error e' => rw [r1, r2] at hstep; exact hstep.elim
          | ok b =>
            rw [r1, r2] at hstep
            simp only [bind_ok]
            have hk' : ∀ l, simulate g (pre ++ [x.2] ++ l) = runSteps c ts g.output_all d2' l b := by
              intro l
              rw [List.append_assoc, hk]
              simp only [List.singleton_append, runSteps, e2', r2, bind_ok]
            refine ih (pre ++ [x.2]) d2 d2' a b hN hstep hk' ?_ (fun y hy => hf y (by simp [hy])) ?_
            · rcases hx with hx | hx
              · rw [hx, e2'] at e2
                cases e2
                exact .inl rfl
              · refine .inr (hx.1 b ?_)
                have := hk' []
                rw [List.append_nil] at this
                rw [this]
                rfl
            · intro a' y b' hL
              have := h (x :: a') y b' (by rw [hL]; rfl)
              simpa using this

end Nan

/-- C80: the weather is read only where snow lies.  Take two tables with the same precipitation, with or without blank
cells, that differ in the weather only in rows at whose time no snow lies, and whose preceding interval is not subdivided:
the runs end in the same way, put out the same records and leave the same snow. -/
theorem C80_weather_unread_on_bare_ground {g : Config} (hg : g.Tiled) (L : List (NRec × NRec)) (fall : ∀ x ∈ L, x.1.FallsAs x.2)
    (h : ∀ a x b, L = a ++ x :: b → x.1 = x.2 ∨
      (∀ m0, Nan.simulate g (a.map Prod.snd ++ [x.2]) = .ok m0 → m0.phys.snow.layer_count = 0) ∧
      (∀ m0, Nan.simulate g (a.map Prod.snd) = .ok m0 → Nan.below_thold g.norm_threshold m0.phys.snow = false)) :
    RelE (fun m m' => m.output_list = m'.output_list ∧ m.phys.snow = m'.phys.snow)
      (Nan.simulate g (L.map Prod.fst)) (Nan.simulate g (L.map Prod.snd)) := by
  refine RelE.mono (R := Nan.Model.Same) (fun m m' hm => ⟨hm.2.2.2, hm.1.snow⟩) ?_
  cases L with
  | nil => rfl
  | cons x L =>
    simp only [List.map_cons]
    have hx := h [] x L rfl
    simp only [List.map_nil, List.nil_append] at hx
    have hN := Nan.falls_new (fall x (by simp))
    have hE : ∀ (l : List NRec), Nan.simulate g ([x.2] ++ l) = Nan.simulate g (x.2 :: l) := fun _ => rfl
    unfold Nan.simulate
    cases hts : parse_time_steps g with
    | error e => rfl
    | ok ts =>
      simp only [bind_ok]
      have ht := parse_tile hg hts
      obtain ⟨_, _, e1, _⟩ := parse_ok hts
      cases e2 : NInput.new x.1 with
      | error e => cases e2' : NInput.new x.2 with
        | error e' => rw [e2, e2'] at hN; exact hN
        | ok i2 => rw [e2, e2'] at hN; exact hN.elim
      | ok d2 => cases e2' : NInput.new x.2 with
        | error e' => rw [e2, e2'] at hN; exact hN.elim
        | ok d2' =>
          rw [e2, e2'] at hN
          simp only [bind_ok]
          cases hc : mkEnv g with
          | error e => rfl
          | ok c =>
            simp only [bind_ok]
            cases hi : Nan.mkModel g c d2' with
            | error e =>
              have : Nan.mkModel g c d2 = .error e := by
                unfold Nan.mkModel at hi ⊢
                rcases bind_eq_error.mp hi with hi | ⟨s, _, hi⟩
                · rw [hi]; rfl
                · cases hi
              rw [this]
              rfl
            | ok m' =>
              obtain ⟨m, hm, hs⟩ : ∃ m, Nan.mkModel g c d2 = .ok m ∧ m.Same m' := by
                unfold Nan.mkModel at hi ⊢
                obtain ⟨s, hs, hi⟩ := bind_eq_ok.mp hi
                cases hi
                rw [hs]
                exact ⟨_, rfl, rfl, rfl, rfl, rfl⟩
              rw [hm]
              simp only [bind_ok]
              have hk : ∀ l, Nan.simulate g ([x.2] ++ l) = Nan.runSteps c ts g.output_all d2' l m' := by
                intro l
                rw [hE]
                unfold Nan.simulate
                simp only [hts, e2', hc, hi, bind_ok]
              refine Nan.runSteps_unread ht (by rw [e1]) L [x.2] d2 d2' m m' hN hs hk ?_ (fun y hy => fall y (by simp [hy])) ?_
              · rcases hx with hx | hx
                · rw [hx, e2'] at e2
                  cases e2
                  exact .inl rfl
                · refine .inr (hx.1 m' ?_)
                  exact (hk []).trans rfl
              · intro a y b hL
                exact h (x :: a) y b (by rw [hL]; rfl)

/-- C80, against the run over a complete table: whatever the weather cells hold, blank or not, in rows at whose time no
snow lies and whose preceding interval is not subdivided, the run ends as the run over the complete table does, with the
same records and the same snow, all of them numbers. -/
theorem C80_blanks_on_bare_ground {g : Config} (hg : g.Tiled) (L : List (NRec × Rec)) (fall : ∀ x ∈ L, x.1.FallsAs x.2.cells)
    (h : ∀ a x b, L = a ++ x :: b → x.1 = x.2.cells ∨
      (∀ m0, simulate g (a.map Prod.snd ++ [x.2]) = .ok m0 → m0.phys.snow.layer_count = 0) ∧
      (∀ m0, simulate g (a.map Prod.snd) = .ok m0 → below_thold g.norm_threshold m0.phys.snow = false)) :
    RelE (fun M m => M.output_list = m.output_list.map Nan.OutRec.ofReal ∧ M.phys.snow = Nan.Snow.ofReal m.phys.snow)
      (Nan.simulate g (L.map Prod.fst)) (simulate g (L.map Prod.snd)) := by
  have key : ∀ rows : List Rec, RelE Nan.ModelReads (Nan.simulate g (rows.map Rec.cells)) (simulate g rows) := fun rows =>
    Nan.simulate_s g (fun ts _ => Nan.faithful_cells ts) (List.forall₂_map_left_iff.mpr (List.forall₂_same.mpr fun (x : Rec) (_ : x ∈ rows) => rfl))
  have ok : ∀ rows M, Nan.simulate g (rows.map Rec.cells) = .ok M → ∃ m, simulate g rows = .ok m ∧ M.phys.snow = Nan.Snow.ofReal m.phys.snow := by
    intro rows M hM
    have := key rows
    rw [hM] at this
    cases hr : simulate g rows with
    | error e => rw [hr] at this; exact this.elim
    | ok m => rw [hr] at this; exact ⟨m, rfl, this.1⟩
  have e1 : (L.map fun x => (x.1, x.2.cells)).map Prod.fst = L.map Prod.fst := by rw [List.map_map]; rfl
  have e2 : (L.map fun x => (x.1, x.2.cells)).map Prod.snd = (L.map Prod.snd).map Rec.cells := by rw [List.map_map, List.map_map]; rfl
  have hu := C80_weather_unread_on_bare_ground hg (L.map fun x => (x.1, x.2.cells)) (by
    intro x hx
    obtain ⟨y, hy, rfl⟩ := List.mem_map.mp hx
    exact fall y hy) (by
    intro a x b hL
    obtain ⟨a', b0, hL', ha, hb⟩ := List.map_eq_append_iff.mp hL
    obtain ⟨x', b', hb', hx, hb2⟩ := List.map_eq_cons_iff.mp hb
    subst hb'
    have e3 : a.map Prod.snd = (a'.map Prod.snd).map Rec.cells := by rw [← ha, List.map_map, List.map_map]; rfl
    rw [← hx]
    refine (h a' x' b' hL').imp id fun h => ⟨?_, ?_⟩
    · intro m0 hm
      dsimp only at hm
      rw [e3, show [x'.2.cells] = [x'.2].map Rec.cells from rfl, ← List.map_append] at hm
      obtain ⟨m, h1, h2⟩ := ok _ _ hm
      rw [h2, Nan.layer_count_s]
      exact h.1 m h1
    · intro m0 hm
      rw [e3] at hm
      obtain ⟨m, h1, h2⟩ := ok _ _ hm
      rw [h2, Nan.below_thold_s]
      exact h.2 m h1)
  rw [e1, e2] at hu
  have hc := key (L.map Prod.snd)
  cases r1 : Nan.simulate g (L.map Prod.fst) <;> cases r2 : Nan.simulate g ((L.map Prod.snd).map Rec.cells) <;>
    cases r3 : simulate g (L.map Prod.snd) <;> rw [r1, r2] at hu <;> rw [r2, r3] at hc
  · exact Eq.trans hu hc
  · exact hc.elim
  · exact hu.elim
  · exact hu.elim
  · exact hu.elim
  · exact hu.elim
  · exact hc.elim
  · obtain ⟨k1, _, _, _, _, k6⟩ := hc
    exact ⟨hu.1.trans k6, hu.2.trans k1⟩

/-- C80, a run from bare ground without snowfall: every weather cell of every row may be blank; the run completes, each
data step reports exactly its rain as runoff, and the ground stays bare. -/
theorem C80_rain_with_blanks {g : Config} (hg : g.Tiled) (hmax : 0 < g.max_active) (hb : g.StartsBare)
    (he : ∃ c, mkEnv g = .ok c) (L : List (NRec × Rec)) (h0 : L ≠ []) (fall : ∀ x ∈ L, x.1.FallsAs x.2.cells) (dry : ∀ x ∈ L, x.2.NoSnow) :
    ∃ M, Nan.simulate g (L.map Prod.fst) = .ok M ∧
      M.output_list.map (·.swi_sum) = (L.map Prod.snd).dropLast.map (fun r => some (max r.m_pp 0)) ∧
      (∀ o ∈ M.output_list, ∃ r, o = Nan.OutRec.ofReal r ∧ OnlyRunoff r) ∧ M.phys.snow.layer_count = 0 := by
  have sim : ∀ rows : List Rec, rows ≠ [] → (∀ r ∈ rows, r.NoSnow) → ∃ m, simulate g rows = .ok m ∧
      m.output_list.map (·.swi_sum) = rows.dropLast.map (fun r => max r.m_pp 0) ∧ (∀ o ∈ m.output_list, OnlyRunoff o) ∧
      m.phys.snow.layer_count = 0 := by
    intro rows h0 hr
    cases rows with
    | nil => exact absurd rfl h0
    | cons r rs =>
      obtain ⟨m, k1, k2, k3, k4, _⟩ := C20_rain_runs_off g hg hmax hb he r rs hr
      exact ⟨m, k1, k2, k3, k4⟩
  have hd : ∀ r ∈ L.map Prod.snd, r.NoSnow := by
    intro r hr
    obtain ⟨x, hx, rfl⟩ := List.mem_map.mp hr
    exact dry x hx
  obtain ⟨m, k1, k2, k3, k4⟩ := sim (L.map Prod.snd) (by simpa using h0) hd
  have h := C80_blanks_on_bare_ground hg L fall (by
    intro a x b hL
    have ha : ∀ r ∈ a.map Prod.snd ++ [x.2], r.NoSnow := by
      intro r hr
      refine hd r ?_
      rw [hL]
      simp only [List.map_append, List.map_cons, List.mem_append, List.mem_cons, List.not_mem_nil, or_false] at hr ⊢
      tauto
    refine .inr ⟨?_, ?_⟩
    · intro m0 hm
      obtain ⟨m1, q1, _, _, q4⟩ := sim _ (by simp) ha
      rw [q1] at hm
      cases hm
      exact q4
    · intro m0 hm
      by_cases hn : a.map Prod.snd = []
      · rw [hn] at hm; cases hm
      · obtain ⟨m1, q1, _, _, q4⟩ := sim _ hn (fun r hr => ha r (by simp only [List.mem_append]; exact .inl hr))
        rw [q1] at hm
        cases hm
        exact bare_below _ q4)
  rw [k1] at h
  cases hM : Nan.simulate g (L.map Prod.fst) with
  | error e => rw [hM] at h; exact h.elim
  | ok M =>
    rw [hM] at h
    refine ⟨M, rfl, ?_, ?_, ?_⟩
    · rw [h.1, List.map_map]
      have := congrArg (List.map some) k2
      rw [List.map_map, List.map_map] at this
      exact this
    · intro o ho
      rw [h.1] at ho
      obtain ⟨r, hr, rfl⟩ := List.mem_map.mp ho
      exact ⟨r, rfl, k3 r hr⟩
    · rw [h.2, Nan.layer_count_s]; exact k4

end

end Pysnobal
