import Verif.Lemmas.Located

/-! # A run completes if every run step from a state satisfying an invariant completes -/

namespace Pysnobal

noncomputable section

/-- The loop of `PySnobal.run` completes, or raises what a run step from a state satisfying the invariant of a `RunRule`
raises. -/
theorem RunRule.outcome {c : Env} {ts : Tsteps} (ht : TileOK ts) {A : Rec → Prop} {I : InputData → Phys → Prop}
    {D : InputData → InputData → Prop} {O : Snow → Prop} (R : RunRule c ts A I D O)
    (hA : ∀ r, A r → ∃ i, InputData.new r = .ok i) {all : Bool} {rs : List Rec} {r1 : Rec} {i0 i1 : InputData}
    {m : Model} (a1 : A r1) (n1 : InputData.new r1 = .ok i1) (ha : ∀ r ∈ rs, A r) (hJ : AccReady m.acc)
    (hI : I i0 m.phys) : (∃ m', runSteps c ts all i1 rs m = .ok m') ∨ ∃ e lv i d p, runSteps c ts all i1 rs m = .error e ∧
      D i d ∧ I i p ∧ stepPhys c (ts lv).time_step d p = .error e := by
  rcases runSteps_located ht (c := c) (all := all) rs r1 i1 m n1 (fun r hr => hA r (ha r hr)) hJ with h |
    ⟨e, k, hk, i, j, m1, l, mid, lv, d, rest, h1, h2, h3, h4, h5, h6⟩
  · exact .inl h
  · right
    obtain ⟨⟨i', hI'⟩, _⟩ := R.steps (rs.take k) i0 i1 r1 m m1 a1
      (fun r hr => ha r (List.mem_of_mem_take hr)) n1 hI h2
    have ak : A ((r1 :: rs)[k]'(by simp; omega)) := by
      have : (r1 :: rs)[k]'(by simp; omega) ∈ r1 :: rs := List.getElem_mem _
      rcases List.mem_cons.mp this with h | h
      · rw [h]; exact a1
      · exact ha _ h
    have aj : A rs[k] := ha _ (List.getElem_mem _)
    obtain ⟨dl, hdl, hr⟩ := h6.runs
    have hd : ∀ lv, D i (dl lv) := fun lv => R.delta _ _ i j lv _ ak aj h3 h4 (inputDeltas_ok hdl lv)
    obtain ⟨q, _⟩ := R.runs hd hr (R.record _ i' i m1.phys ak h3 hI')
    have hdd : dl lv = d := by
      have := inputDeltas_ok hdl lv
      rw [h6.delta] at this
      exact (Except.ok.inj this).symm
    exact ⟨e, lv, i, d, mid.phys, h1, by rw [← hdd]; exact hd lv, q, h6.raises⟩

/-- The loop of `PySnobal.run` completes if the invariant of a `RunRule` guarantees that run steps complete. -/
theorem RunRule.completes {c : Env} {ts : Tsteps} (ht : TileOK ts) {A : Rec → Prop} {I : InputData → Phys → Prop}
    {D : InputData → InputData → Prop} {O : Snow → Prop} (R : RunRule c ts A I D O)
    (htot : ∀ lv i d p, D i d → I i p → ∃ p', stepPhys c (ts lv).time_step d p = .ok p')
    (hA : ∀ r, A r → ∃ i, InputData.new r = .ok i) {all : Bool} {rs : List Rec} {r1 : Rec} {i0 i1 : InputData}
    {m : Model} (a1 : A r1) (n1 : InputData.new r1 = .ok i1) (ha : ∀ r ∈ rs, A r) (hJ : AccReady m.acc)
    (hI : I i0 m.phys) : ∃ m', runSteps c ts all i1 rs m = .ok m' := by
  rcases R.outcome ht hA (all := all) a1 n1 ha hJ hI with h | ⟨e, lv, i, d, p, _, hd, hp, hs⟩
  · exact h
  · obtain ⟨p', hp'⟩ := htot lv i d p hd hp
    rw [hs] at hp'
    cases hp'

/-- A simulation completes, or raises what a run step from a state satisfying the invariant of a `RunRule` raises. -/
theorem RunRule.simulation {g : Config} {c : Env} {ts : Tsteps} (hg : g.Tiled) {A : Rec → Prop}
    {I : InputData → Phys → Prop} {D : InputData → InputData → Prop} {O : Snow → Prop}
    (hc : mkEnv g = .ok c) (hts : parse_time_steps g = .ok ts) (R : RunRule c ts A I D O)
    (h0 : ∀ r i s, A r → InputData.new r = .ok i → init_snow c (recordSnow g) = .ok s →
      I i { snow := s, input1 := i, init_ustar := none, init_factor := none })
    (hA : ∀ r, A r → ∃ i, InputData.new r = .ok i) {s : Snow} (hs : init_snow c (recordSnow g) = .ok s)
    {rows : List Rec} (hne : rows ≠ []) (ha : ∀ r ∈ rows, A r) : (∃ m, Pysnobal.simulate g rows = .ok m) ∨
      ∃ e lv i d p, Pysnobal.simulate g rows = .error e ∧ D i d ∧ I i p ∧
        stepPhys c (ts lv).time_step d p = .error e := by
  cases rows with
  | nil => exact absurd rfl hne
  | cons r rs =>
    have a1 := ha r (by simp)
    obtain ⟨i1, n1⟩ := hA r a1
    obtain ⟨m0, hm⟩ : ∃ m0, mkModel g c i1 = .ok m0 := by
      unfold mkModel
      rw [hs, bind_ok]
      exact ⟨_, rfl⟩
    have hp : m0.phys = { snow := s, input1 := i1, init_ustar := none, init_factor := none } ∧
        m0.acc.time_since_out = 0 := by
      unfold mkModel at hm
      rw [hs, bind_ok, pure_ok] at hm
      rw [← Except.ok.inj hm]
      exact ⟨rfl, rfl⟩
    have e : Pysnobal.simulate g (r :: rs) = runSteps c ts g.output_all i1 rs m0 := by
      unfold Pysnobal.simulate
      dsimp only
      rw [hts, bind_ok, n1, bind_ok, hc, bind_ok, hm, bind_ok]
    rw [e]
    exact R.outcome (parse_tile hg hts) hA (all := g.output_all) (rs := rs) (i0 := i1) (m := m0) a1 n1
      (fun x hx => ha x (by simp [hx])) (.inl hp.2) (by rw [hp.1]; exact h0 r i1 s a1 n1 hs)

/-- A simulation completes if the invariant of a `RunRule` guarantees that run steps complete. -/
theorem RunRule.simulates {g : Config} {c : Env} {ts : Tsteps} (hg : g.Tiled) {A : Rec → Prop}
    {I : InputData → Phys → Prop} {D : InputData → InputData → Prop} {O : Snow → Prop}
    (hc : mkEnv g = .ok c) (hts : parse_time_steps g = .ok ts) (R : RunRule c ts A I D O)
    (h0 : ∀ r i s, A r → InputData.new r = .ok i → init_snow c (recordSnow g) = .ok s →
      I i { snow := s, input1 := i, init_ustar := none, init_factor := none })
    (htot : ∀ lv i d p, D i d → I i p → ∃ p', stepPhys c (ts lv).time_step d p = .ok p')
    (hA : ∀ r, A r → ∃ i, InputData.new r = .ok i) {s : Snow} (hs : init_snow c (recordSnow g) = .ok s)
    {rows : List Rec} (hne : rows ≠ []) (ha : ∀ r ∈ rows, A r) : ∃ m, Pysnobal.simulate g rows = .ok m := by
  rcases R.simulation hg hc hts h0 hA hs hne ha with h | ⟨e, lv, i, d, p, _, hd, hp, hst⟩
  · exact h
  · obtain ⟨p', hp'⟩ := htot lv i d p hd hp
    rw [hst] at hp'
    cases hp'

end

end Pysnobal
