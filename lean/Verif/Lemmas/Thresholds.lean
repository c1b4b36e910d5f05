import Verif.Lemmas.Follow

/-!
# The log of a data step under other thresholds

A data step of a simulation `K` whose list of run steps is subdivided the way other threshold tests `f` ask for is also the data step
that `K` with the tests `f` executes.  Everything here is for an arbitrary `Sim`.
-/

namespace Pysnobal

variable {π α ρ : Type}

/-- `K` with other threshold tests. -/
def Sim.tests (K : Sim π α ρ) (f : Level → π → Bool) : Sim π α ρ := { K with below := f }

/-- Running on extends the log. -/
def ExtendsLog (f : SimSt (π × List (RStep π)) α ρ → Except Err (SimSt (π × List (RStep π)) α ρ)) : Prop :=
  ∀ s s', f s = .ok s' → ∃ l, s'.phys.2 = s.phys.2 ++ l

theorem ExtendsLog.iterM {f : SimSt (π × List (RStep π)) α ρ → Except Err (SimSt (π × List (RStep π)) α ρ)}
    (h : ExtendsLog f) : ∀ n, ExtendsLog (iterM f n)
  | 0 => fun s s' hs => by cases hs; exact ⟨[], by simp⟩
  | n + 1 => by
    intro s s' hs
    obtain ⟨s1, e1, e2⟩ := bind_eq_ok.mp hs
    obtain ⟨l1, h1⟩ := h s s1 e1
    obtain ⟨l2, h2⟩ := ExtendsLog.iterM h n s1 s' e2
    exact ⟨l1 ++ l2, by rw [h2, h1, List.append_assoc]⟩

variable {K : Sim π α ρ} {f : Level → π → Bool}

theorem do_tstep_log {lv : Level} {s s' : SimSt (π × List (RStep π)) α ρ} (h : K.logged.do_tstep lv s = .ok s') :
    ∃ x, x.lv = lv ∧ x.pre = s.phys.1 ∧ s'.phys.2 = s.phys.2 ++ [x] := by
  obtain ⟨x, h1, h2, h3, _⟩ := do_tstep_stretch (K := K.tests fun _ _ => false) (.inr rfl) (s := s) (s' := s') h
  exact ⟨x, h1, h2, h3⟩

theorem smallBlock_log (hk : (K.tests f).EnterKeeps) {s s' : SimSt (π × List (RStep π)) α ρ} (h : K.logged.smallBlock s = .ok s') :
    ∃ l, s'.phys.2 = s.phys.2 ++ l ∧ l.length = (K.intervals .small).toNat ∧ (∀ x ∈ l, x.lv = .small) ∧
      ∀ x ∈ l.head?, ∀ lv, f lv x.pre = f lv s.phys.1 := by
  obtain ⟨l, ⟨h1, _, h3⟩, ⟨h4, h5⟩, _⟩ := smallBlock_stretch hk (s := s) (s' := s') h
  exact ⟨l, h1, h4, h5, h3⟩

theorem extends_medium : ExtendsLog (fun s => if K.logged.below .medium s.phys then K.logged.smallBlock s else K.logged.do_tstep .medium s) := by
  intro s s' hs
  dsimp only at hs
  split at hs
  · obtain ⟨l, h, _⟩ := smallBlock_log (K := K) (f := fun _ _ => true) (fun _ _ => rfl) hs
    exact ⟨l, h⟩
  · obtain ⟨x, _, _, h⟩ := do_tstep_log hs
    exact ⟨[x], h⟩

theorem medium_tests (hk : (K.tests f).EnterKeeps) (hs0 : 0 < (K.intervals .small).toNat) : ∀ (n : ℕ)
    (s s' : SimSt (π × List (RStep π)) α ρ) (bs : List (List (RStep π))), bs.length = n → (∀ b ∈ bs, (K.tests f).MediumPart b) →
    s'.phys.2 = s.phys.2 ++ bs.flatten →
    iterM (fun s => if K.logged.below .medium s.phys then K.logged.smallBlock s else K.logged.do_tstep .medium s) n s = .ok s' →
    iterM (fun s => if (K.tests f).logged.below .medium s.phys then (K.tests f).logged.smallBlock s else (K.tests f).logged.do_tstep .medium s) n s =
      .ok s' := by
  intro n
  induction n with
  | zero => exact fun s s' bs _ _ _ h => h
  | succ n ih =>
    intro s s' bs hl hb hlog h
    cases bs with
    | nil => simp at hl
    | cons b bs =>
      obtain ⟨s1, e1, e2⟩ := bind_eq_ok.mp h
      obtain ⟨l2, q2⟩ := extends_medium.iterM n s1 s' e2
      have key : s1.phys.2 = s.phys.2 ++ b ∧ (if (K.tests f).logged.below .medium s.phys then (K.tests f).logged.smallBlock s else
          (K.tests f).logged.do_tstep .medium s) = .ok s1 := by
        by_cases hB : K.below .medium s.phys.1 = true
        · dsimp only at e1
          rw [if_pos (show K.logged.below .medium s.phys = true from hB)] at e1
          obtain ⟨l1, a1, a2, a3, a4⟩ := smallBlock_log hk e1
          have ea : l1 ++ l2 = b ++ bs.flatten := by
            rw [q2, a1, List.append_assoc, List.flatten_cons] at hlog
            exact List.append_cancel_left hlog
          rcases hb b (by simp) with ⟨x, rfl, hx, _⟩ | ⟨c1, c2, c3⟩
          · exfalso
            cases l1 with
            | nil => simp at a2; omega
            | cons y l1 =>
              have : y = x := by simpa using (List.cons.inj ea).1
              have hy := a3 y (by simp)
              rw [this, hx] at hy
              cases hy
          · obtain ⟨e, _⟩ := List.append_inj ea (by rw [a2]; exact c1.symm)
            subst e
            refine ⟨a1, ?_⟩
            cases l1 with
            | nil => simp at a2; omega
            | cons y l1 =>
              have h1 : f .medium y.pre = true := c3 y (by simp)
              rw [a4 y (by simp)] at h1
              rw [if_pos (show (K.tests f).logged.below .medium s.phys = true from h1)]
              exact e1
        · dsimp only at e1
          rw [if_neg (show ¬ K.logged.below .medium s.phys = true from hB)] at e1
          obtain ⟨x, a1, a2, a3⟩ := do_tstep_log e1
          have ea : [x] ++ l2 = b ++ bs.flatten := by
            rw [q2, a3, List.append_assoc, List.flatten_cons] at hlog
            exact List.append_cancel_left hlog
          rcases hb b (by simp) with ⟨y, rfl, hy, hy2⟩ | ⟨c1, c2, c3⟩
          · obtain ⟨e, _⟩ := List.append_inj ea rfl
            cases e
            refine ⟨a3, ?_⟩
            have h1 : f .medium x.pre = false := hy2
            rw [a2] at h1
            rw [if_neg (show ¬ (K.tests f).logged.below .medium s.phys = true by
              rw [show (K.tests f).logged.below .medium s.phys = false from h1]; simp)]
            exact e1
          · exfalso
            cases b with
            | nil =>
              have : (0 : ℕ) = (K.intervals .small).toNat := c1
              omega
            | cons y b =>
              have : x = y := by simpa using (List.cons.inj ea).1
              have hy := c2 y (by simp)
              rw [← this, a1] at hy
              cases hy
      refine bind_eq_ok.mpr ⟨s1, key.2, ih s1 s' bs (by simpa using hl) (fun b' hb' => hb b' (by simp [hb'])) ?_ e2⟩
      rw [hlog, key.1, List.append_assoc, List.flatten_cons]

theorem mediumPart_lv {l : List (RStep π)} (h : K.MediumPart l) : ∀ x ∈ l, x.lv ≠ .normal := by
  rcases h with ⟨y, rfl, hy, _⟩ | ⟨_, h, _⟩
  · intro x hx e
    cases List.mem_singleton.mp hx
    rw [hy] at e
    cases e
  · intro x hx e
    rw [h x hx] at e
    cases e

theorem pieces_lv {n : ℕ} {l : List (RStep π)} (h : Pieces K.MediumPart n l) : ∀ x ∈ l, x.lv ≠ .normal := by
  obtain ⟨bs, _, hb, rfl⟩ := h
  intro x hx
  obtain ⟨b, h1, h2⟩ := List.mem_flatten.mp hx
  exact mediumPart_lv (hb b h1) x h2

theorem normal_tests (hK : K.EnterKeeps) (hk : (K.tests f).EnterKeeps) (hs0 : 0 < (K.intervals .small).toNat) (hm0 : 0 < (K.intervals .medium).toNat)
    (hn : (K.intervals .normal).toNat = 1) {s s' : SimSt (π × List (RStep π)) α ρ} {l : List (RStep π)} (hp : (K.tests f).NormalPart l)
    (hlog : s'.phys.2 = s.phys.2 ++ l) (h : K.logged.normalBlock s = .ok s') : (K.tests f).logged.normalBlock s = .ok s' := by
  have hu : ∀ K : Sim π α ρ, (K.intervals .normal).toNat = 1 → ∀ s, K.logged.normalBlock s =
      if K.logged.below .normal s.phys then K.logged.mediumBlock s else K.logged.do_tstep .normal s := by
    intro K hn s
    unfold Sim.normalBlock
    rw [show (K.logged.intervals .normal).toNat = 1 from hn]
    simp only [iterM]
    generalize (if K.logged.below .normal s.phys then K.logged.mediumBlock s else K.logged.do_tstep .normal s) = y
    cases y <;> rfl
  rw [hu K hn] at h
  rw [hu (K.tests f) hn]
  by_cases hB : K.below .normal s.phys.1 = true
  · rw [if_pos (show K.logged.below .normal s.phys = true from hB)] at h
    have hl : ∀ x ∈ l, x.lv ≠ .normal := by
      obtain ⟨l', ⟨h1, _⟩, h2, _⟩ := mediumBlock_stretch hK h
      rw [hlog] at h1
      rw [List.append_cancel_left h1]
      exact pieces_lv h2
    rcases hp with ⟨x, rfl, hx, _⟩ | ⟨⟨bs, c1, c2, c3⟩, c4⟩
    · exact absurd hx (hl x (by simp))
    · have hM : (K.tests f).logged.mediumBlock s = .ok s' := medium_tests hk hs0 _ s s' bs c1 c2 (by rw [hlog, c3]) h
      have hne : l ≠ [] := by
        cases bs with
        | nil => 
          have : (0 : ℕ) = (K.intervals .medium).toNat := c1
          omega
        | cons b bs =>
          rw [c3, List.flatten_cons]
          rcases c2 b (by simp) with ⟨x, rfl, _⟩ | ⟨c, _⟩
          · simp
          · cases b with
            | nil =>
              have : (0 : ℕ) = (K.intervals .small).toNat := c
              omega
            | cons y b => simp
      obtain ⟨x, tl, rfl⟩ := List.exists_cons_of_ne_nil hne
      obtain ⟨l', ⟨h1, _, h3⟩, _⟩ := mediumBlock_stretch hk hM
      rw [hlog] at h1
      have h4 : f .normal x.pre = f .normal s.phys.1 := h3 x (by rw [← List.append_cancel_left h1]; simp) .normal
      have h5 : f .normal x.pre = true := c4 x (by simp)
      rw [if_pos (show (K.tests f).logged.below .normal s.phys = true from h4.symm.trans h5)]
      exact hM
  · rw [if_neg (show ¬ K.logged.below .normal s.phys = true from hB)] at h
    obtain ⟨x, a1, a2, a3⟩ := do_tstep_log h
    rw [hlog] at a3
    obtain rfl := List.append_cancel_left a3
    rcases hp with ⟨y, e, hy, hy2⟩ | ⟨c, _⟩
    · cases e
      have h1 : f .normal x.pre = false := hy2
      rw [a2] at h1
      rw [if_neg (show ¬ (K.tests f).logged.below .normal s.phys = true by
        rw [show (K.tests f).logged.below .normal s.phys = false from h1]; simp)]
      exact h
    · exact absurd a1 (pieces_lv c x (by simp))

/-- A data step whose log is subdivided as the tests `f` ask for is the data step of the simulation with these tests. -/
theorem Sim.Executes.tests (hK : K.EnterKeeps) (hk : (K.tests f).EnterKeeps) (hs0 : 0 < (K.intervals .small).toNat)
    (hm0 : 0 < (K.intervals .medium).toNat) (hn : (K.intervals .normal).toNat = 1) {st st' : SimSt π α ρ} {l : List (RStep π)}
    (h : K.Executes st l st') (hp : (K.tests f).NormalPart l) : (K.tests f).Executes st l st' := by
  unfold Sim.Executes at h ⊢
  rw [data_tstep_eq] at h ⊢
  obtain ⟨s, h1, h2⟩ := bind_eq_ok.mp h
  have e : s.phys.2 = (st.log []).phys.2 ++ l := by
    split at h2
    · obtain ⟨_, _, e⟩ := output_ok h2
      exact (congrArg (fun x : SimSt (π × List (RStep π)) α ρ => x.phys.2) e).symm
    · exact congrArg (fun x : SimSt (π × List (RStep π)) α ρ => x.phys.2) (Except.ok.inj h2)
  exact bind_eq_ok.mpr ⟨s, normal_tests hK hk hs0 hm0 hn hp e h1, h2⟩

end Pysnobal
