import Verif.Lemmas.Located

/-!
# The log of a data step in the other output mode

The run steps of a data step do not depend on whether a record is written after each of them.  The first part is for an
arbitrary `Sim`.
-/

namespace Pysnobal

variable {π α ρ : Type}

/-- `K` with the output mode `b`. -/
def Sim.mode (K : Sim π α ρ) (b : Bool) : Sim π α ρ := { K with output_divided := b }

/-- Same physical state, log and clock; the accumulators of `t` are ready. -/
structure LogRel (J J' : α → Prop) (b : Bool) (s t : SimSt (π × List (RStep π)) α ρ) : Prop where
  phys : t.phys = s.phys
  time : t.current_datetime = s.current_datetime
  ready : J t.acc
  strong : b = false → s.phys.2 ≠ [] → J' t.acc

/-- `g` does what `f` does, up to accumulators and records. -/
def SameSteps (J J' : α → Prop) (b : Bool) (f g : SimSt (π × List (RStep π)) α ρ → Except Err (SimSt (π × List (RStep π)) α ρ)) : Prop :=
  ∀ s t s', LogRel J J' b s t → f s = .ok s' → ∃ t', g t = .ok t' ∧ LogRel J J' b s' t'

variable {K : Sim π α ρ} {J J' : α → Prop} {b : Bool}

theorem SameSteps.iterM {f g : SimSt (π × List (RStep π)) α ρ → Except Err (SimSt (π × List (RStep π)) α ρ)}
    (h : SameSteps J J' b f g) : ∀ n, SameSteps J J' b (iterM f n) (iterM g n)
  | 0 => fun s t s' hr hs => by cases hs; exact ⟨t, rfl, hr⟩
  | n + 1 => by
    intro s t s' hr hs
    obtain ⟨s1, e1, e2⟩ := bind_eq_ok.mp hs
    obtain ⟨t1, f1, r1⟩ := h s t s1 hr e1
    obtain ⟨t2, f2, r2⟩ := SameSteps.iterM h n s1 t1 s' r1 e2
    refine ⟨t2, ?_, r2⟩
    show (g t >>= fun s => Pysnobal.iterM g n s) = _
    rw [f1, bind_ok, f2]

theorem same_do_tstep (hA : AccSafe K J J') (lv : Level) : SameSteps J J' b (K.logged.do_tstep lv) ((K.mode b).logged.do_tstep lv) := by
  intro s t s' hr hs
  obtain ⟨q, a, h1, _, h3, h4, _⟩ := do_tstep_ok hs
  obtain ⟨a', k1, k2⟩ := hA.accum lv q.1 t.acc hr.ready
  have k1' : (K.mode b).logged.accum lv q t.acc = .ok a' := k1
  have h1' : (K.mode b).logged.phys lv t.phys = .ok q := by rw [hr.phys]; exact h1
  unfold Sim.do_tstep
  rw [h1', bind_ok, k1', bind_ok]
  cases b with
  | false =>
    refine ⟨_, rfl, ?_, ?_, hA.weak a' k2, fun _ _ => k2⟩
    · exact h3.symm
    · show t.current_datetime + K.timedelta lv = _
      rw [hr.time]
      exact h4.symm
  | true =>
    obtain ⟨r, hr'⟩ := hA.snap q.1 a' (t.current_datetime + K.timedelta lv) k2
    have hs' : (K.mode true).logged.snap q a' (t.current_datetime + (K.mode true).logged.timedelta lv) = .ok r := hr'
    dsimp only
    rw [if_pos (show (K.mode true).logged.output_divided = true from rfl)]
    unfold Sim.output
    dsimp only
    rw [hs']
    refine ⟨_, rfl, ?_, ?_, hA.reset a' k2, fun h => absurd h (by simp)⟩
    · exact h3.symm
    · show t.current_datetime + K.timedelta lv = _
      rw [hr.time]
      exact h4.symm

theorem same_smallBlock (hA : AccSafe K J J') : SameSteps J J' b K.logged.smallBlock (K.mode b).logged.smallBlock := by
  intro s t s' hr hs
  have hp : ((K.mode b).logged.enter .small t.phys) = (K.logged.enter .small s.phys) := by rw [hr.phys]; rfl
  exact (same_do_tstep hA .small).iterM _ { s with phys := K.logged.enter .small s.phys }
    { t with phys := (K.mode b).logged.enter .small t.phys } s' ⟨hp, hr.time, hr.ready, hr.strong⟩ hs

theorem same_mediumBlock (hA : AccSafe K J J') : SameSteps J J' b K.logged.mediumBlock (K.mode b).logged.mediumBlock := by
  intro s t s' hr hs
  refine SameSteps.iterM (fun s t s' hr hs => ?_) _ _ _ _ hr hs
  have hb : (K.mode b).logged.below .medium t.phys = K.logged.below .medium s.phys := by rw [hr.phys]; rfl
  rw [hb]
  split at hs
  · rename_i h
    rw [if_pos h]
    exact same_smallBlock hA s t s' hr hs
  · rename_i h
    rw [if_neg h]
    exact same_do_tstep hA .medium s t s' hr hs

theorem same_normalBlock (hA : AccSafe K J J') : SameSteps J J' b K.logged.normalBlock (K.mode b).logged.normalBlock := by
  intro s t s' hr hs
  refine SameSteps.iterM (fun s t s' hr hs => ?_) _ _ _ _ hr hs
  have hb : (K.mode b).logged.below .normal t.phys = K.logged.below .normal s.phys := by rw [hr.phys]; rfl
  rw [hb]
  split at hs
  · rename_i h
    rw [if_pos h]
    exact same_mediumBlock hA s t s' hr hs
  · rename_i h
    rw [if_neg h]
    exact same_do_tstep hA .normal s t s' hr hs

/-- A data step executes the same run steps in the other mode. -/
theorem Sim.Executes.mode (hA : AccSafe K J J') {st st' s : SimSt π α ρ} {l : List (RStep π)} (h : K.Executes st l s) (hl : l ≠ [])
    (hp : st'.phys = st.phys) (ht : st'.current_datetime = st.current_datetime) (hJ : J st'.acc) :
    ∃ s', (K.mode b).Executes st' l s' ∧ s'.phys = s.phys ∧ s'.current_datetime = s.current_datetime ∧ J s'.acc := by
  unfold Sim.Executes at h
  rw [data_tstep_eq] at h
  obtain ⟨s1, e1, e2⟩ := bind_eq_ok.mp h
  have hs1 : s1.phys = (s.log l).phys ∧ s1.current_datetime = (s.log l).current_datetime := by
    split at e2
    · unfold Sim.output at e2
      obtain ⟨r, _, e3⟩ := bind_eq_ok.mp e2
      have := Except.ok.inj e3
      rw [← this]
      exact ⟨rfl, rfl⟩
    · have := Except.ok.inj e2
      rw [← this]
      exact ⟨rfl, rfl⟩
  obtain ⟨t1, f1, r⟩ := same_normalBlock hA (b := b) (st.log []) (st'.log []) s1 ⟨by show (_, _) = (_, _); rw [hp], ht, hJ, fun _ h => absurd rfl h⟩ e1
  unfold Sim.Executes
  rw [data_tstep_eq, f1, bind_ok]
  have q1 : t1.phys = (s.log l).phys := r.phys.trans hs1.1
  have q2 : t1.current_datetime = s.current_datetime := r.time.trans hs1.2
  have q3 : t1.phys.2 = l := by rw [q1]; rfl
  have q4 : t1.phys.1 = s.phys := by rw [q1]; rfl
  cases b with
  | true =>
    rw [if_neg (by show ¬ true = false; simp)]
    refine ⟨t1.unlog, ?_, q4, q2, r.ready⟩
    rw [← q3]
    rfl
  | false =>
    rw [if_pos (by rfl)]
    have hJ' := r.strong rfl (by rw [hs1.1]; exact hl)
    obtain ⟨x, hx⟩ := hA.snap t1.phys.1 t1.acc t1.current_datetime hJ'
    unfold Sim.output
    rw [show (K.mode false).logged.snap t1.phys t1.acc t1.current_datetime = .ok x from hx, bind_ok]
    refine ⟨{ t1.unlog with output_list := t1.output_list ++ [x], acc := K.reset t1.acc }, ?_, q4, q2, hA.reset _ hJ'⟩
    rw [← q3]
    rfl

end Pysnobal
