import Verif.Lemmas.Logged

/-!
# Two simulations that agree as long as the first one only makes good run steps

`K.Follows K' …` lists what two simulations must have in common so that the second does what the first does, up to given
relations between the states, the accumulators and the records, as long as every run step of the first is good.
Everything here is for arbitrary simulations. -/

namespace Pysnobal

variable {π α ρ : Type}

/-- See above: `P` relates the physical states between run steps, `Q` those at the end of a run step, `A` the
accumulators and `R` the records; `Good` is asked of the run steps of `K`. -/
structure Sim.Follows (K K' : Sim π α ρ) (P Q : π → π → Prop) (A : α → α → Prop) (R : ρ → ρ → Prop)
    (Good : RStep π → Prop) : Prop where
  intervals : K'.intervals = K.intervals
  timedelta : K'.timedelta = K.timedelta
  divided : K'.output_divided = K.output_divided
  below : ∀ lv p q, P p q → K'.below lv q = K.below lv p
  enter : ∀ p q, P p q → P (K.enter .small p) (K'.enter .small q)
  phys : ∀ lv p q p', P p q → K.phys lv p = .ok p' → Good ⟨lv, p, p'⟩ → ∃ q', K'.phys lv q = .ok q' ∧ Q p' q'
  accum : ∀ lv p q a b a', Q p q → A a b → K.accum lv p a = .ok a' → ∃ b', K'.accum lv q b = .ok b' ∧ A a' b'
  finish : ∀ lv p q, Q p q → P (K.finish lv p) (K'.finish lv q)
  snap : ∀ p q a b t r, P p q ∨ Q p q → A a b → K.snap p a t = .ok r → ∃ r', K'.snap q b t = .ok r' ∧ R r r'
  reset : ∀ a b, A a b → A (K.reset a) (K'.reset b)

/-- The log contains a run step that is not good. -/
def BadLog (Good : RStep π → Prop) (st : SimSt (π × List (RStep π)) α ρ) : Prop := ∃ x ∈ st.phys.2, ¬ Good x

/-- The states of the two simulations are related (`T` is `P` or `Q`). -/
structure FollowRel (T : π → π → Prop) (A : α → α → Prop) (R : ρ → ρ → Prop) (st : SimSt (π × List (RStep π)) α ρ)
    (st' : SimSt π α ρ) : Prop where
  phys : T st.phys.1 st'.phys
  acc : A st.acc st'.acc
  time : st'.current_datetime = st.current_datetime
  out : List.Forall₂ R st.output_list st'.output_list

/-- If the first computation succeeds, then a bad step is in its log or the second succeeds with a related result. -/
def Fol (Good : RStep π → Prop) (T : π → π → Prop) (A : α → α → Prop) (R : ρ → ρ → Prop)
    (x : Except Err (SimSt (π × List (RStep π)) α ρ)) (y : Except Err (SimSt π α ρ)) : Prop :=
  ∀ st, x = .ok st → BadLog Good st ∨ ∃ st', y = .ok st' ∧ FollowRel T A R st st'

/-- Running on keeps the log. -/
def KeepsLog (f : SimSt (π × List (RStep π)) α ρ → Except Err (SimSt (π × List (RStep π)) α ρ)) : Prop :=
  ∀ st st', f st = .ok st' → ∀ x ∈ st.phys.2, x ∈ st'.phys.2

variable {K K' : Sim π α ρ} {P Q : π → π → Prop} {A : α → α → Prop} {R : ρ → ρ → Prop} {Good : RStep π → Prop}

theorem Fol.bind {T U : π → π → Prop} {x : Except Err (SimSt (π × List (RStep π)) α ρ)} {y : Except Err (SimSt π α ρ)}
    {f : SimSt (π × List (RStep π)) α ρ → Except Err (SimSt (π × List (RStep π)) α ρ)}
    {g : SimSt π α ρ → Except Err (SimSt π α ρ)} (h : Fol Good T A R x y) (hk : KeepsLog f)
    (hf : ∀ st st', FollowRel T A R st st' → Fol Good U A R (f st) (g st')) : Fol Good U A R (x >>= f) (y >>= g) := by
  intro s hs
  obtain ⟨s1, e1, e2⟩ := bind_eq_ok.mp hs
  rcases h s1 e1 with ⟨b, hb, hg⟩ | ⟨s2, e3, hr⟩
  · exact .inl ⟨b, hk s1 s e2 b hb, hg⟩
  · rw [e3, bind_ok]
    exact hf s1 s2 hr s e2

theorem KeepsLog.bind {f g : SimSt (π × List (RStep π)) α ρ → Except Err (SimSt (π × List (RStep π)) α ρ)}
    (h : KeepsLog f) (h' : KeepsLog g) : KeepsLog (fun s => f s >>= g) := by
  intro s s' hs x hx
  obtain ⟨s1, e1, e2⟩ := bind_eq_ok.mp hs
  exact h' s1 s' e2 x (h s s1 e1 x hx)

theorem KeepsLog.iterM {f : SimSt (π × List (RStep π)) α ρ → Except Err (SimSt (π × List (RStep π)) α ρ)}
    (h : KeepsLog f) : ∀ n, KeepsLog (iterM f n)
  | 0 => fun s s' hs x hx => by cases hs; exact hx
  | n + 1 => KeepsLog.bind h (KeepsLog.iterM h n)

theorem do_tstep_eq (K : Sim π α ρ) (lv : Level) (st : SimSt π α ρ) : K.do_tstep lv st =
    (K.phys lv st.phys >>= fun p => K.accum lv p st.acc >>= fun a =>
      (if K.output_divided = true then K.output ⟨p, a, st.current_datetime + K.timedelta lv, st.output_list⟩
        else .ok ⟨p, a, st.current_datetime + K.timedelta lv, st.output_list⟩) >>= fun s =>
      .ok { s with phys := K.finish lv s.phys }) := by
  unfold Sim.do_tstep
  cases K.output_divided <;> rfl

theorem keeps_output : KeepsLog K.logged.output := by
  intro s s' hs x hx
  unfold Sim.output at hs
  obtain ⟨r, _, e⟩ := bind_eq_ok.mp hs
  cases e
  exact hx

theorem keeps_do_tstep (lv : Level) : KeepsLog (K.logged.do_tstep lv) := by
  intro s s' hs x hx
  rw [do_tstep_eq] at hs
  obtain ⟨p, e1, hs⟩ := bind_eq_ok.mp hs
  obtain ⟨a, _, hs⟩ := bind_eq_ok.mp hs
  obtain ⟨s1, e3, hs⟩ := bind_eq_ok.mp hs
  cases hs
  have hp : x ∈ p.2 := by
    change (K.phys lv s.phys.1).map _ = _ at e1
    cases hk : K.phys lv s.phys.1 with
    | error e => rw [hk] at e1; cases e1
    | ok q =>
      rw [hk] at e1
      cases e1
      simp [hx]
  have h1 : x ∈ s1.phys.2 := by
    split at e3
    · exact keeps_output _ _ e3 x hp
    · cases e3; exact hp
  exact h1

theorem keeps_smallBlock : KeepsLog K.logged.smallBlock := by
  intro s s' hs x hx
  exact KeepsLog.iterM (keeps_do_tstep .small) _ _ _ hs x hx

theorem keeps_mediumBlock : KeepsLog K.logged.mediumBlock := by
  refine KeepsLog.iterM ?_ _
  intro s s' hs x hx
  dsimp only at hs
  split at hs
  · exact keeps_smallBlock s s' hs x hx
  · exact keeps_do_tstep _ s s' hs x hx

theorem keeps_normalBlock : KeepsLog K.logged.normalBlock := by
  refine KeepsLog.iterM ?_ _
  intro s s' hs x hx
  dsimp only at hs
  split at hs
  · exact keeps_mediumBlock s s' hs x hx
  · exact keeps_do_tstep _ s s' hs x hx

theorem Fol.iterM {T : π → π → Prop} {f : SimSt (π × List (RStep π)) α ρ → Except Err (SimSt (π × List (RStep π)) α ρ)}
    {g : SimSt π α ρ → Except Err (SimSt π α ρ)} (hk : KeepsLog f)
    (hf : ∀ st st', FollowRel T A R st st' → Fol Good T A R (f st) (g st')) (n : ℕ) :
    ∀ st st', FollowRel T A R st st' → Fol Good T A R (iterM f n st) (iterM g n st') := by
  induction n with
  | zero =>
    intro st st' h s hs
    cases hs
    exact .inr ⟨st', rfl, h⟩
  | succ n ih => exact fun st st' h => Fol.bind (hf st st' h) (KeepsLog.iterM hk n) ih

theorem fol_output (h : K.Follows K' P Q A R Good) {T : π → π → Prop} (hT : ∀ p q, T p q → P p q ∨ Q p q)
    {st : SimSt (π × List (RStep π)) α ρ} {st' : SimSt π α ρ} (hr : FollowRel T A R st st') :
    Fol Good T A R (K.logged.output st) (K'.output st') := by
  intro s hs
  unfold Sim.output at hs
  obtain ⟨r, e1, e2⟩ := bind_eq_ok.mp hs
  cases e2
  obtain ⟨r', e3, hR⟩ := h.snap _ _ _ _ _ _ (hT _ _ hr.phys) hr.acc e1
  refine .inr ⟨{ st' with output_list := st'.output_list ++ [r'], acc := K'.reset st'.acc }, ?_, hr.phys,
    h.reset _ _ hr.acc, hr.time, List.rel_append hr.out (.cons hR .nil)⟩
  unfold Sim.output
  rw [hr.time, e3]
  rfl

theorem fol_do_tstep (h : K.Follows K' P Q A R Good) (lv : Level)
    {st : SimSt (π × List (RStep π)) α ρ} {st' : SimSt π α ρ} (hr : FollowRel P A R st st') :
    Fol Good P A R (K.logged.do_tstep lv st) (K'.do_tstep lv st') := by
  intro s hs
  rw [do_tstep_eq] at hs
  obtain ⟨p, e1, hs⟩ := bind_eq_ok.mp hs
  obtain ⟨a, e2, hs⟩ := bind_eq_ok.mp hs
  obtain ⟨s1, e3, hs⟩ := bind_eq_ok.mp hs
  cases hs
  change (K.phys lv st.phys.1).map _ = _ at e1
  cases hk : K.phys lv st.phys.1 with
  | error e => rw [hk] at e1; cases e1
  | ok q =>
    rw [hk] at e1
    cases e1
    by_cases hg : Good ⟨lv, st.phys.1, q⟩
    · obtain ⟨q', f1, hQ⟩ := h.phys lv _ _ _ hr.phys hk hg
      obtain ⟨b, f2, hA⟩ := h.accum lv _ _ _ _ _ hQ hr.acc e2
      have hrel : FollowRel Q A R
          (⟨(q, st.phys.2 ++ [⟨lv, st.phys.1, q⟩]), a, st.current_datetime + K.timedelta lv, st.output_list⟩ :
            SimSt (π × List (RStep π)) α ρ)
          ⟨q', b, st'.current_datetime + K'.timedelta lv, st'.output_list⟩ :=
        ⟨hQ, hA, by show _ = _; rw [hr.time, h.timedelta], hr.out⟩
      have hdo : ∀ s2, (if K'.output_divided then K'.output
            ⟨q', b, st'.current_datetime + K'.timedelta lv, st'.output_list⟩ else .ok
            ⟨q', b, st'.current_datetime + K'.timedelta lv, st'.output_list⟩) = .ok s2 →
          K'.do_tstep lv st' = .ok { s2 with phys := K'.finish lv s2.phys } := by
        intro s2 h2
        rw [do_tstep_eq, f1, bind_ok, f2, bind_ok]
        rw [h2, bind_ok]
      have hd := h.divided
      have hl : K.logged.output_divided = K.output_divided := rfl
      rw [hl] at e3
      cases ho : K.output_divided with
      | true =>
        rw [ho] at e3 hd
        rw [if_pos rfl] at e3
        rcases fol_output h (fun p q hq => .inr hq) hrel s1 e3 with hb | ⟨s2, e4, r4⟩
        · exact .inl hb
        · refine .inr ⟨_, hdo s2 (by rw [hd, if_pos rfl]; exact e4), ?_, r4.acc, r4.time, r4.out⟩
          exact h.finish lv _ _ r4.phys
      | false =>
        rw [ho] at e3 hd
        rw [if_neg (by simp)] at e3
        cases e3
        refine .inr ⟨_, hdo ⟨q', b, st'.current_datetime + K'.timedelta lv, st'.output_list⟩
          (by rw [hd, if_neg (by simp)]), ?_, hrel.acc, hrel.time, hrel.out⟩
        exact h.finish lv _ _ hrel.phys
    · refine .inl ⟨_, ?_, hg⟩
      have h1 : (⟨lv, st.phys.1, q⟩ : RStep π) ∈ s1.phys.2 := by
        split at e3
        · exact keeps_output _ _ e3 _ (by simp)
        · cases e3; simp
      exact h1

theorem fol_smallBlock (h : K.Follows K' P Q A R Good)
    {st : SimSt (π × List (RStep π)) α ρ} {st' : SimSt π α ρ} (hr : FollowRel P A R st st') :
    Fol Good P A R (K.logged.smallBlock st) (K'.smallBlock st') := by
  unfold Sim.smallBlock
  rw [show K.logged.intervals = K.intervals from rfl, h.intervals]
  exact Fol.iterM (keeps_do_tstep .small) (fun _ _ h' => fol_do_tstep h .small h') _ _ _
    ⟨h.enter _ _ hr.phys, hr.acc, hr.time, hr.out⟩

theorem fol_mediumBlock (h : K.Follows K' P Q A R Good)
    {st : SimSt (π × List (RStep π)) α ρ} {st' : SimSt π α ρ} (hr : FollowRel P A R st st') :
    Fol Good P A R (K.logged.mediumBlock st) (K'.mediumBlock st') := by
  unfold Sim.mediumBlock
  rw [show K.logged.intervals = K.intervals from rfl, h.intervals]
  refine Fol.iterM ?_ (fun s s' h' => ?_) _ _ _ hr
  · intro s s' hs x hx
    dsimp only at hs
    split at hs
    · exact keeps_smallBlock s s' hs x hx
    · exact keeps_do_tstep _ s s' hs x hx
  · rw [h.below _ _ _ h'.phys, show K.logged.below .medium s.phys = K.below .medium s.phys.1 from rfl]
    split
    · exact fol_smallBlock h h'
    · exact fol_do_tstep h _ h'

theorem fol_normalBlock (h : K.Follows K' P Q A R Good)
    {st : SimSt (π × List (RStep π)) α ρ} {st' : SimSt π α ρ} (hr : FollowRel P A R st st') :
    Fol Good P A R (K.logged.normalBlock st) (K'.normalBlock st') := by
  unfold Sim.normalBlock
  rw [show K.logged.intervals = K.intervals from rfl, h.intervals]
  refine Fol.iterM ?_ (fun s s' h' => ?_) _ _ _ hr
  · intro s s' hs x hx
    dsimp only at hs
    split at hs
    · exact keeps_mediumBlock s s' hs x hx
    · exact keeps_do_tstep _ s s' hs x hx
  · rw [h.below _ _ _ h'.phys, show K.logged.below .normal s.phys = K.below .normal s.phys.1 from rfl]
    split
    · exact fol_mediumBlock h h'
    · exact fol_do_tstep h _ h'

/-- A data step of the first simulation all of whose run steps are good is followed by the second. -/
theorem Sim.Follows.executes (h : K.Follows K' P Q A R Good) {st s : SimSt π α ρ} {st' : SimSt π α ρ}
    {l : List (RStep π)} (hp : P st.phys st'.phys) (ha : A st.acc st'.acc)
    (ht : st'.current_datetime = st.current_datetime) (ho : List.Forall₂ R st.output_list st'.output_list)
    (he : K.Executes st l s) (hg : ∀ x ∈ l, Good x) :
    ∃ s', K'.data_tstep st' = .ok s' ∧ P s.phys s'.phys ∧ A s.acc s'.acc ∧
      s'.current_datetime = s.current_datetime ∧ List.Forall₂ R s.output_list s'.output_list := by
  have key : Fol Good P A R (K.logged.data_tstep (st.log [])) (K'.data_tstep st') := by
    rw [data_tstep_eq, data_tstep_eq]
    refine Fol.bind (fol_normalBlock h (st := st.log []) (st' := st') ⟨hp, ha, ht, ho⟩) ?_ fun s s' hr => ?_
    · intro s s' hs x hx
      dsimp only at hs
      split at hs
      · exact keeps_output s s' hs x hx
      · cases hs; exact hx
    · rw [h.divided, show K.logged.output_divided = K.output_divided from rfl]
      split
      · exact fol_output h (fun p q hq => .inl hq) hr
      · intro s1 h1
        cases h1
        exact .inr ⟨s', rfl, hr⟩
  rcases key _ he with ⟨x, hx, hb⟩ | ⟨s', e, hr⟩
  · exact absurd (hg x hx) hb
  · exact ⟨s', e, hr.phys, hr.acc, hr.time, hr.out⟩

end Pysnobal
