import Verif.Lemmas.Trace

/-!
# The run steps a data step really executes

`K.logged` is the simulation `K` whose physical state also carries the list of the run steps computed so far.  Running the
driver (`Sim.data_tstep`, the code of snobal.py:72–279) on it therefore yields, besides the result, the exact list of
the physics calls it makes.  Everything here is for an arbitrary `Sim`.
-/

namespace Pysnobal

variable {π α ρ : Type}

/-- `K` with a log of the run steps: every successful call of the physics appends its level, the state it started from and
the state it produced; nothing else looks at the log. -/
def Sim.logged (K : Sim π α ρ) : Sim (π × List (RStep π)) α ρ where
  intervals := K.intervals
  timedelta := K.timedelta
  below lv p := K.below lv p.1
  enter lv p := (K.enter lv p.1, p.2)
  phys lv p := (K.phys lv p.1).map fun q => (q, p.2 ++ [⟨lv, p.1, q⟩])
  accum lv p a := K.accum lv p.1 a
  finish lv p := (K.finish lv p.1, p.2)
  snap p a t := K.snap p.1 a t
  reset := K.reset
  output_divided := K.output_divided

/-- Start logging with the log `l`. -/
def SimSt.log (st : SimSt π α ρ) (l : List (RStep π)) : SimSt (π × List (RStep π)) α ρ :=
  ⟨(st.phys, l), st.acc, st.current_datetime, st.output_list⟩

/-- Drop the log. -/
def SimSt.unlog (st : SimSt (π × List (RStep π)) α ρ) : SimSt π α ρ :=
  ⟨st.phys.1, st.acc, st.current_datetime, st.output_list⟩

@[simp] theorem SimSt.unlog_log (st : SimSt π α ρ) (l : List (RStep π)) : (st.log l).unlog = st := rfl

theorem SimSt.log_unlog (st : SimSt (π × List (RStep π)) α ρ) : st.unlog.log st.phys.2 = st := rfl

theorem logged_output (K : Sim π α ρ) (st : SimSt (π × List (RStep π)) α ρ) :
    (K.logged.output st).map SimSt.unlog = K.output st.unlog := by
  unfold Sim.output
  show Except.map _ ((K.snap st.phys.1 st.acc st.current_datetime) >>= _) = (K.snap st.phys.1 st.acc st.current_datetime) >>= _
  cases K.snap st.phys.1 st.acc st.current_datetime <;> rfl

theorem logged_do_tstep (K : Sim π α ρ) (lv : Level) (st : SimSt (π × List (RStep π)) α ρ) :
    (K.logged.do_tstep lv st).map SimSt.unlog = K.do_tstep lv st.unlog := by
  unfold Sim.do_tstep
  show Except.map _ (((K.phys lv st.phys.1).map fun q => (q, st.phys.2 ++ [(⟨lv, st.phys.1, q⟩ : RStep π)])) >>= _) =
    (K.phys lv st.phys.1) >>= _
  cases K.phys lv st.phys.1 with
  | error e => rfl
  | ok p =>
    show Except.map _ ((K.accum lv p st.acc) >>= _) = (K.accum lv p st.acc) >>= _
    cases K.accum lv p st.acc with
    | error e => rfl
    | ok a =>
      simp only [bind_ok]
      cases ho : K.output_divided
      · have : K.logged.output_divided = false := ho
        simp only [this, Bool.false_eq_true, if_false, pure_ok, bind_ok]
        rfl
      · have h2 : K.logged.output_divided = true := ho
        simp only [h2, if_true]
        have hlo := logged_output K
          (⟨(p, st.phys.2 ++ [⟨lv, st.phys.1, p⟩]), a, st.current_datetime + K.timedelta lv, st.output_list⟩)
        change _ = K.output ⟨p, a, st.current_datetime + K.timedelta lv, st.output_list⟩ at hlo
        show Except.map _ ((K.logged.output
          (⟨(p, st.phys.2 ++ [⟨lv, st.phys.1, p⟩]), a, st.current_datetime + K.timedelta lv, st.output_list⟩)) >>= _) =
          (K.output ⟨p, a, st.current_datetime + K.timedelta lv, st.output_list⟩) >>= _
        rw [← hlo]
        cases K.logged.output
          (⟨(p, st.phys.2 ++ [⟨lv, st.phys.1, p⟩]), a, st.current_datetime + K.timedelta lv, st.output_list⟩) <;> rfl

theorem iterM_map {σ τ : Type} (u : σ → τ) {f : σ → Except Err σ} {g : τ → Except Err τ}
    (h : ∀ s, (f s).map u = g (u s)) (n : ℕ) (s : σ) : (iterM f n s).map u = iterM g n (u s) := by
  induction n generalizing s with
  | zero => rfl
  | succ n ih =>
    simp only [iterM]
    rw [← h s]
    cases f s with
    | error e => rfl
    | ok s' => exact ih s'

theorem logged_smallBlock (K : Sim π α ρ) (st : SimSt (π × List (RStep π)) α ρ) :
    (K.logged.smallBlock st).map SimSt.unlog = K.smallBlock st.unlog :=
  iterM_map SimSt.unlog (logged_do_tstep K .small) _ _

theorem logged_mediumBlock (K : Sim π α ρ) (st : SimSt (π × List (RStep π)) α ρ) :
    (K.logged.mediumBlock st).map SimSt.unlog = K.mediumBlock st.unlog := by
  refine iterM_map SimSt.unlog (fun s => ?_) _ _
  show Except.map _ (if K.below .medium s.phys.1 = true then _ else _) = if K.below .medium s.phys.1 = true then _ else _
  split
  · exact logged_smallBlock K s
  · exact logged_do_tstep K .medium s

theorem logged_normalBlock (K : Sim π α ρ) (st : SimSt (π × List (RStep π)) α ρ) :
    (K.logged.normalBlock st).map SimSt.unlog = K.normalBlock st.unlog := by
  refine iterM_map SimSt.unlog (fun s => ?_) _ _
  show Except.map _ (if K.below .normal s.phys.1 = true then _ else _) = if K.below .normal s.phys.1 = true then _ else _
  split
  · exact logged_mediumBlock K s
  · exact logged_do_tstep K .normal s

/-- Logging does not change the result of a data step, including which exception it raises. -/
theorem logged_data_tstep (K : Sim π α ρ) (st : SimSt (π × List (RStep π)) α ρ) :
    (K.logged.data_tstep st).map SimSt.unlog = K.data_tstep st.unlog := by
  rw [data_tstep_eq, data_tstep_eq, ← logged_normalBlock]
  cases K.logged.normalBlock st with
  | error e => rfl
  | ok s =>
    show Except.map _ (if K.output_divided = false then _ else _) = if K.output_divided = false then _ else _
    split
    · exact logged_output K s
    · rfl

/-- `K.Executes st l st'`: the data step that starts in `st` completes in `st'` and `l` is the list of the run steps it
executes. -/
def Sim.Executes (K : Sim π α ρ) (st : SimSt π α ρ) (l : List (RStep π)) (st' : SimSt π α ρ) : Prop :=
  K.logged.data_tstep (st.log []) = .ok (st'.log l)

theorem Sim.Executes.unique {K : Sim π α ρ} {st s1 s2 : SimSt π α ρ} {l1 l2 : List (RStep π)}
    (h1 : K.Executes st l1 s1) (h2 : K.Executes st l2 s2) : l1 = l2 ∧ s1 = s2 := by
  unfold Sim.Executes at h1 h2
  rw [h1] at h2
  have h := Except.ok.inj h2
  have e1 : (s1.log l1).phys.2 = (s2.log l2).phys.2 := by rw [h]
  have e2 : (s1.log l1).unlog = (s2.log l2).unlog := by rw [h]
  exact ⟨e1, e2⟩

theorem executes_iff {K : Sim π α ρ} {st st' : SimSt π α ρ} :
    K.data_tstep st = .ok st' ↔ ∃ l, K.Executes st l st' := by
  have h := logged_data_tstep K (st.log [])
  rw [SimSt.unlog_log] at h
  rw [← h]
  unfold Sim.Executes
  cases K.logged.data_tstep (st.log []) with
  | error e => simp [Except.map]
  | ok s =>
    simp only [Except.map, Except.ok.injEq]
    constructor
    · rintro rfl
      exact ⟨s.phys.2, rfl⟩
    · rintro ⟨l, rfl⟩
      rfl

/-! ### The log is a sequence of run steps, and how it is subdivided -/

/-- `l` consists of `k` consecutive pieces, each satisfying `P`. -/
def Pieces {β : Type} (P : List β → Prop) (k : ℕ) (l : List β) : Prop :=
  ∃ bs : List (List β), bs.length = k ∧ (∀ b ∈ bs, P b) ∧ l = bs.flatten

/-- One medium interval as executed: one medium step from a state that is not below the medium threshold, or the small
steps of the interval, the first of them from a state that is below it. -/
def Sim.MediumPart (K : Sim π α ρ) (l : List (RStep π)) : Prop :=
  (∃ x, l = [x] ∧ x.lv = .medium ∧ K.below .medium x.pre = false) ∨
  (l.length = (K.intervals .small).toNat ∧ (∀ x ∈ l, x.lv = .small) ∧ ∀ x ∈ l.head?, K.below .medium x.pre = true)

/-- One normal interval as executed: one normal step from a state that is not below the normal threshold, or the medium
intervals it consists of, the first run step of them from a state that is below it. -/
def Sim.NormalPart (K : Sim π α ρ) (l : List (RStep π)) : Prop :=
  (∃ x, l = [x] ∧ x.lv = .normal ∧ K.below .normal x.pre = false) ∨
  (Pieces K.MediumPart (K.intervals .medium).toNat l ∧ ∀ x ∈ l.head?, K.below .normal x.pre = true)

/-- A stretch of the log between two states: it extends the log by `l`, `l` is a sequence of run steps of `K`, and the
first of them starts from the given snow as far as the thresholds are concerned. -/
def Sim.Stretch (K : Sim π α ρ) (s : SimSt (π × List (RStep π)) α ρ) (l : List (RStep π))
    (s' : SimSt (π × List (RStep π)) α ρ) : Prop :=
  s'.phys.2 = s.phys.2 ++ l ∧ K.Runs s.unlog l s'.unlog ∧
    ∀ x ∈ l.head?, ∀ lv, K.below lv x.pre = K.below lv s.phys.1

theorem Sim.Stretch.nil (K : Sim π α ρ) (s : SimSt (π × List (RStep π)) α ρ) : K.Stretch s [] s :=
  ⟨by simp, .nil _, by simp⟩

/-- The threshold test does not look at what entering the small level changes (snobal.py:176–178 touches the forcing
only). -/
def Sim.EnterKeeps (K : Sim π α ρ) : Prop := ∀ lv p, K.below lv (K.enter .small p) = K.below lv p

theorem do_tstep_stretch {K : Sim π α ρ} {lv : Level} {s s' : SimSt (π × List (RStep π)) α ρ}
    (hb : lv = .small ∨ K.below lv s.phys.1 = false) (h : K.logged.do_tstep lv s = .ok s') :
    ∃ x, x.lv = lv ∧ x.pre = s.phys.1 ∧ K.Stretch s [x] s' := by
  have h0 : K.do_tstep lv s.unlog = .ok s'.unlog := by rw [← logged_do_tstep, h]; rfl
  obtain ⟨p, a, h1, _, h3, _⟩ := do_tstep_ok h
  change (K.phys lv s.phys.1).map _ = _ at h1
  cases hp : K.phys lv s.phys.1 with
  | error e => rw [hp] at h1; cases h1
  | ok q =>
    rw [hp] at h1
    cases h1
    refine ⟨⟨lv, s.phys.1, q⟩, rfl, rfl, ?_, .step hb hp h0 (.nil _), ?_⟩
    · rw [h3]; rfl
    · intro x hx lv'
      simp only [List.head?_cons, Option.mem_some_iff] at hx
      subst hx
      rfl

theorem iterM_pieces {K : Sim π α ρ} {f : SimSt (π × List (RStep π)) α ρ → Except Err (SimSt (π × List (RStep π)) α ρ)}
    {P : List (RStep π) → Prop} (hf : ∀ s s', f s = .ok s' → ∃ l, K.Stretch s l s' ∧ P l)
    (hne : (∀ l, P l → l ≠ []) ∨ ∀ s s', f s = .ok s' → ∃ l, K.Stretch s l s' ∧ P l ∧
      (l = [] → ∀ lv, K.below lv s'.phys.1 = K.below lv s.phys.1)) (n : ℕ)
    {s s' : SimSt (π × List (RStep π)) α ρ} (h : iterM f n s = .ok s') :
    ∃ l, K.Stretch s l s' ∧ Pieces P n l ∧ (l = [] → ∀ lv, K.below lv s'.phys.1 = K.below lv s.phys.1) := by
  have hf' : ∀ s s', f s = .ok s' → ∃ l, K.Stretch s l s' ∧ P l ∧
      (l = [] → ∀ lv, K.below lv s'.phys.1 = K.below lv s.phys.1) := by
    rcases hne with hne | hne
    · intro s s' h
      obtain ⟨l, h1, h2⟩ := hf s s' h
      exact ⟨l, h1, h2, fun e => absurd e (hne l h2)⟩
    · exact hne
  clear hf hne
  induction n generalizing s with
  | zero =>
    simp only [iterM, Except.ok.injEq] at h
    subst h
    exact ⟨[], .nil K s, ⟨[], rfl, by simp, rfl⟩, fun _ _ => rfl⟩
  | succ n ih =>
    simp only [iterM] at h
    obtain ⟨s1, h1, h2⟩ := bind_eq_ok.mp h
    obtain ⟨l1, ⟨a1, a2, a3⟩, p1, e1⟩ := hf' _ _ h1
    obtain ⟨l2, ⟨b1, b2, b3⟩, ⟨bs, c1, c2, c3⟩, e2⟩ := ih h2
    refine ⟨l1 ++ l2, ⟨by rw [b1, a1, List.append_assoc], a2.append b2, ?_⟩,
      ⟨l1 :: bs, by simp [c1], ?_, by simp [c3]⟩, ?_⟩
    · cases l1 with
      | nil =>
        intro x hx lv
        rw [b3 x (by simpa using hx) lv, e1 rfl lv]
      | cons y ys =>
        intro x hx lv
        exact a3 x (by simpa using hx) lv
    · intro b hb
      rcases List.mem_cons.mp hb with rfl | hb
      · exact p1
      · exact c2 b hb
    · intro e lv
      obtain ⟨e3, e4⟩ := List.append_eq_nil_iff.mp e
      rw [e2 e4 lv, e1 e3 lv]

theorem smallBlock_stretch {K : Sim π α ρ} (hk : K.EnterKeeps) {s s' : SimSt (π × List (RStep π)) α ρ}
    (h : K.logged.smallBlock s = .ok s') :
    ∃ l, K.Stretch s l s' ∧ (l.length = (K.intervals .small).toNat ∧ ∀ x ∈ l, x.lv = .small) ∧
      (l = [] → ∀ lv, K.below lv s'.phys.1 = K.below lv s.phys.1) := by
  unfold Sim.smallBlock at h
  obtain ⟨l, ⟨h1, h2, h3⟩, ⟨bs, b1, b2, b3⟩, h4⟩ := iterM_pieces (K := K)
    (P := fun l => ∃ x, x.lv = Level.small ∧ l = [x]) (fun s s' hs => by
      obtain ⟨x, e1, _, r⟩ := do_tstep_stretch (.inl rfl) hs
      exact ⟨[x], r, x, e1, rfl⟩) (.inl (by rintro l ⟨x, _, rfl⟩; simp)) _ h
  refine ⟨l, ⟨h1, .enter h2, fun x hx lv => ?_⟩, ?_, fun e lv => ?_⟩
  · rw [h3 x hx lv]
    exact hk lv s.phys.1
  · have key : ∀ bs : List (List (RStep π)), (∀ b ∈ bs, ∃ x, x.lv = Level.small ∧ b = [x]) →
        bs.flatten.length = bs.length ∧ ∀ x ∈ bs.flatten, x.lv = .small := by
      intro bs
      induction bs with
      | nil => simp
      | cons b bs ih =>
        intro hb
        obtain ⟨x, e1, e2⟩ := hb b (by simp)
        obtain ⟨q1, q2⟩ := ih fun c hc => hb c (by simp [hc])
        subst e2
        simp only [List.flatten_cons, List.length_append, List.length_cons, List.length_nil, q1]
        refine ⟨by omega, fun y hy => ?_⟩
        simp only [List.singleton_append, List.mem_cons] at hy
        rcases hy with rfl | hy
        · exact e1
        · exact q2 y hy
    obtain ⟨k1, k2⟩ := key bs b2
    rw [b3]
    exact ⟨by rw [k1]; exact b1, k2⟩
  · rw [h4 e lv]
    exact hk lv s.phys.1

theorem mediumBlock_stretch {K : Sim π α ρ} (hk : K.EnterKeeps) {s s' : SimSt (π × List (RStep π)) α ρ}
    (h : K.logged.mediumBlock s = .ok s') :
    ∃ l, K.Stretch s l s' ∧ Pieces K.MediumPart (K.intervals .medium).toNat l ∧
      (l = [] → ∀ lv, K.below lv s'.phys.1 = K.below lv s.phys.1) := by
  have hf : ∀ s s', (if K.logged.below .medium s.phys then K.logged.smallBlock s else K.logged.do_tstep .medium s) =
      .ok s' → ∃ l, K.Stretch s l s' ∧ K.MediumPart l ∧
      (l = [] → ∀ lv, K.below lv s'.phys.1 = K.below lv s.phys.1) := by
    intro s s' hs
    by_cases hb : K.below .medium s.phys.1
    · rw [if_pos (show K.logged.below .medium s.phys = true from hb)] at hs
      obtain ⟨l, r, p, e⟩ := smallBlock_stretch hk hs
      exact ⟨l, r, .inr ⟨p.1, p.2, fun x hx => by rw [r.2.2 x hx]; exact hb⟩, e⟩
    · rw [if_neg (show ¬ K.logged.below .medium s.phys = true from hb)] at hs
      obtain ⟨x, e1, e2, r⟩ := do_tstep_stretch (.inr (by simpa using hb)) hs
      exact ⟨[x], r, .inl ⟨x, rfl, e1, by rw [e2]; simpa using hb⟩, fun e => by simp at e⟩
  refine iterM_pieces (K := K) (fun s s' hs => ?_) (.inr hf) _ h
  obtain ⟨l, h1, h2, _⟩ := hf s s' hs
  exact ⟨l, h1, h2⟩

theorem normalBlock_stretch {K : Sim π α ρ} (hk : K.EnterKeeps) {s s' : SimSt (π × List (RStep π)) α ρ}
    (h : K.logged.normalBlock s = .ok s') :
    ∃ l, K.Stretch s l s' ∧ Pieces K.NormalPart (K.intervals .normal).toNat l := by
  have hf : ∀ s s', (if K.logged.below .normal s.phys then K.logged.mediumBlock s else K.logged.do_tstep .normal s) =
      .ok s' → ∃ l, K.Stretch s l s' ∧ K.NormalPart l ∧
      (l = [] → ∀ lv, K.below lv s'.phys.1 = K.below lv s.phys.1) := by
    intro s s' hs
    by_cases hb : K.below .normal s.phys.1
    · rw [if_pos (show K.logged.below .normal s.phys = true from hb)] at hs
      obtain ⟨l, r, p, e⟩ := mediumBlock_stretch hk hs
      exact ⟨l, r, .inr ⟨p, fun x hx => by rw [r.2.2 x hx]; exact hb⟩, e⟩
    · rw [if_neg (show ¬ K.logged.below .normal s.phys = true from hb)] at hs
      obtain ⟨x, e1, e2, r⟩ := do_tstep_stretch (.inr (by simpa using hb)) hs
      exact ⟨[x], r, .inl ⟨x, rfl, e1, by rw [e2]; simpa using hb⟩, fun e => by simp at e⟩
  obtain ⟨l, h1, h2, _⟩ := iterM_pieces (K := K) (fun s s' hs => by
    obtain ⟨l, h1, h2, _⟩ := hf s s' hs
    exact ⟨l, h1, h2⟩) (.inr hf) _ h
  exact ⟨l, h1, h2⟩

/-- The executed run steps of a completed data step, and how they subdivide it. -/
theorem Sim.Executes.parts {K : Sim π α ρ} (hk : K.EnterKeeps) {st st' : SimSt π α ρ} {l : List (RStep π)}
    (h : K.Executes st l st') :
    Pieces K.NormalPart (K.intervals .normal).toNat l ∧ ∃ mid, K.Runs st l mid ∧
      (if K.output_divided then st' = mid else K.output mid = .ok st') := by
  unfold Sim.Executes at h
  rw [data_tstep_eq] at h
  obtain ⟨s, h1, h2⟩ := bind_eq_ok.mp h
  obtain ⟨l', ⟨r1, r2, _⟩, r4⟩ := normalBlock_stretch hk h1
  have r1' : s.phys.2 = l' := by rw [r1]; rfl
  cases ho : K.output_divided
  · rw [if_pos (show K.logged.output_divided = false from ho)] at h2
    have e0 : K.output s.unlog = .ok st' := by rw [← logged_output, h2]; rfl
    obtain ⟨_, _, e⟩ := output_ok h2
    have e1 : l = s.phys.2 := congrArg (fun x : SimSt (π × List (RStep π)) α ρ => x.phys.2) e
    rw [e1, r1']
    exact ⟨r4, s.unlog, r2, by simpa using e0⟩
  · rw [if_neg (show ¬ K.logged.output_divided = false by rw [show K.logged.output_divided = true from ho]; simp)] at h2
    have e := Except.ok.inj h2
    have e1 : l = s.phys.2 := congrArg (fun x : SimSt (π × List (RStep π)) α ρ => x.phys.2) e.symm
    have e2 : st' = s.unlog := congrArg SimSt.unlog e.symm
    rw [e1, r1', e2]
    exact ⟨r4, s.unlog, r2, by simp⟩

theorem Pieces.levels {β : Type} {f : β → Level} {P : List β → Prop} {Q : List Level → Prop} {k : ℕ} {l : List β}
    (h : Pieces P k l) (hPQ : ∀ b, P b → Q (b.map f)) : Blocks Q k (l.map f) := by
  obtain ⟨bs, h1, h2, rfl⟩ := h
  refine ⟨bs.map (List.map f), by simp [h1], ?_, by simp [List.map_flatten]⟩
  intro b hb
  obtain ⟨a, ha, rfl⟩ := List.mem_map.mp hb
  exact hPQ a (h2 a ha)

theorem Sim.Executes.tiles {K : Sim π α ρ} {l : List (RStep π)}
    (h : Pieces K.NormalPart (K.intervals .normal).toNat l) :
    IsDataStep (K.intervals .normal).toNat (K.intervals .medium).toNat (K.intervals .small).toNat (l.map (·.lv)) := by
  refine h.levels fun b hb => ?_
  rcases hb with ⟨x, rfl, e, _⟩ | ⟨hb, _⟩
  · left; simp [e]
  · right
    refine hb.levels fun b hb => ?_
    rcases hb with ⟨x, rfl, e, _⟩ | ⟨h1, h2, _⟩
    · left; simp [e]
    · right
      rw [← h1]
      refine List.eq_replicate_iff.mpr ⟨by simp, ?_⟩
      intro y hy
      obtain ⟨x, hx, rfl⟩ := List.mem_map.mp hy
      exact h2 x hx

/-- A data step of one normal interval from a state that is not below the normal threshold executes one normal step. -/
theorem Sim.Executes.one {K : Sim π α ρ} {st st' : SimSt π α ρ} (hn : (K.intervals .normal).toNat = 1)
    (hb : K.below .normal st.phys = false) (h : K.data_tstep st = .ok st') {p : π} (hp : K.phys .normal st.phys = .ok p) :
    K.Executes st [⟨.normal, st.phys, p⟩] st' := by
  obtain ⟨l, hl⟩ := executes_iff.mp h
  suffices l = [⟨.normal, st.phys, p⟩] by rw [← this]; exact hl
  unfold Sim.Executes at hl
  rw [data_tstep_eq] at hl
  obtain ⟨s, h1, h2⟩ := bind_eq_ok.mp hl
  unfold Sim.normalBlock at h1
  rw [show (K.logged.intervals .normal).toNat = 1 from hn] at h1
  simp only [iterM] at h1
  obtain ⟨s1, h3, h4⟩ := bind_eq_ok.mp h1
  cases h4
  rw [if_neg (show ¬ K.logged.below .normal (st.log []).phys = true by
    rw [show K.logged.below .normal (st.log []).phys = false from hb]; simp)] at h3
  obtain ⟨x, e1, e2, q1, q2, _⟩ := do_tstep_stretch (.inr hb) h3
  have hx := (q2.mem (x := x) (by simp)).1
  rw [e1, e2, show (st.log []).phys.1 = st.phys from rfl, hp] at hx
  have e3 : s.phys.2 = l := by
    cases ho : K.output_divided
    · rw [if_pos (show K.logged.output_divided = false from ho)] at h2
      obtain ⟨_, _, e⟩ := output_ok h2
      exact (congrArg (fun x : SimSt (π × List (RStep π)) α ρ => x.phys.2) e).symm
    · rw [if_neg (show ¬ K.logged.output_divided = false by rw [show K.logged.output_divided = true from ho]; simp)] at h2
      exact congrArg (fun x : SimSt (π × List (RStep π)) α ρ => x.phys.2) (Except.ok.inj h2)
  rw [← e3, q1]
  have : x = ⟨.normal, st.phys, p⟩ := by
    cases x
    simp only at e1 e2 hx
    subst e1 e2
    cases hx
    rfl
  rw [this]
  rfl

end Pysnobal
