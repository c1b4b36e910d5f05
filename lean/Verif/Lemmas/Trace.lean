import Verif.Driver

/-!
# Trace lemmas for the time stepping

Every completed data step is a sequence of run steps whose levels tile the data step.  Everything here
is for an arbitrary `Sim`.
-/

namespace Pysnobal

variable {π α ρ : Type}

/-! ### Specification vocabulary: which sequences of levels tile a data step -/

/-- `l` is the concatenation of `k` pieces, each satisfying `P`. -/
def Blocks (P : List Level → Prop) (k : ℕ) (l : List Level) : Prop :=
  ∃ bs : List (List Level), bs.length = k ∧ (∀ b ∈ bs, P b) ∧ l = bs.flatten

/-- One medium interval: one medium step or `ns` small steps. -/
def IsMediumInterval (ns : ℕ) (l : List Level) : Prop :=
  l = [.medium] ∨ l = List.replicate ns .small

/-- One normal interval: one normal step or `nm` medium intervals. -/
def IsNormalInterval (nm ns : ℕ) (l : List Level) : Prop :=
  l = [.normal] ∨ Blocks (IsMediumInterval ns) nm l

/-- One data step: `nn` normal intervals. -/
def IsDataStep (nn nm ns : ℕ) (l : List Level) : Prop :=
  Blocks (IsNormalInterval nm ns) nn l

theorem Blocks.zero {P : List Level → Prop} : Blocks P 0 [] := ⟨[], rfl, by simp, rfl⟩

theorem Blocks.succ {P : List Level → Prop} {k : ℕ} {a b : List Level} (ha : P a) (hb : Blocks P k b) :
    Blocks P (k + 1) (a ++ b) := by
  obtain ⟨bs, h1, h2, h3⟩ := hb
  refine ⟨a :: bs, by simp [h1], ?_, by simp [h3]⟩
  intro x hx
  rcases List.mem_cons.mp hx with h | h
  · exact h ▸ ha
  · exact h2 x h

/-- If every piece has the same total weight, the whole has `k` times that weight. -/
theorem Blocks.sum {R : Type} [AddCommMonoid R] {P : List Level → Prop} {k : ℕ} {l : List Level}
    (w : Level → R) (x : R) (hP : ∀ b, P b → (b.map w).sum = x) (h : Blocks P k l) :
    (l.map w).sum = k • x := by
  obtain ⟨bs, h1, h2, rfl⟩ := h
  subst h1
  induction bs with
  | nil => simp
  | cons b bs ih =>
    simp only [List.flatten_cons, List.map_append, List.sum_append, List.length_cons, succ_nsmul]
    rw [hP b (h2 b (by simp)), ih (fun c hc => h2 c (by simp [hc])), add_comm]

/-- Weights that tile: a normal step weighs as much as its medium steps, a medium step as much as its
small steps; then every data step has the weight of its normal steps. -/
theorem IsDataStep.sum {R : Type} [AddCommMonoid R] {nn nm ns : ℕ} {l : List Level} (w : Level → R)
    (hm : ns • w .small = w .medium) (hn : nm • w .medium = w .normal) (h : IsDataStep nn nm ns l) :
    (l.map w).sum = nn • w .normal := by
  refine Blocks.sum w (w .normal) ?_ h
  rintro b (rfl | hb)
  · simp
  · rw [Blocks.sum w (w .medium) ?_ hb, hn]
    rintro b (rfl | rfl)
    · simp
    · simp [hm]

theorem Blocks.ne_nil {P : List Level → Prop} {k : ℕ} {l : List Level} (hP : ∀ b, P b → b ≠ [])
    (hk : 0 < k) (h : Blocks P k l) : l ≠ [] := by
  obtain ⟨bs, h1, h2, rfl⟩ := h
  cases bs with
  | nil => simp at h1; omega
  | cons b bs =>
    have := hP b (h2 b (by simp))
    simp [this]

theorem IsDataStep.ne_nil {nn nm ns : ℕ} {l : List Level} (hn : 0 < nn) (hm : 0 < nm) (hs : 0 < ns)
    (h : IsDataStep nn nm ns l) : l ≠ [] := by
  refine Blocks.ne_nil ?_ hn h
  rintro b (rfl | hb)
  · simp
  · refine Blocks.ne_nil ?_ hm hb
    rintro b (rfl | rfl)
    · simp
    · simp; omega

/-! ### The recursion-free form of a data step -/

/-- All small steps of one medium interval. -/
def Sim.smallBlock (K : Sim π α ρ) (st : SimSt π α ρ) : Except Err (SimSt π α ρ) :=
  iterM (K.do_tstep .small) (K.intervals .small).toNat { st with phys := K.enter .small st.phys }

/-- All medium intervals of one normal interval. -/
def Sim.mediumBlock (K : Sim π α ρ) (st : SimSt π α ρ) : Except Err (SimSt π α ρ) :=
  iterM (fun s => if K.below .medium s.phys then K.smallBlock s else K.do_tstep .medium s)
    (K.intervals .medium).toNat st

/-- All normal intervals of a data step. -/
def Sim.normalBlock (K : Sim π α ρ) (st : SimSt π α ρ) : Except Err (SimSt π α ρ) :=
  iterM (fun s => if K.below .normal s.phys then K.mediumBlock s else K.do_tstep .normal s)
    (K.intervals .normal).toNat st

theorem iterM_pair {σ : Type} (f : σ → Except Err σ) (g : ℤ × σ → Except Err (ℤ × σ)) (c : ℤ)
    (h : ∀ s, g (c, s) = (f s).map (fun s' => (c, s'))) (n : ℕ) (s : σ) :
    iterM g n (c, s) = (iterM f n s).map (fun s' => (c, s')) := by
  induction n generalizing s with
  | zero => rfl
  | succ n ih =>
    simp only [iterM, h]
    cases hf : f s with
    | error e => rfl
    | ok s' => simpa [Except.map] using ih s'

theorem divide_small (K : Sim π α ρ) (fuel : ℕ) (st : SimSt π α ρ) :
    K.divide_tstep (fuel + 1) (2, st) = (K.smallBlock st).map (fun s => (1, s)) := by
  unfold Sim.divide_tstep
  simp only [levelAt]
  norm_num [Level.toNat]
  rw [iterM_pair (K.do_tstep .small)]
  · unfold Sim.smallBlock
    cases iterM (K.do_tstep .small) (K.intervals .small).toNat
      { st with phys := K.enter .small st.phys } <;> simp [Except.map]
  · intro s
    simp
    cases K.do_tstep .small s <;> simp [Except.map]

theorem divide_medium (K : Sim π α ρ) (fuel : ℕ) (st : SimSt π α ρ) :
    K.divide_tstep (fuel + 2) (1, st) = (K.mediumBlock st).map (fun s => (0, s)) := by
  unfold Sim.divide_tstep
  simp only [levelAt]
  norm_num [Level.toNat]
  rw [iterM_pair (fun s => if K.below .medium s.phys then K.smallBlock s else K.do_tstep .medium s)]
  · unfold Sim.mediumBlock
    cases iterM (fun s => if K.below .medium s.phys then K.smallBlock s else K.do_tstep .medium s)
      (K.intervals .medium).toNat st <;> simp [Except.map]
  · intro s
    by_cases hb : K.below .medium s.phys
    · simp [hb, divide_small]
    · simp [hb]
      cases K.do_tstep .medium s <;> simp [Except.map]

theorem divide_normal (K : Sim π α ρ) (fuel : ℕ) (st : SimSt π α ρ) :
    K.divide_tstep (fuel + 3) (0, st) =
      (K.normalBlock st >>= fun s => if K.output_divided = false then K.output s else .ok s).map
        (fun s => (-1, s)) := by
  unfold Sim.divide_tstep
  simp only [levelAt]
  norm_num [Level.toNat]
  rw [iterM_pair (fun s => if K.below .normal s.phys then K.mediumBlock s else K.do_tstep .normal s)]
  · unfold Sim.normalBlock
    cases iterM (fun s => if K.below .normal s.phys then K.mediumBlock s else K.do_tstep .normal s)
      (K.intervals .normal).toNat st with
    | error e => simp [Except.map]
    | ok s =>
      simp only [Except.map, bind_ok]
      by_cases ho : K.output_divided = false
      · simp [ho]
        cases K.output s <;> simp
      · simp [ho]
  · intro s
    by_cases hb : K.below .normal s.phys
    · simp [hb, divide_medium]
    · simp [hb]
      cases K.do_tstep .normal s <;> simp [Except.map]

/-- A data step without recursion. -/
theorem data_tstep_eq (K : Sim π α ρ) (st : SimSt π α ρ) :
    K.data_tstep st =
      (K.normalBlock st >>= fun s => if K.output_divided = false then K.output s else .ok s) := by
  unfold Sim.data_tstep
  rw [show (3 : ℕ) = 0 + 3 from rfl, divide_normal]
  cases (K.normalBlock st >>= fun s => if K.output_divided = false then K.output s else .ok s) <;>
    simp [Except.map]

/-! ### Executed run steps -/

/-- One executed run step: its level, the physical state it started from and the one it produced
(before the forcing is moved on to the next step). -/
structure RStep (π : Type) where
  lv : Level
  pre : π
  post : π

/-- `K.Runs st l st'`: from `st` the run steps `l` are executed one after the other, leading to `st'`.
Each is either a small step or starts from a state that is not below its level's threshold. -/
inductive Sim.Runs (K : Sim π α ρ) : SimSt π α ρ → List (RStep π) → SimSt π α ρ → Prop
  | nil (st : SimSt π α ρ) : Sim.Runs K st [] st
  | enter {st st' : SimSt π α ρ} {l : List (RStep π)} :
      Sim.Runs K { st with phys := K.enter .small st.phys } l st' → Sim.Runs K st l st'
  | step {st st1 st2 : SimSt π α ρ} {l : List (RStep π)} {lv : Level} {p : π} :
      lv = .small ∨ K.below lv st.phys = false → K.phys lv st.phys = .ok p →
      K.do_tstep lv st = .ok st1 → Sim.Runs K st1 l st2 → Sim.Runs K st (⟨lv, st.phys, p⟩ :: l) st2

theorem Sim.Runs.append {K : Sim π α ρ} {a b c : SimSt π α ρ} {l l' : List (RStep π)}
    (h : K.Runs a l b) (h' : K.Runs b l' c) : K.Runs a (l ++ l') c := by
  induction h with
  | nil => exact h'
  | enter _ ih => exact .enter (ih h')
  | step h1 h2 h3 _ ih => exact .step h1 h2 h3 (ih h')

theorem Sim.Runs.single {K : Sim π α ρ} {st st' : SimSt π α ρ} {lv : Level}
    (hb : lv = .small ∨ K.below lv st.phys = false) (h : K.do_tstep lv st = .ok st') :
    ∃ p, K.phys lv st.phys = .ok p ∧ K.Runs st [⟨lv, st.phys, p⟩] st' := by
  have h0 := h
  unfold Sim.do_tstep at h
  obtain ⟨p, hp, _⟩ := bind_eq_ok.mp h
  exact ⟨p, hp, .step hb hp h0 (.nil _)⟩

theorem iterM_runs {K : Sim π α ρ} {f : SimSt π α ρ → Except Err (SimSt π α ρ)}
    {P : List Level → Prop}
    (hf : ∀ s s', f s = .ok s' → ∃ l, K.Runs s l s' ∧ P (l.map (·.lv))) (n : ℕ) {s s' : SimSt π α ρ}
    (h : iterM f n s = .ok s') : ∃ l, K.Runs s l s' ∧ Blocks P n (l.map (·.lv)) := by
  induction n generalizing s with
  | zero =>
    simp [iterM] at h
    subst h
    exact ⟨[], .nil _, Blocks.zero⟩
  | succ n ih =>
    simp only [iterM] at h
    obtain ⟨s1, h1, h2⟩ := bind_eq_ok.mp h
    obtain ⟨l1, r1, p1⟩ := hf _ _ h1
    obtain ⟨l2, r2, p2⟩ := ih h2
    exact ⟨l1 ++ l2, r1.append r2, by simpa using Blocks.succ p1 p2⟩

theorem smallBlock_runs {K : Sim π α ρ} {s s' : SimSt π α ρ} (h : K.smallBlock s = .ok s') :
    ∃ l, K.Runs s l s' ∧ l.map (·.lv) = List.replicate (K.intervals .small).toNat .small := by
  unfold Sim.smallBlock at h
  obtain ⟨l, r, hb⟩ := iterM_runs (K := K) (P := fun l => l = [Level.small]) (fun s s' hs => by
    obtain ⟨p, _, r⟩ := Sim.Runs.single (.inl rfl) hs
    exact ⟨_, r, rfl⟩) _ h
  refine ⟨l, .enter r, ?_⟩
  obtain ⟨bs, h1, h2, h3⟩ := hb
  rw [h3, ← h1]
  clear h1 h3 r
  induction bs with
  | nil => rfl
  | cons b bs ih =>
    rw [List.flatten_cons, h2 b (by simp), ih (fun c hc => h2 c (by simp [hc]))]
    rfl

theorem mediumBlock_runs {K : Sim π α ρ} {s s' : SimSt π α ρ} (h : K.mediumBlock s = .ok s') :
    ∃ l, K.Runs s l s' ∧ Blocks (IsMediumInterval (K.intervals .small).toNat)
      (K.intervals .medium).toNat (l.map (·.lv)) := by
  unfold Sim.mediumBlock at h
  refine iterM_runs (K := K) (fun s s' hs => ?_) _ h
  by_cases hb : K.below .medium s.phys
  · simp only [hb, if_true] at hs
    obtain ⟨l, r, hl⟩ := smallBlock_runs hs
    exact ⟨l, r, .inr hl⟩
  · simp only [hb, Bool.false_eq_true, if_false] at hs
    obtain ⟨p, _, r⟩ := Sim.Runs.single (.inr (by simpa using hb)) hs
    exact ⟨_, r, .inl rfl⟩

theorem normalBlock_runs {K : Sim π α ρ} {s s' : SimSt π α ρ} (h : K.normalBlock s = .ok s') :
    ∃ l, K.Runs s l s' ∧ IsDataStep (K.intervals .normal).toNat (K.intervals .medium).toNat
      (K.intervals .small).toNat (l.map (·.lv)) := by
  unfold Sim.normalBlock at h
  refine iterM_runs (K := K) (fun s s' hs => ?_) _ h
  by_cases hb : K.below .normal s.phys
  · simp only [hb, if_true] at hs
    obtain ⟨l, r, hl⟩ := mediumBlock_runs hs
    exact ⟨l, r, .inr hl⟩
  · simp only [hb, Bool.false_eq_true, if_false] at hs
    obtain ⟨p, _, r⟩ := Sim.Runs.single (.inr (by simpa using hb)) hs
    exact ⟨_, r, .inl rfl⟩

/-- The trace theorem: a completed data step executes run steps that tile the data step, and then
(in normal mode) emits a record. -/
theorem data_tstep_runs {K : Sim π α ρ} {st st' : SimSt π α ρ} (h : K.data_tstep st = .ok st') :
    ∃ l mid, K.Runs st l mid ∧
      IsDataStep (K.intervals .normal).toNat (K.intervals .medium).toNat (K.intervals .small).toNat
        (l.map (·.lv)) ∧
      (if K.output_divided then st' = mid else K.output mid = .ok st') := by
  rw [data_tstep_eq] at h
  obtain ⟨mid, h1, h2⟩ := bind_eq_ok.mp h
  obtain ⟨l, r, hl⟩ := normalBlock_runs h1
  refine ⟨l, mid, r, hl, ?_⟩
  cases ho : K.output_divided
  · simpa [ho] using h2
  · simp only [ho] at h2
    simpa [eq_comm] using h2

/-! ### Effect of single operations -/

theorem output_ok {K : Sim π α ρ} {st st' : SimSt π α ρ} (h : K.output st = .ok st') :
    ∃ r, K.snap st.phys st.acc st.current_datetime = .ok r ∧
      st' = { st with output_list := st.output_list ++ [r], acc := K.reset st.acc } := by
  unfold Sim.output at h
  obtain ⟨r, h1, h2⟩ := bind_eq_ok.mp h
  refine ⟨r, h1, ?_⟩
  simpa [eq_comm] using h2

/-- What a run step does to the object: physics, accumulators, clock, optional record. -/
theorem do_tstep_ok {K : Sim π α ρ} {lv : Level} {st st' : SimSt π α ρ}
    (h : K.do_tstep lv st = .ok st') :
    ∃ p a, K.phys lv st.phys = .ok p ∧ K.accum lv p st.acc = .ok a ∧
      st'.phys = K.finish lv p ∧ st'.current_datetime = st.current_datetime + K.timedelta lv ∧
      ((K.output_divided = true ∧ ∃ r, K.snap p a (st.current_datetime + K.timedelta lv) = .ok r ∧
          st'.output_list = st.output_list ++ [r] ∧ st'.acc = K.reset a) ∨
       (K.output_divided = false ∧ st'.output_list = st.output_list ∧ st'.acc = a)) := by
  unfold Sim.do_tstep at h
  obtain ⟨p, hp, h⟩ := bind_eq_ok.mp h
  obtain ⟨a, ha, h⟩ := bind_eq_ok.mp h
  cases ho : K.output_divided
  · simp [ho] at h
    subst h
    exact ⟨p, a, hp, ha, rfl, rfl, .inr ⟨rfl, rfl, rfl⟩⟩
  · simp only [ho, if_true] at h
    obtain ⟨s2, h2, h⟩ := bind_eq_ok.mp h
    obtain ⟨r, hr, h3⟩ := output_ok h2
    subst h3
    simp only [pure_ok, Except.ok.injEq] at h
    subst h
    exact ⟨p, a, hp, ha, rfl, rfl, .inl ⟨rfl, r, hr, rfl, rfl⟩⟩

/-- The clock after a sequence of run steps. -/
theorem Sim.Runs.clock {K : Sim π α ρ} {st st' : SimSt π α ρ} {l : List (RStep π)}
    (h : K.Runs st l st') :
    st'.current_datetime = st.current_datetime + (l.map (fun x => K.timedelta x.lv)).sum := by
  induction h with
  | nil => simp
  | enter _ ih => simpa using ih
  | step _ _ h3 _ ih =>
    obtain ⟨_, _, _, _, _, hc, _⟩ := do_tstep_ok h3
    rw [ih, hc]
    simp
    ring

theorem Sim.Runs.output_nil {K : Sim π α ρ} {st st' : SimSt π α ρ} {l : List (RStep π)}
    (ho : K.output_divided = false) (h : K.Runs st l st') : st'.output_list = st.output_list := by
  induction h with
  | nil => rfl
  | enter _ ih => exact ih
  | step _ _ h3 _ ih =>
    obtain ⟨_, _, _, _, _, _, h | h⟩ := do_tstep_ok h3
    · simp [ho] at h
    · rw [ih, h.2.1]

/-- Every executed step really was a successful physics step from a sufficiently thick pack. -/
theorem Sim.Runs.mem {K : Sim π α ρ} {st st' : SimSt π α ρ} {l : List (RStep π)}
    (h : K.Runs st l st') {x : RStep π} (hx : x ∈ l) :
    K.phys x.lv x.pre = .ok x.post ∧ (x.lv = .small ∨ K.below x.lv x.pre = false) := by
  induction h with
  | nil => simp at hx
  | enter _ ih => exact ih hx
  | step h1 h2 _ _ ih =>
    rcases List.mem_cons.mp hx with rfl | hx
    · exact ⟨h2, h1⟩
    · exact ih hx

/-- Invariant rule for the physical state. -/
theorem Sim.Runs.phys_inv {K : Sim π α ρ} {st st' : SimSt π α ρ} {l : List (RStep π)}
    (I : π → Prop) (he : ∀ p, I p → I (K.enter .small p))
    (hs : ∀ lv p p', I p → K.phys lv p = .ok p' → I (K.finish lv p'))
    (h : K.Runs st l st') (h0 : I st.phys) : I st'.phys := by
  induction h with
  | nil => exact h0
  | enter _ ih => exact ih (he _ h0)
  | step _ h2 h3 _ ih =>
    obtain ⟨p, _, hp, _, hph, _⟩ := do_tstep_ok h3
    exact ih (hph ▸ hs _ _ _ h0 hp)

end Pysnobal
