import Verif.Lemmas.Follow

/-!
# Two simulations that agree whenever both complete

Everything here is for arbitrary simulations. -/

namespace Pysnobal

variable {π α ρ : Type}

/-- What two simulations must have in common to agree: `P` relates the physical states between run steps, `Q` those at the end of a
run step. -/
structure Sim.Agree (K K' : Sim π α ρ) (P Q : π → π → Prop) : Prop where
  intervals : K'.intervals = K.intervals
  timedelta : K'.timedelta = K.timedelta
  divided : K'.output_divided = K.output_divided
  below : ∀ lv p q, P p q → K'.below lv q = K.below lv p
  enter : ∀ p q, P p q → P (K.enter .small p) (K'.enter .small q)
  phys : ∀ lv p q p' q', P p q → K.phys lv p = .ok p' → K'.phys lv q = .ok q' → Q p' q'
  accum : ∀ lv p q a, Q p q → K'.accum lv q a = K.accum lv p a
  finish : ∀ lv p q, Q p q → P (K.finish lv p) (K'.finish lv q)
  snap : ∀ p q a t, P p q ∨ Q p q → K'.snap q a t = K.snap p a t
  reset : K'.reset = K.reset

/-- The states of the two simulations are related, everything else is the same. -/
structure AgreeRel (T : π → π → Prop) (s t : SimSt π α ρ) : Prop where
  phys : T s.phys t.phys
  acc : t.acc = s.acc
  time : t.current_datetime = s.current_datetime
  out : t.output_list = s.output_list

/-- If both computations succeed, then with related results. -/
def Agr (T : π → π → Prop) (x y : Except Err (SimSt π α ρ)) : Prop := ∀ s t, x = .ok s → y = .ok t → AgreeRel T s t

variable {K K' : Sim π α ρ} {P Q : π → π → Prop}

theorem Agr.bind {T U : π → π → Prop} {x y : Except Err (SimSt π α ρ)} {f g : SimSt π α ρ → Except Err (SimSt π α ρ)}
    (h : Agr T x y) (hf : ∀ s t, AgreeRel T s t → Agr U (f s) (g t)) : Agr U (x >>= f) (y >>= g) := by
  intro s t hs ht
  obtain ⟨s1, e1, e2⟩ := bind_eq_ok.mp hs
  obtain ⟨t1, f1, f2⟩ := bind_eq_ok.mp ht
  exact hf s1 t1 (h s1 t1 e1 f1) s t e2 f2

theorem Agr.iterM {T : π → π → Prop} {f g : SimSt π α ρ → Except Err (SimSt π α ρ)}
    (hf : ∀ s t, AgreeRel T s t → Agr T (f s) (g t)) : ∀ n s t, AgreeRel T s t → Agr T (iterM f n s) (iterM g n t)
  | 0, s, t, h => by
    intro s' t' hs ht
    cases hs
    cases ht
    exact h
  | n + 1, s, t, h => Agr.bind (hf s t h) fun s t h => Agr.iterM hf n s t h

theorem agr_output (h : K.Agree K' P Q) {T : π → π → Prop} (hT : ∀ p q, T p q → P p q ∨ Q p q) {s t : SimSt π α ρ}
    (hr : AgreeRel T s t) : Agr T (K.output s) (K'.output t) := by
  intro s' t' hs ht
  unfold Sim.output at hs ht
  rw [hr.acc, hr.time, h.snap _ _ _ _ (hT _ _ hr.phys)] at ht
  obtain ⟨r, e1, e2⟩ := bind_eq_ok.mp hs
  obtain ⟨r', f1, f2⟩ := bind_eq_ok.mp ht
  rw [e1] at f1
  cases f1
  cases e2
  cases f2
  refine ⟨hr.phys, ?_, rfl, ?_⟩
  · show K'.reset _ = K.reset _
    rw [h.reset]
  · show t.output_list ++ _ = s.output_list ++ _
    rw [hr.out]

theorem agr_do_tstep (h : K.Agree K' P Q) (lv : Level) {s t : SimSt π α ρ} (hr : AgreeRel P s t) :
    Agr P (K.do_tstep lv s) (K'.do_tstep lv t) := by
  intro s' t' hs ht
  rw [do_tstep_eq] at hs ht
  obtain ⟨p, e1, hs⟩ := bind_eq_ok.mp hs
  obtain ⟨q, f1, ht⟩ := bind_eq_ok.mp ht
  have hQ := h.phys lv _ _ _ _ hr.phys e1 f1
  rw [h.accum lv _ _ _ hQ, hr.acc] at ht
  obtain ⟨a, e2, hs⟩ := bind_eq_ok.mp hs
  obtain ⟨b, f2, ht⟩ := bind_eq_ok.mp ht
  rw [e2] at f2
  cases f2
  obtain ⟨s1, e3, hs⟩ := bind_eq_ok.mp hs
  obtain ⟨t1, f3, ht⟩ := bind_eq_ok.mp ht
  cases hs
  cases ht
  have hrel : AgreeRel Q (⟨p, a, s.current_datetime + K.timedelta lv, s.output_list⟩ : SimSt π α ρ)
      ⟨q, a, t.current_datetime + K'.timedelta lv, t.output_list⟩ :=
    ⟨hQ, rfl, by show _ = _; rw [hr.time, h.timedelta], hr.out⟩
  have h1 : AgreeRel Q s1 t1 := by
    rw [h.divided] at f3
    split at e3
    · rename_i ho
      rw [if_pos ho] at f3
      exact agr_output h (fun _ _ hq => .inr hq) hrel s1 t1 e3 f3
    · rename_i ho
      rw [if_neg ho] at f3
      cases e3
      cases f3
      exact hrel
  exact ⟨h.finish lv _ _ h1.phys, h1.acc, h1.time, h1.out⟩

theorem agr_smallBlock (h : K.Agree K' P Q) {s t : SimSt π α ρ} (hr : AgreeRel P s t) : Agr P (K.smallBlock s) (K'.smallBlock t) := by
  unfold Sim.smallBlock
  rw [h.intervals]
  exact Agr.iterM (fun _ _ h' => agr_do_tstep h .small h') _ _ _ ⟨h.enter _ _ hr.phys, hr.acc, hr.time, hr.out⟩

theorem agr_mediumBlock (h : K.Agree K' P Q) {s t : SimSt π α ρ} (hr : AgreeRel P s t) : Agr P (K.mediumBlock s) (K'.mediumBlock t) := by
  unfold Sim.mediumBlock
  rw [h.intervals]
  refine Agr.iterM (fun s t h' => ?_) _ _ _ hr
  rw [h.below _ _ _ h'.phys]
  split
  · exact agr_smallBlock h h'
  · exact agr_do_tstep h _ h'

theorem agr_normalBlock (h : K.Agree K' P Q) {s t : SimSt π α ρ} (hr : AgreeRel P s t) : Agr P (K.normalBlock s) (K'.normalBlock t) := by
  unfold Sim.normalBlock
  rw [h.intervals]
  refine Agr.iterM (fun s t h' => ?_) _ _ _ hr
  rw [h.below _ _ _ h'.phys]
  split
  · exact agr_mediumBlock h h'
  · exact agr_do_tstep h _ h'

/-- Two data steps agree. -/
theorem Sim.Agree.data_tstep (h : K.Agree K' P Q) {s t : SimSt π α ρ} (hr : AgreeRel P s t) : Agr P (K.data_tstep s) (K'.data_tstep t) := by
  rw [data_tstep_eq, data_tstep_eq]
  refine Agr.bind (agr_normalBlock h hr) fun s t h' => ?_
  rw [h.divided]
  split
  · exact agr_output h (fun _ _ hp => .inl hp) h'
  · intro s' t' hs ht
    cases hs
    cases ht
    exact h'

end Pysnobal
