import Verif.Lemmas.NanData

/-! # Whole runs with a missing value -/

namespace Pysnobal

noncomputable section

open Classical

namespace Nan

variable {c : Env} {ts : Tsteps} {all : Bool} {dl : Level → NInput}

/-- No layer, no mass. -/
def Phys.Zero (p : Phys) : Prop := p.snow.layer_count = 0 ∧ p.snow.m_s = some 0
/-- If there is no layer there is no mass. -/
def Phys.Massless (p : Phys) : Prop := p.snow.layer_count = 0 → p.snow.m_s = some 0
/-- No snow falls in the run steps of the data step. -/
def Phys.Snowless (dl : Level → NInput) (p : Phys) : Prop :=
  p.input1.precip_now = true → ∀ lv, ¬(some 0 : NVal) <ₙ (dl lv).m_snow

theorem step_precip {dt : ℝ} {d : NInput} {p p' : Phys} (e : stepPhys c dt d p = .ok p') :
    p'.input1.precip_now = p.input1.precip_now := by
  obtain ⟨q, e1, _, e3⟩ := stepPhys_parts e
  obtain ⟨_, _, _, _, _, _, k7⟩ := energy_balance_keeps e1
  have w7 := (forcing_weather p d).2.2.2.2.2.2.1
  rw [e3]
  rcases k7 with k7 | ⟨x, k7⟩ <;> rw [k7] <;> exact w7

theorem enter_keeps (lv : Level) (p : Phys) : ((snobalSim c ts all dl).enter lv p).snow = p.snow ∧
    ((snobalSim c ts all dl).enter lv p).input1.precip_now = p.input1.precip_now ∧
    ((snobalSim c ts all dl).enter lv p).input1.S_n = p.input1.S_n ∧
    ((snobalSim c ts all dl).enter lv p).input1.I_lw = p.input1.I_lw ∧
    ((snobalSim c ts all dl).enter lv p).input1.u = p.input1.u ∧
    ((snobalSim c ts all dl).enter lv p).input1.t_a = p.input1.t_a ∧
    ((snobalSim c ts all dl).enter lv p).input1.e_a = p.input1.e_a ∧
    ((snobalSim c ts all dl).enter lv p).input1.t_g = p.input1.t_g := by
  simp only [snobalSim]
  split <;> exact ⟨rfl, rfl, rfl, rfl, rfl, rfl, rfl, rfl⟩

theorem snapshot_shows {s : Snow} {a : Acc} {t : ℤ} {r : OutRec} (h : snapshot s a t = .ok r) :
    r.layer_count = s.layer_count ∧ r.m_s = s.m_s ∧ r.date_time = t := by
  unfold snapshot at h
  split at h
  · cases h
  · cases h; exact ⟨rfl, rfl, rfl⟩

/-- The record shows bare ground. -/
def OutRec.ShowsBare (r : OutRec) : Prop := r.layer_count = 0 ∧ r.m_s = some 0

/-- The records added from `l` to `l'` all show bare ground; at least one is added if `w`. -/
def AddsBare (w : Prop) (l l' : List OutRec) : Prop :=
  ∃ a, l' = l ++ a ∧ (∀ r ∈ a, r.ShowsBare) ∧ (w → a ≠ [])

theorem AddsBare.trans {v w : Prop} {l l' l'' : List OutRec} (h : AddsBare v l l') (k : AddsBare w l' l'') :
    AddsBare (v ∨ w) l l'' := by
  obtain ⟨a, rfl, h2, h3⟩ := h
  obtain ⟨b, rfl, k2, k3⟩ := k
  refine ⟨a ++ b, by simp, fun r hr => ?_, ?_⟩
  · rcases List.mem_append.mp hr with hr | hr
    · exact h2 r hr
    · exact k2 r hr
  · rintro (x | x) e
    · exact h3 x (List.append_eq_nil_iff.mp e).1
    · exact k3 x (List.append_eq_nil_iff.mp e).2

theorem AddsBare.mono {v w : Prop} {l l' : List OutRec} (h : AddsBare v l l') (k : w → v) : AddsBare w l l' := by
  obtain ⟨a, h1, h2, h3⟩ := h
  exact ⟨a, h1, h2, fun x => h3 (k x)⟩

/-- Without a run step the snow does not change and nothing is put out. -/
theorem runs_nil {a b : Model} {l : List (RStep Phys)} (h : (snobalSim c ts all dl).Runs a l b) :
    l = [] → b.phys.snow = a.phys.snow ∧ b.output_list = a.output_list := by
  induction h with
  | nil => exact fun _ => ⟨rfl, rfl⟩
  | @enter a b l _ ih =>
    intro hl
    obtain ⟨j1, j2⟩ := ih hl
    exact ⟨j1.trans (enter_keeps (c := c) (ts := ts) (all := all) (dl := dl) .small a.phys).1, j2⟩
  | step => intro hl; cases hl

/-- Once a run step has started without snow, or with one of the values missing that end it, no snow lies. -/
theorem runs_nan {st st' : Model} {l : List (RStep Phys)} (h : (snobalSim c ts all dl).Runs st l st')
    (hB : st.phys.Massless) (hw : st.phys.Snowless dl)
    (hn : st.phys.snow.layer_count = 0 ∨ st.phys.input1.u = none ∨ st.phys.input1.t_a = none ∨
      st.phys.input1.e_a = none ∨ st.phys.input1.t_g = none ∨ st.phys.snow.t_s_0 = none) :
    (l ≠ [] → st'.phys.Zero) ∧ AddsBare (l ≠ [] ∧ all = true) st.output_list st'.output_list := by
  induction h with
  | nil => exact ⟨fun h => absurd rfl h, [], by simp, by simp, fun h => absurd rfl h.1⟩
  | @enter st st' l hr ih =>
    obtain ⟨k1, k2, _, _, k5, k6, k7, k8⟩ := enter_keeps (c := c) (ts := ts) (all := all) (dl := dl) .small st.phys
    refine ih ?_ ?_ ?_
    · unfold Phys.Massless; dsimp only; rw [k1]; exact hB
    · unfold Phys.Snowless; dsimp only; rw [k2]; exact hw
    · dsimp only; rw [k1, k5, k6, k7, k8]; exact hn
  | @step st st1 st2 l lv p hb hp hd hr ih =>
    have hp' : stepPhys c (ts lv).time_step (dl lv) st.phys = .ok p := hp
    obtain ⟨z1, z2, _⟩ := step_nan hB (fun k => hw k lv) hn hp'
    obtain ⟨p2, a, q1, q2, q3, q4, q5⟩ := do_tstep_ok hd
    have hpp : p2 = p := Except.ok.inj (q1.symm.trans hp)
    subst hpp
    have hs : st1.phys.snow = p2.snow := by rw [q3]; rfl
    have hi : st1.phys.input1.precip_now = p2.input1.precip_now := by rw [q3]; rfl
    obtain ⟨i1, i2⟩ := ih (fun _ => by rw [hs]; exact z2)
      (fun k => hw (by rw [← step_precip hp', ← hi]; exact k)) (.inl (by rw [hs]; exact z1))
    have i0 : AddsBare (all = true) st.output_list st1.output_list := by
      rcases q5 with ⟨_, r, hr, ho, _⟩ | ⟨hf, ho, _⟩
      · obtain ⟨r1, r2, _⟩ := snapshot_shows (show snapshot p2.snow a.acc _ = .ok r from hr)
        refine ⟨[r], ho, fun x hx => ?_, fun _ => by simp⟩
        rw [List.mem_singleton.mp hx]
        exact ⟨r1.trans z1, r2.trans z2⟩
      · exact ⟨[], by rw [ho]; simp, by simp, fun ha => by rw [show all = false from hf] at ha; cases ha⟩
    refine ⟨fun _ => ?_, (i0.trans i2).mono fun h => .inl h.2⟩
    by_cases hl : l = []
    · obtain ⟨j1, _⟩ := runs_nil hr hl
      unfold Phys.Zero
      rw [j1, hs]
      exact ⟨z1, z2⟩
    · exact i1 hl

/-- With the radiation missing, after a run step no snow lies or the surface temperature is missing. -/
theorem runs_rad {st st' : Model} {l : List (RStep Phys)} (h : (snobalSim c ts all dl).Runs st l st')
    (hB : st.phys.Massless) (hw : st.phys.Snowless dl)
    (hn : st.phys.input1.S_n = none ∨ st.phys.input1.I_lw = none) :
    l ≠ [] → st'.phys.snow.layer_count = 0 ∨ st'.phys.snow.t_s_0 = none := by
  induction h with
  | nil => exact fun h => absurd rfl h
  | @enter st st' l hr ih =>
    obtain ⟨k1, k2, k3, k4, _⟩ := enter_keeps (c := c) (ts := ts) (all := all) (dl := dl) .small st.phys
    refine ih ?_ ?_ ?_
    · unfold Phys.Massless; dsimp only; rw [k1]; exact hB
    · unfold Phys.Snowless; dsimp only; rw [k2]; exact hw
    · dsimp only; rw [k3, k4]; exact hn
  | @step st st1 st2 l lv p hb hp hd hr ih =>
    intro _
    have hp' : stepPhys c (ts lv).time_step (dl lv) st.phys = .ok p := hp
    have z := step_rad hB (fun k => hw k lv) hn hp'
    have zB := step_mass hB hp'
    obtain ⟨p2, a, q1, q2, q3, q4, q5⟩ := do_tstep_ok hd
    have hpp : p2 = p := Except.ok.inj (q1.symm.trans hp)
    subst hpp
    have hs : st1.phys.snow = p2.snow := by rw [q3]; rfl
    have hi : st1.phys.input1.precip_now = p2.input1.precip_now := by rw [q3]; rfl
    by_cases hl : l = []
    · rw [(runs_nil hr hl).1, hs]
      exact z.imp id fun h => h.1
    · refine .inl ((runs_nan hr ?_ ?_ ?_).1 hl).1
      · unfold Phys.Massless; rw [hs]; exact zB
      · exact fun k => hw (by rw [← step_precip hp', ← hi]; exact k)
      · rw [hs]
        rcases z with z | z
        · exact .inl z
        · exact .inr (.inr (.inr (.inr (.inr z.1))))

theorem runs_massless {st st' : Model} {l : List (RStep Phys)} (h : (snobalSim c ts all dl).Runs st l st')
    (hB : st.phys.Massless) : st'.phys.Massless := by
  refine h.phys_inv Phys.Massless (fun p hp => ?_) (fun lv p p' hp e => ?_) hB
  · unfold Phys.Massless
    rw [(enter_keeps (c := c) (ts := ts) (all := all) (dl := dl) .small p).1]
    exact hp
  · have k := step_mass hp (show stepPhys c (ts lv).time_step (dl lv) p = .ok p' from e)
    exact k

/-! ### A data step -/

theorem delta_snow {i1 i2 d : NInput} {t : TstepInfo} (hN : 0 < t.intervals_per_timestep)
    (h : nDeltaFor i1 i2 t = .ok d)
    (hs : ∀ x y, i1.m_pp = some x → i1.percent_snow = some y → x * y ≤ 0) : ¬(some 0 : NVal) <ₙ d.m_snow := by
  have hN' : (0 : ℝ) < t.intervals_per_timestep := by exact_mod_cast hN
  rw [nDeltaFor_eq _ _ _ hN'.ne'] at h
  rw [nnew_ok h]
  unfold NRec.toNInput
  dsimp only
  cases hm : i1.m_pp with
  | none => exact NVal.lt_none _
  | some x =>
    cases hp : i1.percent_snow with
    | none => simp only [NVal.mul_none]; exact NVal.lt_none _
    | some y =>
      simp only [Option.map_some, NVal.mul_some, NVal.lt_some, not_lt]
      have := hs x y hm hp
      rw [div_mul_eq_mul_div]
      exact div_nonpos_of_nonpos_of_nonneg this hN'.le

theorem inputDeltas_parts {i1 i2 : NInput} (h : inputDeltas ts i1 i2 = .ok dl) (lv : Level) :
    nDeltaFor i1 i2 (ts lv) = .ok (dl lv) := by
  unfold inputDeltas at h
  obtain ⟨a, ha, h⟩ := bind_eq_ok.mp h
  obtain ⟨b, hb, h⟩ := bind_eq_ok.mp h
  obtain ⟨d, hd, h⟩ := bind_eq_ok.mp h
  cases h
  cases lv
  · exact ha
  · exact hb
  · exact hd

theorem data_parts (ht : TileOK ts) {i1 i2 : NInput} {m m' : Model} (e : do_data_tstep c ts all i1 i2 m = .ok m') :
    ∃ dl l mid, inputDeltas ts i1 i2 = .ok dl ∧
      (snobalSim c ts all dl).Runs { m with phys := { m.phys with input1 := i1 } } l mid ∧ l ≠ [] ∧
      m'.phys = mid.phys ∧ (all = true → m'.output_list = mid.output_list) ∧
      (all = false → ∃ r, m'.output_list = mid.output_list ++ [r] ∧ r.layer_count = mid.phys.snow.layer_count ∧
        r.m_s = mid.phys.snow.m_s) := by
  unfold do_data_tstep at e
  obtain ⟨dl, hdl, e⟩ := bind_eq_ok.mp e
  obtain ⟨l, mid, h1, h2, h3⟩ := data_tstep_runs e
  refine ⟨dl, l, mid, hdl, h1, ?_, ?_⟩
  · have := h2.ne_nil (by simp [snobalSim, ht.n_normal]) (by have := ht.m_pos; simp [snobalSim]; omega)
      (by have := ht.s_pos; simp [snobalSim]; omega)
    exact fun h => this (by rw [h]; rfl)
  · have ho : (snobalSim c ts all dl).output_divided = all := rfl
    rw [ho] at h3
    cases all with
    | true =>
      simp only [if_true] at h3
      subst h3
      exact ⟨rfl, (fun _ => rfl), (fun h => by cases h)⟩
    | false =>
      simp only [Bool.false_eq_true, if_false] at h3
      obtain ⟨r, hr, hm⟩ := output_ok h3
      subst hm
      obtain ⟨r1, r2, _⟩ := snapshot_shows (show snapshot mid.phys.snow mid.acc.acc _ = .ok r from hr)
      exact ⟨rfl, (fun h => by cases h), (fun _ => ⟨r, rfl, r1, r2⟩)⟩

/-- The forcing says that no snow falls. -/
def NRec.NoSnow (n : NRec) : Prop := ∀ x y, n.m_pp = some x → n.percent_snow = some y → 0 < x → y ≤ 0

theorem snowless {n : NRec} {i1 i2 : NInput} (ht : TileOK ts) (hd : inputDeltas ts i1 i2 = .ok dl)
    (h1 : NInput.new n = .ok i1) (hs : NRec.NoSnow n) (p : Phys) (hp : p.input1 = i1) : Phys.Snowless dl p := fun hn lv =>
  delta_snow (ht.ipt_pos lv) (inputDeltas_parts hd lv) (by
    rw [hp, nnew_ok h1] at hn
    rw [nnew_ok h1]
    intro x y hx hy
    have hx' : n.m_pp = some x := hx
    have h0 : 0 < x := by
      simp only [NRec.toNInput, decide_eq_true_eq, hx', NVal.lt_some] at hn
      exact hn
    exact mul_nonpos_of_nonneg_of_nonpos h0.le (hs x y hx' hy h0))

theorem data_nan (ht : TileOK ts) {n : NRec} {i1 i2 : NInput} {m m' : Model} (h1 : NInput.new n = .ok i1)
    (hs : NRec.NoSnow n) (hB : m.phys.Massless)
    (hn : m.phys.snow.layer_count = 0 ∨ n.u = none ∨ n.t_a = none ∨ n.e_a = none ∨ n.t_g = none ∨
      m.phys.snow.t_s_0 = none) (e : do_data_tstep c ts all i1 i2 m = .ok m') :
    m'.phys.Zero ∧ AddsBare True m.output_list m'.output_list := by
  obtain ⟨dl, l, mid, hd, hr, hl, hp, ho, ho'⟩ := data_parts ht e
  obtain ⟨z, zo⟩ := runs_nan hr hB (snowless ht hd h1 hs _ rfl) (by rw [nnew_ok h1]; exact hn)
  have z := z hl
  refine ⟨by unfold Phys.Zero; rw [hp]; exact z, ?_⟩
  cases all with
  | true => rw [ho rfl]; exact zo.mono fun _ => ⟨hl, rfl⟩
  | false =>
    obtain ⟨r, hr, r1, r2⟩ := ho' rfl
    rw [hr]
    refine (zo.trans (w := True) ⟨[r], rfl, fun x hx => ?_, fun _ => by simp⟩).mono .inr
    rw [List.mem_singleton.mp hx]
    exact ⟨r1.trans z.1, r2.trans z.2⟩

theorem data_rad (ht : TileOK ts) {n : NRec} {i1 i2 : NInput} {m m' : Model} (h1 : NInput.new n = .ok i1)
    (hs : NRec.NoSnow n) (hB : m.phys.Massless) (hn : n.S_n = none ∨ n.I_lw = none)
    (e : do_data_tstep c ts all i1 i2 m = .ok m') :
    m'.phys.snow.layer_count = 0 ∨ m'.phys.snow.t_s_0 = none := by
  obtain ⟨dl, l, mid, hd, hr, hl, hp, _, _⟩ := data_parts ht e
  rw [hp]
  exact runs_rad hr hB (snowless ht hd h1 hs _ rfl) (by rw [nnew_ok h1]; exact hn) hl

theorem data_massless (ht : TileOK ts) {i1 i2 : NInput} {m m' : Model} (hB : m.phys.Massless)
    (e : do_data_tstep c ts all i1 i2 m = .ok m') : m'.phys.Massless := by
  obtain ⟨dl, l, mid, hd, hr, hl, hp, _, _⟩ := data_parts ht e
  rw [hp]
  exact runs_massless hr hB

/-! ### A run -/

theorem runSteps_append (i0 : NInput) (rs : List NRec) (n : NRec) (m m' : Model)
    (e : runSteps c ts all i0 (rs ++ [n]) m = .ok m') :
    ∃ m0 i1 i2, runSteps c ts all i0 rs m = .ok m0 ∧ (rs = [] → i1 = i0) ∧
      (∀ x, rs.getLast? = some x → NInput.new x = .ok i1) ∧ NInput.new n = .ok i2 ∧
      do_data_tstep c ts all i1 i2 m0 = .ok m' := by
  induction rs generalizing i0 m with
  | nil =>
    simp only [List.nil_append, runSteps] at e
    obtain ⟨i2, h2, e⟩ := bind_eq_ok.mp e
    obtain ⟨m1, h3, e⟩ := bind_eq_ok.mp e
    cases e
    exact ⟨m, i0, i2, rfl, fun _ => rfl, fun x h => by simp at h, h2, h3⟩
  | cons r rs ih =>
    simp only [List.cons_append, runSteps] at e
    obtain ⟨i2, h2, e⟩ := bind_eq_ok.mp e
    obtain ⟨m1, h3, e⟩ := bind_eq_ok.mp e
    obtain ⟨m0, j1, j2, k1, k2, k3, k4, k5⟩ := ih i2 m1 e
    refine ⟨m0, j1, j2, ?_, fun h => (by cases h), fun x hx => ?_, k4, k5⟩
    · simp only [runSteps, h2, bind_ok, h3, k1]
    · cases rs with
      | nil =>
        simp at hx
        subst hx
        rw [k2 rfl]
        exact h2
      | cons a rs => exact k3 x (by simpa using hx)

theorem runSteps_massless (ht : TileOK ts) (i0 : NInput) (rs : List NRec) (m m' : Model) (hB : m.phys.Massless)
    (e : runSteps c ts all i0 rs m = .ok m') : m'.phys.Massless := by
  induction rs generalizing i0 m with
  | nil => cases e; exact hB
  | cons r rs ih =>
    simp only [runSteps] at e
    obtain ⟨i2, h2, e⟩ := bind_eq_ok.mp e
    obtain ⟨m1, h3, e⟩ := bind_eq_ok.mp e
    exact ih i2 m1 (data_massless ht hB h3) e

theorem mkModel_massless {g : Config} {i : NInput} {m : Model} (e : mkModel g c i = .ok m) : m.phys.Massless := by
  unfold mkModel at e
  obtain ⟨s, hs, e⟩ := bind_eq_ok.mp e
  cases e
  exact (init_snow_bare hs).2

theorem simulate_snoc {g : Config} (hg : g.Tiled) {rows : List NRec} {n1 n2 : NRec} {m : Model}
    (e : simulate g (rows ++ [n1] ++ [n2]) = .ok m) :
    ∃ c ts m0 i1 i2, TileOK ts ∧ simulate g (rows ++ [n1]) = .ok m0 ∧ m0.phys.Massless ∧ NInput.new n1 = .ok i1 ∧
      NInput.new n2 = .ok i2 ∧ do_data_tstep c ts g.output_all i1 i2 m0 = .ok m := by
  cases rows with
  | nil =>
    simp only [List.nil_append, List.cons_append, simulate] at e ⊢
    obtain ⟨ts, hts, e⟩ := bind_eq_ok.mp e
    obtain ⟨i1, h1, e⟩ := bind_eq_ok.mp e
    obtain ⟨c, hc, e⟩ := bind_eq_ok.mp e
    obtain ⟨m0, hm, e⟩ := bind_eq_ok.mp e
    obtain ⟨m1, j1, j2, k1, k2, k3, k4, k5⟩ := runSteps_append i1 [] n2 m0 m e
    cases k1
    rw [k2 rfl] at k5
    refine ⟨c, ts, m0, i1, j2, parse_tile hg hts, ?_, mkModel_massless hm, h1, k4, k5⟩
    simp only [hts, h1, hc, hm, bind_ok, runSteps]
  | cons r rows =>
    simp only [List.cons_append, simulate] at e ⊢
    obtain ⟨ts, hts, e⟩ := bind_eq_ok.mp e
    obtain ⟨i0, h0, e⟩ := bind_eq_ok.mp e
    obtain ⟨c, hc, e⟩ := bind_eq_ok.mp e
    obtain ⟨m0, hm, e⟩ := bind_eq_ok.mp e
    obtain ⟨m1, j1, j2, k1, k2, k3, k4, k5⟩ := runSteps_append i0 (rows ++ [n1]) n2 m0 m e
    refine ⟨c, ts, m1, j1, j2, parse_tile hg hts, ?_, ?_, k3 n1 (by simp), k4, k5⟩
    · simp only [hts, h0, hc, hm, bind_ok, k1]
    · exact runSteps_massless (parse_tile hg hts) _ _ _ _ (mkModel_massless hm) k1

end Nan

end

end Pysnobal
