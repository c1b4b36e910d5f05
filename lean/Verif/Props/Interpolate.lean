import Verif.Lemmas.Thresholds
import Verif.Lemmas.OneStep
import Verif.Props.Levels
import Verif.Props.Ties

/-! # C95: subdividing a data step is the same as interpolating the table -/

namespace Pysnobal

noncomputable section

/-! ## Specification -/

/-- The record `j` of `k` between `r` and the next record `r'`: the weather is interpolated, the precipitation is shared out evenly, and its
composition, density and temperature are those of `r`. -/
def Rec.between (r r' : Rec) (j k : ℕ) : Rec :=
  { S_n := r.S_n + (j / k : ℝ) * (r'.S_n - r.S_n)
    I_lw := r.I_lw + (j / k : ℝ) * (r'.I_lw - r.I_lw)
    t_a := r.t_a + (j / k : ℝ) * (r'.t_a - r.t_a)
    e_a := r.e_a + (j / k : ℝ) * (r'.e_a - r.e_a)
    u := r.u + (j / k : ℝ) * (r'.u - r.u)
    t_g := r.t_g + (j / k : ℝ) * (r'.t_g - r.t_g)
    m_pp := r.m_pp / k
    percent_snow := r.percent_snow
    rho_snow := r.rho_snow
    t_pp := r.t_pp }

/-- The table with `k` records for each data step. -/
def refine (k : ℕ) : List Rec → List Rec
  | [] => []
  | [r] => [r.between r 0 k]
  | r :: r' :: rs => (List.range k).map (fun j => r.between r' j k) ++ refine k (r' :: rs)

/-- The same configuration with the medium time step and its threshold in the place of the normal ones. -/
def Config.byMedium (g : Config) : Config := { g with norm_time_step := g.medium_time_step, norm_threshold := g.medium_threshold }

/-! ## Proof -/

/-- The interpolated weather at the part `w` of a data step, without precipitation. -/
def frame (r r' : Rec) (w : ℝ) : InputData :=
  { r.toInput with S_n := r.S_n + w * (r'.S_n - r.S_n), I_lw := r.I_lw + w * (r'.I_lw - r.I_lw), t_a := r.t_a + w * (r'.t_a - r.t_a), e_a := r.e_a + w * (r'.e_a - r.e_a), u := r.u + w * (r'.u - r.u), t_g := r.t_g + w * (r'.t_g - r.t_g), m_pp := 0, m_snow := 0, m_rain := 0, z_snow := 0 }

/-- The four quantities of precipitation set to zero. -/
def noPrecip (a : InputData) : InputData := { a with m_pp := 0, m_snow := 0, m_rain := 0, z_snow := 0 }

/-- `a` is the interpolated forcing at the part `w`, up to the quantities of precipitation if there is any. -/
def At (r r' : Rec) (w : ℝ) (a : InputData) : Prop := noPrecip a = frame r r' w ∧ (a.precip_now = false → a = frame r r' w)

variable {r r' : Rec} {w : ℝ} {k : ℕ}

theorem at_zero (h : 0 ≤ r.m_pp) : At r r' 0 r.toInput := by
  refine ⟨?_, fun hn => ?_⟩
  · simp [noPrecip, frame, Rec.toInput]
  · have h0 : r.m_pp = 0 := by
      have : ¬ 0 < r.m_pp := by simpa [Rec.toInput] using hn
      linarith
    simp [frame, Rec.toInput, h0]

theorem at_between (hk : 0 < k) (h : 0 ≤ r.m_pp) (j : ℕ) : At r r' (j / k) (r.between r' j k).toInput := by
  obtain ⟨S, I, ta, ea, u, tg, m, ps, rho, tp⟩ := r
  have hk' : (0 : ℝ) < k := by exact_mod_cast hk
  dsimp only at h
  have e1 : 0 < m / k ↔ 0 < m := div_pos_iff_of_pos_right hk'
  have e2 : 0 < m / k * ps ↔ 0 < m * ps := by
    rw [div_mul_eq_mul_div]; exact div_pos_iff_of_pos_right hk'
  have e3 : 0 < m / k - m / k * ps ↔ 0 < m - m * ps := by
    rw [div_mul_eq_mul_div, ← sub_div]; exact div_pos_iff_of_pos_right hk'
  refine ⟨?_, fun hn => ?_⟩
  · unfold noPrecip frame Rec.between Rec.toInput
    dsimp only
    simp only [e1, e2, e3]
  · have h0 : m = 0 := by
      have : ¬ 0 < m / k := of_decide_eq_false hn
      rw [e1] at this
      linarith
    simp [frame, Rec.toInput, Rec.between, h0]

theorem new_between {i : InputData} (hk : 0 < k) (h : InputData.new r = .ok i) (j : ℕ) :
    InputData.new (r.between r' j k) = .ok (r.between r' j k).toInput := by
  have hk' : (0 : ℝ) < k := by exact_mod_cast hk
  rw [new_eq, if_neg]
  rintro ⟨h1, h2, h3⟩
  have h1' : 0 < r.m_pp := (div_pos_iff_of_pos_right hk').mp h1
  have h2' : 0 < r.m_pp * r.percent_snow := by
    have : 0 < r.m_pp / k * r.percent_snow := h2
    rw [div_mul_eq_mul_div] at this
    exact (div_pos_iff_of_pos_right hk').mp this
  have := (new_ok h).2 h1' h2'
  have h3' : r.rho_snow ≤ 0 := h3
  linarith

/-- The weather of `b` is that of the data step from `r` to `r'` at the part `w`. -/
def WeatherAt (r r' : Rec) (w : ℝ) (b : InputData) : Prop :=
  b.S_n = r.S_n + w * (r'.S_n - r.S_n) ∧ b.I_lw = r.I_lw + w * (r'.I_lw - r.I_lw) ∧ b.t_a = r.t_a + w * (r'.t_a - r.t_a) ∧
    b.e_a = r.e_a + w * (r'.e_a - r.e_a) ∧ b.u = r.u + w * (r'.u - r.u) ∧ b.t_g = r.t_g + w * (r'.t_g - r.t_g)

theorem delta_between (hk : 0 < k) (h : 0 ≤ r.m_pp) (j : ℕ) {b : InputData} (hb : WeatherAt r r' ((j + 1 : ℝ) / k) b) (n : ℝ) :
    deltaRec (r.between r' j k).toInput b n = deltaRec r.toInput r'.toInput (k * n) := by
  have hk' : (k : ℝ) ≠ 0 := by exact_mod_cast hk.ne'
  obtain ⟨b1, b2, b3, b4, b5, b6⟩ := hb
  have ht : (r.between r' j k).toInput.t_pp = r.toInput.t_pp := by
    have ht := congrArg InputData.t_pp (at_between (r' := r') hk h j).1
    exact ht
  unfold deltaRec
  rw [ht, b1, b2, b3, b4, b5, b6]
  simp only [Rec.toInput, Rec.between, Rec.mk.injEq, and_true]
  rw [div_mul_eq_div_div, div_mul_eq_div_div, div_mul_eq_div_div, div_mul_eq_div_div, div_mul_eq_div_div, div_mul_eq_div_div,
    div_mul_eq_div_div]
  refine ⟨?_, ?_, ?_, ?_, ?_, ?_, rfl⟩ <;> (congr 1; field_simp; ring)

theorem noPrecip_applied (d a : InputData) : noPrecip (applied d a) = noPrecip a := by
  unfold applied
  split <;> rfl

theorem at_step {c : Env} {dt n : ℝ} {p p' : Phys} (h0 : 0 ≤ r.m_pp) (h : At r r' w p.input1)
    (hs : stepPhys c dt (deltaRec r.toInput r'.toInput n).toInput p = .ok p') (hc : p'.input1.e_a = p.input1.e_a) :
    At r r' (w + 1 / n) (p'.input1.add_deltas (deltaRec r.toInput r'.toInput n).toInput) := by
  set d := (deltaRec r.toInput r'.toInput n).toInput with hd
  have e : p'.input1 = applied d p.input1 := by
    rw [(stepPhys_input hs).1, hc]
    unfold applied
    split <;> rfl
  rw [e]
  have e1 : noPrecip ((applied d p.input1).add_deltas d) = frame r r' (w + 1 / n) := by
    rw [show noPrecip ((applied d p.input1).add_deltas d) = noPrecip ((noPrecip (applied d p.input1)).add_deltas d) from rfl,
      noPrecip_applied, h.1, hd]
    simp only [noPrecip, InputData.add_deltas, InputData.update_precip_deltas, frame, deltaRec, Rec.toInput, InputData.mk.injEq, and_true]
    refine ⟨?_, ?_, ?_, ?_, ?_, ?_⟩ <;> ring
  refine ⟨e1, fun hn => ?_⟩
  have hnow : (frame r r' (w + 1 / n)).precip_now = false := by rw [← e1]; exact hn
  have hz : r.m_pp = 0 := by
    have : ¬ 0 < r.m_pp := by simpa [frame, Rec.toInput] using hnow
    linarith
  rw [← e1]
  simp [noPrecip, InputData.add_deltas, InputData.update_precip_deltas, hd, deltaRec, Rec.toInput, hz]

/-! ### The table of time steps -/

/-- The table of time steps of `g.byMedium`. -/
def tsMed (ts : Tsteps) : Tsteps := fun lv => match lv with
  | .normal => { ts .medium with intervals := 1, intervals_per_timestep := 1 }
  | .medium => { ts .medium with intervals := 1, intervals_per_timestep := 1 }
  | .small => { ts .small with intervals_per_timestep := (ts .small).intervals }

theorem byMedium_tiled {g : Config} (hg : g.Tiled) : g.byMedium.Tiled :=
  ⟨hg.2.1, hg.2.1, hg.2.2.1, dvd_refl _, hg.2.2.2.2⟩

theorem parse_byMedium {g : Config} (hg : g.Tiled) {ts : Tsteps} (h : parse_time_steps g = .ok ts) :
    parse_time_steps g.byMedium = .ok (tsMed ts) := by
  obtain ⟨ts', h'⟩ := parse_of_ne (g := g.byMedium) hg.2.1.ne' hg.2.2.1.ne'
  obtain ⟨_, _, e1, e2, e3⟩ := parse_ok h
  obtain ⟨_, _, f1, f2, f3⟩ := parse_ok h'
  rw [h']
  congr 1
  have hd : g.medium_time_step.tdiv g.medium_time_step = 1 := Int.tdiv_self hg.2.1.ne'
  funext lv
  cases lv
  · rw [f1]
    unfold tsMed
    dsimp only
    rw [e2]
    rfl
  · rw [f2]
    unfold tsMed
    dsimp only
    rw [e2]
    unfold Config.byMedium
    dsimp only
    rw [hd]
  · rw [f3]
    unfold tsMed
    dsimp only
    rw [e3]
    rfl

/-! ### One interval -/

section sim

variable {c : Env} {ts : Tsteps} {dl : Level → InputData}

/-- What the medium level does with one of its intervals. -/
def mediumInterval (K : Sim Phys AccT OutRec) (s : Model) : Except Err Model :=
  if K.below .medium s.phys then K.smallBlock s else K.do_tstep .medium s

/-- The deltas of the interpolated table. -/
def dlMed (dl : Level → InputData) : Level → InputData := fun lv => match lv with
  | .normal => dl .medium
  | .medium => dl .medium
  | .small => dl .small

theorem data_med (c : Env) (ts : Tsteps) (dl : Level → InputData) (st : Model) :
    (snobalSim c (tsMed ts) true (dlMed dl)).data_tstep st = mediumInterval (snobalSim c ts true dl) st := by
  rw [data_tstep_eq]
  have hu : (snobalSim c (tsMed ts) true (dlMed dl)).normalBlock st = mediumInterval (snobalSim c ts true dl) st := by
    unfold Sim.normalBlock
    rw [show ((snobalSim c (tsMed ts) true (dlMed dl)).intervals .normal).toNat = 1 from rfl]
    simp only [iterM]
    have e1 : (snobalSim c (tsMed ts) true (dlMed dl)).mediumBlock st = mediumInterval (snobalSim c ts true dl) st := by
      unfold Sim.mediumBlock
      rw [show ((snobalSim c (tsMed ts) true (dlMed dl)).intervals .medium).toNat = 1 from rfl]
      simp only [iterM]
      show (mediumInterval (snobalSim c ts true dl) st >>= fun s => Except.ok s) = _
      cases mediumInterval (snobalSim c ts true dl) st <;> rfl
    rw [e1]
    have e2 : (if (snobalSim c (tsMed ts) true (dlMed dl)).below .normal st.phys = true then mediumInterval (snobalSim c ts true dl) st
        else (snobalSim c (tsMed ts) true (dlMed dl)).do_tstep .normal st) = mediumInterval (snobalSim c ts true dl) st := by
      split
      · rfl
      · rename_i hb
        unfold mediumInterval
        rw [if_neg (show ¬ (snobalSim c ts true dl).below .medium st.phys = true from hb)]
        rfl
    rw [e2]
    cases mediumInterval (snobalSim c ts true dl) st <;> rfl
  rw [hu]
  cases mediumInterval (snobalSim c ts true dl) st <;> rfl

theorem stepPhys_alike {dt : ℝ} {d a b : InputData} (h : noPrecip a = noPrecip b) (hn : a.precip_now = false → a = b) (p : Phys) :
    stepPhys c dt d { p with input1 := a } = stepPhys c dt d { p with input1 := b } := by
  have e : applied d a = applied d b := by
    have hb : b.precip_now = a.precip_now := by
      have e := congrArg InputData.precip_now h
      exact e.symm
    cases ha : a.precip_now with
    | false => rw [hn ha]
    | true =>
      unfold applied
      rw [if_pos ha, if_pos (hb.trans ha)]
      have e := congrArg (fun x : InputData => x.update_precip_deltas d) h
      exact e
  rw [stepPhys_eq, stepPhys_eq]
  unfold stepStart
  dsimp only
  rw [e]

theorem interval_alike {a b : InputData} (h : noPrecip a = noPrecip b) (hn : a.precip_now = false → a = b) (st : Model) :
    mediumInterval (snobalSim c ts true dl) { st with phys := { st.phys with input1 := a } } =
      mediumInterval (snobalSim c ts true dl) { st with phys := { st.phys with input1 := b } } := by
  unfold mediumInterval
  have hb : b.precip_now = a.precip_now := by
    have e := congrArg InputData.precip_now h
    exact e.symm
  have e1 : (snobalSim c ts true dl).smallBlock { st with phys := { st.phys with input1 := a } } =
      (snobalSim c ts true dl).smallBlock { st with phys := { st.phys with input1 := b } } := by
    cases ha : a.precip_now with
    | false => rw [hn ha]
    | true =>
      unfold Sim.smallBlock
      congr 2
      show (if a.precip_now = true then ({ st.phys with input1 := a.update_precip_deltas (dl .small) } : Phys) else _) =
        (if b.precip_now = true then ({ st.phys with input1 := b.update_precip_deltas (dl .small) } : Phys) else _)
      rw [if_pos ha, if_pos (hb.trans ha)]
      have e : a.update_precip_deltas (dl .small) = b.update_precip_deltas (dl .small) := by
        have e := congrArg (fun x : InputData => x.update_precip_deltas (dl .small)) h
        exact e
      rw [e]
  have e2 : (snobalSim c ts true dl).do_tstep .medium { st with phys := { st.phys with input1 := a } } =
      (snobalSim c ts true dl).do_tstep .medium { st with phys := { st.phys with input1 := b } } := by
    unfold Sim.do_tstep
    have : (snobalSim c ts true dl).phys .medium { st.phys with input1 := a } = (snobalSim c ts true dl).phys .medium { st.phys with input1 := b } :=
      stepPhys_alike h hn st.phys
    dsimp only
    rw [this]
  rw [e1, e2]
  rfl

end sim

/-! ### The weather of the logged data step -/

/-- No run step of the log clips the vapour pressure. -/
def Unclipped (l : List (RStep Phys)) : Prop := ∀ x ∈ l, x.post.input1.e_a = x.pre.input1.e_a

/-- The deltas of a data step. -/
def dlOf (ts : Tsteps) (r r' : Rec) : Level → InputData := fun lv => (deltaRec r.toInput r'.toInput ((ts lv).intervals_per_timestep : ℝ)).toInput

theorem do_tstep_at {c : Env} {ts : Tsteps} (h0 : 0 ≤ r.m_pp) {lv : Level} {s s' : SimSt (Phys × List (RStep Phys)) AccT OutRec}
    (h : At r r' w s.phys.1.input1) (hs : (snobalSim c ts true (dlOf ts r r')).logged.do_tstep lv s = .ok s') (hu : Unclipped s'.phys.2) :
    At r r' (w + 1 / ((ts lv).intervals_per_timestep : ℝ)) s'.phys.1.input1 := by
  obtain ⟨q, a, h1, _, h3, _⟩ := do_tstep_ok hs
  change (stepPhys c (ts lv).time_step (dlOf ts r r' lv) s.phys.1).map _ = _ at h1
  cases hp : stepPhys c (ts lv).time_step (dlOf ts r r' lv) s.phys.1 with
  | error e => rw [hp] at h1; cases h1
  | ok p =>
    rw [hp] at h1
    cases h1
    rw [h3] at hu ⊢
    exact at_step h0 h hp (hu ⟨lv, s.phys.1, p⟩ (by simp [Sim.logged]))

theorem small_at {c : Env} {ts : Tsteps} (h0 : 0 ≤ r.m_pp) : ∀ (n : ℕ) (w : ℝ) (s s' : SimSt (Phys × List (RStep Phys)) AccT OutRec),
    At r r' w s.phys.1.input1 → iterM ((snobalSim c ts true (dlOf ts r r')).logged.do_tstep .small) n s = .ok s' → Unclipped s'.phys.2 →
    At r r' (w + n / ((ts .small).intervals_per_timestep : ℝ)) s'.phys.1.input1 := by
  intro n
  induction n with
  | zero =>
    intro w s s' h hs _
    cases hs
    simpa using h
  | succ n ih =>
    intro w s s' h hs hu
    obtain ⟨s1, e1, e2⟩ := bind_eq_ok.mp hs
    have hk := KeepsLog.iterM (keeps_do_tstep (K := snobalSim c ts true (dlOf ts r r')) .small) n s1 s' e2
    have := ih _ s1 s' (do_tstep_at h0 h e1 fun x hx => hu x (hk x hx)) e2 hu
    have e : w + ((n + 1 : ℕ) : ℝ) / ((ts .small).intervals_per_timestep : ℝ) =
        w + 1 / ((ts .small).intervals_per_timestep : ℝ) + n / ((ts .small).intervals_per_timestep : ℝ) := by
      push_cast
      ring
    rw [e]
    exact this

theorem At.applied {a : InputData} (h : At r r' w a) (d : InputData) : At r r' w (if a.precip_now then a.update_precip_deltas d else a) := by
  split
  · rename_i hn
    exact ⟨h.1, fun hn' => absurd (show a.precip_now = false from hn') (by rw [hn]; simp)⟩
  · exact h

/-- The medium level's interval, with the log. -/
def mediumIntervalL (K : Sim Phys AccT OutRec) (s : SimSt (Phys × List (RStep Phys)) AccT OutRec) : Except Err (SimSt (Phys × List (RStep Phys)) AccT OutRec) :=
  if K.logged.below .medium s.phys then K.logged.smallBlock s else K.logged.do_tstep .medium s

theorem interval_unlog {K : Sim Phys AccT OutRec} {s s' : SimSt (Phys × List (RStep Phys)) AccT OutRec} (h : mediumIntervalL K s = .ok s') :
    mediumInterval K s.unlog = .ok s'.unlog := by
  unfold mediumIntervalL at h
  unfold mediumInterval
  split at h
  · rename_i hb
    rw [if_pos (show K.below .medium s.unlog.phys = true from hb), ← logged_smallBlock, h]
    rfl
  · rename_i hb
    rw [if_neg (show ¬ K.below .medium s.unlog.phys = true from hb), ← logged_do_tstep, h]
    rfl

theorem keeps_interval {K : Sim Phys AccT OutRec} : KeepsLog (mediumIntervalL K) := by
  intro s s' hs x hx
  unfold mediumIntervalL at hs
  split at hs
  · exact keeps_smallBlock s s' hs x hx
  · exact keeps_do_tstep _ s s' hs x hx

theorem interval_at {c : Env} {ts : Tsteps} (ht : TileOK ts) (h0 : 0 ≤ r.m_pp) {s s' : SimSt (Phys × List (RStep Phys)) AccT OutRec}
    (h : At r r' w s.phys.1.input1) (hs : mediumIntervalL (snobalSim c ts true (dlOf ts r r')) s = .ok s') (hu : Unclipped s'.phys.2) :
    At r r' (w + 1 / ((ts .medium).intervals_per_timestep : ℝ)) s'.phys.1.input1 := by
  unfold mediumIntervalL at hs
  split at hs
  · have hp := ht.s_pos
    have hm := ht.m_pos
    unfold Sim.smallBlock at hs
    have h1 : At r r' w ((snobalSim c ts true (dlOf ts r r')).enter .small s.phys.1).input1 := by
      have h2 := h.applied (dlOf ts r r' .small)
      show At r r' w (if s.phys.1.input1.precip_now then _ else _ : Phys).input1
      split
      · rename_i hn
        rw [if_pos hn] at h2
        exact h2
      · exact h
    have h2 := small_at h0 _ w _ s' h1 hs hu
    have e : ((((snobalSim c ts true (dlOf ts r r')).logged.intervals .small).toNat : ℕ) : ℝ) / ((ts .small).intervals_per_timestep : ℝ) =
        1 / ((ts .medium).intervals_per_timestep : ℝ) := by
      rw [show (snobalSim c ts true (dlOf ts r r')).logged.intervals .small = (ts .small).intervals from rfl, ht.ipt_small, ht.ipt_medium]
      have e1 : (((ts .small).intervals.toNat : ℕ) : ℝ) = ((ts .small).intervals : ℝ) := by
        have : (((ts .small).intervals.toNat : ℕ) : ℤ) = (ts .small).intervals := Int.toNat_of_nonneg hp.le
        exact_mod_cast this
      rw [e1]
      have r1 : ((ts .small).intervals : ℝ) ≠ 0 := by exact_mod_cast hp.ne'
      have r2 : ((ts .medium).intervals : ℝ) ≠ 0 := by exact_mod_cast hm.ne'
      push_cast
      field_simp
    rw [e] at h2
    exact h2
  · exact do_tstep_at h0 h hs hu

/-! ### Whole runs -/

theorem tsMed_tile {g : Config} (hg : g.Tiled) {ts : Tsteps} (h : parse_time_steps g = .ok ts) : TileOK (tsMed ts) :=
  parse_tile (byMedium_tiled hg) (parse_byMedium hg h)

theorem between_weather (r r' : Rec) (j k : ℕ) : WeatherAt r r' (j / k) (r.between r' j k).toInput := ⟨rfl, rfl, rfl, rfl, rfl, rfl⟩

theorem weather_next (r r' s : Rec) (k : ℕ) : WeatherAt r r' 1 (r'.between s 0 k).toInput := by
  refine ⟨?_, ?_, ?_, ?_, ?_, ?_⟩ <;> simp [Rec.between, Rec.toInput]

/-- One medium interval is one data step of the interpolated table. -/
theorem between_step {g : Config} (hg : g.Tiled) {c : Env} {ts : Tsteps} (hts : parse_time_steps g = .ok ts)
    (hk : 0 < k) (hkm : (k : ℤ) = (ts .medium).intervals) (h0 : 0 ≤ r.m_pp) {i : InputData} (hn : InputData.new r = .ok i) (j : ℕ) {b : InputData}
    (hb : WeatherAt r r' ((j + 1 : ℝ) / k) b) {s s' : SimSt (Phys × List (RStep Phys)) AccT OutRec} (ha : At r r' (j / k) s.phys.1.input1)
    (hs : mediumIntervalL (snobalSim c ts true (dlOf ts r r')) s = .ok s') {m : Model}
    (hm : { m with phys := { m.phys with input1 := s.phys.1.input1 } } = s.unlog) :
    do_data_tstep c (tsMed ts) true (r.between r' j k).toInput b m = .ok s'.unlog := by
  have ht := parse_tile hg hts
  unfold do_data_tstep
  rw [inputDeltas_total (tsMed_tile hg hts) (new_between hk hn j) b, bind_ok]
  have hkr : ((k : ℕ) : ℝ) = ((ts .medium).intervals : ℝ) := by exact_mod_cast hkm
  have e : (fun lv => (deltaRec (r.between r' j k).toInput b ((tsMed ts lv).intervals_per_timestep : ℝ)).toInput) = dlMed (dlOf ts r r') := by
    funext lv
    rw [delta_between hk h0 j hb]
    cases lv
    · unfold tsMed dlMed dlOf
      dsimp only
      rw [ht.ipt_medium, hkr]
      norm_num
    · unfold tsMed dlMed dlOf
      dsimp only
      rw [ht.ipt_medium, hkr]
      norm_num
    · unfold tsMed dlMed dlOf
      dsimp only
      rw [ht.ipt_small, hkr]
      push_cast
      rfl
  rw [e, data_med]
  have hab := at_between (r' := r') hk h0 j
  have hm2 : m.phys.snow = s.unlog.phys.snow := by rw [← hm]
  rw [interval_alike (b := s.phys.1.input1) (hab.1.trans ha.1.symm) (fun q => ?_) m, hm]
  · exact interval_unlog hs
  · have q' : s.phys.1.input1.precip_now = false := by
      have e1 := congrArg InputData.precip_now (hab.1.trans ha.1.symm)
      rw [← q]
      exact e1.symm
    exact (hab.2 q).trans (ha.2 q').symm

theorem between_steps {g : Config} (hg : g.Tiled) {c : Env} {ts : Tsteps} (hts : parse_time_steps g = .ok ts)
    (hk : 0 < k) (hkm : (k : ℤ) = (ts .medium).intervals) (h0 : 0 ≤ r.m_pp) {i : InputData} (hn : InputData.new r = .ok i) {next : Rec}
    (hnext : InputData.new next = .ok next.toInput) (hw : WeatherAt r r' 1 next.toInput) (rest : List Rec) : ∀ (n j : ℕ), j + n + 1 = k →
    ∀ (s s' : SimSt (Phys × List (RStep Phys)) AccT OutRec) (m : Model), At r r' (j / k) s.phys.1.input1 →
    { m with phys := { m.phys with input1 := s.phys.1.input1 } } = s.unlog →
    iterM (mediumIntervalL (snobalSim c ts true (dlOf ts r r'))) (n + 1) s = .ok s' → Unclipped s'.phys.2 →
    runSteps c (tsMed ts) true (r.between r' j k).toInput ((List.range n).map (fun i => r.between r' (j + 1 + i) k) ++ next :: rest) m =
      runSteps c (tsMed ts) true next.toInput rest s'.unlog := by
  have hk' : (k : ℝ) ≠ 0 := by exact_mod_cast hk.ne'
  intro n
  induction n with
  | zero =>
    intro j hj s s' m ha hm hs hu
    obtain ⟨s1, e1, e2⟩ := bind_eq_ok.mp hs
    cases e2
    show runSteps c (tsMed ts) true _ (next :: rest) m = _
    unfold runSteps
    have hj' : (j + 1 : ℝ) / k = 1 := by
      have : (k : ℝ) = j + 1 := by rw [← hj]; push_cast; ring
      rw [this]
      rw [this] at hk'
      exact div_self hk'
    rw [hnext, bind_ok, between_step hg hts hk hkm h0 hn j (by rw [hj']; exact hw) ha e1 hm, bind_ok]
    cases rest <;> rfl
  | succ n ih =>
    intro j hj s s' m ha hm hs hu
    obtain ⟨s1, e1, e2⟩ := bind_eq_ok.mp hs
    have hkeep := KeepsLog.iterM (keeps_interval (K := snobalSim c ts true (dlOf ts r r'))) (n + 1) s1 s' e2
    have ha1 := interval_at (parse_tile hg hts) h0 ha e1 fun x hx => hu x (hkeep x hx)
    have hkr : ((k : ℕ) : ℝ) = ((ts .medium).intervals : ℝ) := by exact_mod_cast hkm
    have e3 : (j : ℝ) / k + 1 / ((ts .medium).intervals_per_timestep : ℝ) = ((j + 1 : ℕ) : ℝ) / k := by
      rw [(parse_tile hg hts).ipt_medium, ← hkr]
      push_cast
      ring
    rw [e3] at ha1
    have hl : (List.range (n + 1)).map (fun i => r.between r' (j + 1 + i) k) =
        r.between r' (j + 1) k :: (List.range n).map (fun i => r.between r' (j + 1 + 1 + i) k) := by
      rw [List.range_succ_eq_map, List.map_cons, List.map_map]
      refine congrArg₂ _ rfl (List.map_congr_left fun i _ => ?_)
      show r.between r' (j + 1 + (i + 1)) k = _
      rw [show j + 1 + (i + 1) = j + 1 + 1 + i by omega]
    rw [hl, List.cons_append]
    conv_lhs => unfold runSteps
    have hb := between_weather r r' (j + 1) k
    push_cast at hb
    rw [new_between hk hn (j + 1), bind_ok, between_step hg hts hk hkm h0 hn j hb ha e1 hm, bind_ok]
    exact ih (j + 1) (by omega) s1 s' s1.unlog ha1 rfl e2 hu

theorem normal_thin {K : Sim Phys AccT OutRec} (hn : (K.intervals .normal).toNat = 1) {s s' : SimSt (Phys × List (RStep Phys)) AccT OutRec}
    (hb : K.below .normal s.phys.1 = true) (h : K.logged.normalBlock s = .ok s') :
    iterM (mediumIntervalL K) (K.intervals .medium).toNat s = .ok s' := by
  unfold Sim.normalBlock at h
  rw [show (K.logged.intervals .normal).toNat = 1 from hn] at h
  obtain ⟨s1, e1, e2⟩ := bind_eq_ok.mp h
  cases e2
  dsimp only at e1
  rw [if_pos (show K.logged.below .normal s.phys = true from hb)] at e1
  exact e1

theorem refine_head {k : ℕ} (hk : 0 < k) (r : Rec) (rs : List Rec) : ∃ s tl, refine k (r :: rs) = r.between s 0 k :: tl := by
  cases rs with
  | nil => exact ⟨r, [], rfl⟩
  | cons r' rs =>
    obtain ⟨n, rfl⟩ : ∃ n, k = n + 1 := ⟨k - 1, by omega⟩
    refine ⟨r', ?_⟩
    unfold refine
    rw [List.range_succ_eq_map, List.map_cons, List.cons_append]
    exact ⟨_, rfl⟩

theorem executed_head {c : Env} {ts : Tsteps} {all : Bool} {i1 i2 : InputData} {m m' : Model} {l : List (RStep Phys)}
    (h : Executed c ts all i1 i2 m l m') : ∀ x ∈ l.head?, x.pre.snow = m.phys.snow := by
  obtain ⟨dl, mid, _, hr, _⟩ := h.parts
  intro x hx
  cases l with
  | nil => simp at hx
  | cons y tl =>
    simp only [List.head?_cons, Option.mem_some_iff] at hx
    subst hx
    exact runs_head hr y tl rfl

theorem dataSteps_refine {g : Config} (hg : g.Tiled) {c : Env} {ts : Tsteps} (hts : parse_time_steps g = .ok ts)
    (hk : 0 < k) (hkm : (k : ℤ) = (ts .medium).intervals) {i1 : InputData} {rs : List Rec} {m m' : Model} {ls : List (List (RStep Phys))}
    (h : DataSteps c ts true i1 rs m ls m') : ∀ r, InputData.new r = .ok i1 → (∀ x ∈ r :: rs, 0 ≤ x.m_pp) →
    (∀ l ∈ ls, StartsThin g.norm_threshold l) → (∀ l ∈ ls, Unclipped l) → ∀ s tl, refine k (r :: rs) = r.between s 0 k :: tl →
      runSteps c (tsMed ts) true (r.between s 0 k).toInput tl m = .ok m' := by
  have ht := parse_tile hg hts
  induction h with
  | nil =>
    intro r _ _ _ _ s tl he
    have : tl = [] := by
      have := congrArg List.tail he
      exact this.symm
    rw [this]
    rfl
  | @cons i1 i2 r' rs m m1 m' l ls k1 k2 k3 k4 ih =>
    intro r hn hr hth hu s tl he
    obtain ⟨t, tl', he'⟩ := refine_head hk r' rs
    obtain ⟨n, hkn⟩ : ∃ n, k = n + 1 := ⟨k - 1, by omega⟩
    have hi1 : i1 = r.toInput := (new_ok hn).1
    have hi2 : i2 = r'.toInput := (new_ok k1).1
    have he2 : refine k (r :: r' :: rs) = r.between r' 0 k :: ((List.range n).map (fun i => r.between r' (0 + 1 + i) k) ++ r'.between t 0 k :: tl') := by
      unfold refine
      rw [he', hkn, List.range_succ_eq_map, List.map_cons, List.map_map, List.cons_append]
      refine congrArg₂ _ rfl (congrArg₂ _ (List.map_congr_left fun i _ => ?_) rfl)
      show r.between r' (i + 1) (n + 1) = _
      rw [show 0 + 1 + i = i + 1 by omega]
    rw [he2] at he
    have q1 := (List.cons.inj he).1
    have q2 := (List.cons.inj he).2
    rw [← q1, ← q2]
    have hex := k3
    obtain ⟨dl, d1, d2⟩ := k3
    rw [inputDeltas_total ht hn i2] at d1
    have hdl : dl = dlOf ts r r' := by
      have := Except.ok.inj d1
      rw [← this, hi1, hi2]
      rfl
    rw [hdl] at d2
    unfold Sim.Executes at d2
    rw [data_tstep_eq] at d2
    obtain ⟨s1, e1, e2⟩ := bind_eq_ok.mp d2
    rw [if_neg (by show ¬ true = false; simp)] at e2
    cases e2
    have hb : below_thold (ts .normal).threshold m.phys.snow = true := by
      obtain ⟨x, hx, hx2⟩ := hth l (by simp)
      rw [(parse_threshold hts).1]
      rw [executed_head hex x hx] at hx2
      exact below_thin.mpr hx2
    have e3 := normal_thin (by show (ts .normal).intervals.toNat = 1; rw [ht.n_normal]; rfl) hb e1
    have hkt : ((snobalSim c ts true (dlOf ts r r')).intervals .medium).toNat = n + 1 := by
      show (ts .medium).intervals.toNat = n + 1
      omega
    rw [hkt] at e3
    have hat : At r r' (((0 : ℕ) : ℝ) / k) (SimSt.log { m with phys := { m.phys with input1 := i1 } } []).phys.1.input1 := by
      have := at_zero (r' := r') (hr r (by simp))
      rw [← hi1] at this
      rw [Nat.cast_zero, zero_div]
      exact this
    rw [between_steps hg hts hk hkm (hr r (by simp)) hn (next := r'.between t 0 k) (new_between hk k1 0) (weather_next r r' t k) tl' n 0 (by omega) _ _ m
      hat rfl e3 (hu l (by simp))]
    exact ih r' k1 (fun x hx => hr x (by simp only [List.mem_cons] at hx ⊢; exact .inr hx)) (fun l hl => hth l (by simp [hl]))
      (fun l hl => hu l (by simp [hl])) t tl' he'

/-- C95: if in a run in mode `all` every data step is subdivided and no run step clips the vapour pressure, the run is the same as the one
on the table interpolated to the medium time step, with this as the normal one: same snow, same clock, same records. -/
theorem C95_subdivision_interpolates (g : Config) (hg : g.Tiled) (hall : g.output_all = true) (k : ℕ)
    (hk : k * g.medium_time_step = g.norm_time_step) (rows : List Rec) (hr : ∀ r ∈ rows, 0 ≤ r.m_pp) (ls : List (List (RStep Phys))) (m : Model)
    (h : RunTrace g rows ls m) (hs : ∀ l ∈ ls, StartsThin g.norm_threshold l)
    (hc : ∀ l ∈ ls, ∀ x ∈ l, x.post.input1.e_a = x.pre.input1.e_a) :
    ∃ m', simulate g.byMedium (refine k rows) = .ok m' ∧ m'.phys.snow = m.phys.snow ∧ m'.current_datetime = m.current_datetime ∧
      m'.output_list = m.output_list := by
  obtain ⟨c, ts, i1, m0, r, rs, rfl, e1, e2, e3, e4, e5⟩ := h
  have ht := parse_tile hg e1
  have hk0 : 0 < k := by
    rcases Nat.eq_zero_or_pos k with rfl | h
    · have := hg.1
      simp at hk
      omega
    · exact h
  obtain ⟨_, _, f1, f2, _⟩ := parse_ok e1
  have hkm : (k : ℤ) = (ts .medium).intervals := by
    have h4 := ht.td_normal
    rw [show (ts .normal).timedelta = g.norm_time_step by rw [f1], show (ts .medium).timedelta = g.medium_time_step by rw [f2]] at h4
    exact mul_right_cancel₀ hg.2.1.ne' (hk.trans h4.symm)
  obtain ⟨s, tl, he⟩ := refine_head hk0 r rs
  rw [hall] at e5
  have key := dataSteps_refine hg e1 hk0 hkm e5 r e3 hr hs hc s tl he
  have e4' : mkModel g.byMedium c (r.between s 0 k).toInput = .ok { m0 with phys := { m0.phys with input1 := (r.between s 0 k).toInput } } := by
    unfold mkModel at e4 ⊢
    obtain ⟨s0, q1, q2⟩ := bind_eq_ok.mp e4
    cases q2
    rw [show recordSnow g.byMedium = recordSnow g from rfl, q1]
    rfl
  have hsim : ∀ m2, runSteps c (tsMed ts) true (r.between s 0 k).toInput tl { m0 with phys := { m0.phys with input1 := (r.between s 0 k).toInput } } = .ok m2 →
      simulate g.byMedium (refine k (r :: rs)) = .ok m2 := by
    intro m2 h2
    unfold simulate
    rw [he]
    dsimp only
    rw [parse_byMedium hg e1, bind_ok, new_between hk0 e3 0, bind_ok, show mkEnv g.byMedium = mkEnv g from rfl, e2, bind_ok, e4', bind_ok,
      show g.byMedium.output_all = true from hall]
    exact h2
  cases tl with
  | nil =>
    have q := Except.ok.inj key
    refine ⟨_, hsim _ rfl, ?_, ?_, ?_⟩ <;> rw [← q]
  | cons r2 tl => exact ⟨m, hsim m key, rfl, rfl, rfl⟩

end

end Pysnobal
