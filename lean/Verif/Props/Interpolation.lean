import Verif.Props.Forcing
import Verif.Props.Turbulence

/-! # C04, C69: the forcing during a data step -/

namespace Pysnobal

noncomputable section

/-! ## Specification -/

/-- The minutes the run steps `l` take under the configuration `g`. -/
def Config.minutes (g : Config) (l : List (RStep Phys)) : ℝ :=
  (l.map fun x => (match x.lv with
    | .normal => (g.norm_time_step : ℝ)
    | .medium => (g.medium_time_step : ℝ)
    | .small => (g.small_time_step : ℝ))).sum

/-- The value at the time at which the run steps `l` of a data step have passed, on the straight line from `a` at its
beginning to `b` at its end. -/
def Config.between (g : Config) (l : List (RStep Phys)) (a b : ℝ) : ℝ :=
  a + g.minutes l / g.norm_time_step * (b - a)

/-- The vapour pressure (Pa) the run steps `l` have removed from the working forcing, because it was above saturation
over ice at air temperature. -/
def clipped (l : List (RStep Phys)) : ℝ := (l.map fun x => x.pre.input1.e_a - x.post.input1.e_a).sum

/-! ## Proofs -/

theorem runs_field {c : Env} {ts : Tsteps} {all : Bool} {dl : Level → InputData} {m m' : Model}
    {l : List (RStep Phys)} (h : (snobalSim c ts all dl).Runs m l m') (f : InputData → ℝ)
    (hu : ∀ d e, f (d.update_precip_deltas e) = f d) (hadd : ∀ d e, f (d.add_deltas e) = f d + f e) :
    (∀ a x b, l = a ++ x :: b → f x.pre.input1 = f m.phys.input1 +
      (a.map fun y => f (dl y.lv) - (f y.pre.input1 - f y.post.input1)).sum) ∧
    f m'.phys.input1 = f m.phys.input1 + (l.map fun y => f (dl y.lv) - (f y.pre.input1 - f y.post.input1)).sum := by
  induction h with
  | nil => simp
  | @enter st st' l h ih =>
    have e : f ((snobalSim c ts all dl).enter .small st.phys).input1 = f st.phys.input1 := by
      show f (if st.phys.input1.precip_now then _ else _ : Phys).input1 = _
      split
      · exact hu _ _
      · rfl
    rw [← e]
    exact ih
  | @step st st1 st2 l lv p hb hp hd1 h ih =>
    obtain ⟨p', a, hp', ha, e1, e2, ho⟩ := do_tstep_ok hd1
    rw [hp] at hp'
    cases hp'
    have e3 : f st1.phys.input1 = f p.input1 + f (dl lv) := by
      rw [e1]; exact hadd _ _
    obtain ⟨ih1, ih2⟩ := ih
    refine ⟨?_, ?_⟩
    · intro a x b hl
      cases a with
      | nil =>
        simp only [List.nil_append, List.cons.injEq] at hl
        rw [← hl.1]
        simp
      | cons y a =>
        simp only [List.cons_append, List.cons.injEq] at hl
        rw [ih1 a x b hl.2, e3, ← hl.1]
        simp only [List.map_cons, List.sum_cons]
        ring
    · rw [ih2, e3]
      simp only [List.map_cons, List.sum_cons]
      ring

theorem minutes_share {g : Config} (hg : g.Tiled) {ts : Tsteps} (hts : parse_time_steps g = .ok ts)
    (l : List (RStep Phys)) (a b : ℝ) :
    (l.map fun y => (b - a) / ((ts y.lv).intervals_per_timestep : ℝ)).sum = g.minutes l / g.norm_time_step * (b - a) := by
  have ht := parse_tile hg hts
  obtain ⟨_, _, e1, e2, e3⟩ := parse_ok hts
  have hN : (0 : ℝ) < (g.norm_time_step : ℝ) := by exact_mod_cast hg.1
  have t1 : (ts .normal).timedelta = g.norm_time_step := by rw [e1]
  have t2 : (ts .medium).timedelta = g.medium_time_step := by rw [e2]
  have t3 : (ts .small).timedelta = g.small_time_step := by rw [e3]
  have d1 := ht.td_normal
  have d2 := ht.td_medium
  rw [t1, t2] at d1
  rw [t2, t3] at d2
  have hM : (0 : ℝ) < (g.medium_time_step : ℝ) := by exact_mod_cast hg.2.1
  have hS : (0 : ℝ) < (g.small_time_step : ℝ) := by exact_mod_cast hg.2.2.1
  have key : ∀ x : RStep Phys, (b - a) / ((ts x.lv).intervals_per_timestep : ℝ) = (match x.lv with
      | .normal => (g.norm_time_step : ℝ)
      | .medium => (g.medium_time_step : ℝ)
      | .small => (g.small_time_step : ℝ)) / g.norm_time_step * (b - a) := by
    intro x
    cases x.lv
    · rw [ht.ipt_normal]; simp [hN.ne']
    · rw [ht.ipt_medium]
      have i0 : (0 : ℝ) < ((ts .medium).intervals : ℝ) := by exact_mod_cast ht.m_pos
      have : (g.norm_time_step : ℝ) = ((ts .medium).intervals : ℝ) * g.medium_time_step := by exact_mod_cast d1.symm
      rw [this]
      field_simp
    · rw [ht.ipt_small]
      have i0 : (0 : ℝ) < ((ts .medium).intervals : ℝ) := by exact_mod_cast ht.m_pos
      have i1 : (0 : ℝ) < ((ts .small).intervals : ℝ) := by exact_mod_cast ht.s_pos
      have : (g.norm_time_step : ℝ) = ((ts .medium).intervals : ℝ) * (((ts .small).intervals : ℝ) * g.small_time_step) := by
        exact_mod_cast (by rw [d2, d1] : g.norm_time_step = (ts .medium).intervals * ((ts .small).intervals * g.small_time_step))
      rw [this]
      push_cast
      field_simp
  unfold Config.minutes
  rw [show ∀ w : ℝ, w / (g.norm_time_step : ℝ) * (b - a) = w * (1 / (g.norm_time_step : ℝ) * (b - a)) from fun w => by ring,
    ← List.sum_map_mul_right]
  congr 1
  refine List.map_congr_left fun x _ => ?_
  rw [key]
  ring

/-- C04: throughout a data step the working forcing lies on the straight line from the first record to the second: every
run step starts with the value that belongs to the time passed since the first record, however the data step was
subdivided.  The vapour pressure is that value minus all that was clipped before. -/
theorem C04_linear_in_time (g : Config) (hg : g.Tiled) (ts : Tsteps) (hts : parse_time_steps g = .ok ts) (c : Env)
    (all : Bool) (i1 i2 : InputData) (m m' : Model) (l : List (RStep Phys)) (h : Executed c ts all i1 i2 m l m') :
    (∀ a x b, l = a ++ x :: b →
      x.pre.input1.S_n = g.between a i1.S_n i2.S_n ∧ x.pre.input1.I_lw = g.between a i1.I_lw i2.I_lw ∧
      x.pre.input1.t_a = g.between a i1.t_a i2.t_a ∧ x.pre.input1.u = g.between a i1.u i2.u ∧
      x.pre.input1.t_g = g.between a i1.t_g i2.t_g ∧ x.pre.input1.e_a = g.between a i1.e_a i2.e_a - clipped a) ∧
    g.minutes l = g.norm_time_step ∧ m'.phys.input1.e_a = i2.e_a - clipped l := by
  have ht := parse_tile hg hts
  obtain ⟨dl, mid, hdl, hr, hl, ho⟩ := h.parts
  have hm : m'.phys = mid.phys := (Executed.mid_phys ho).1
  have hd : ∀ lv, dl lv = (deltaRec i1 i2 (ts lv).intervals_per_timestep).toInput := fun lv =>
    (deltaFor_ok (inputDeltas_ok hdl lv)).2
  have keep : ∀ y ∈ l, _ := fun y hy => stepPhys_keeps (show stepPhys c (ts y.lv).time_step (dl y.lv) y.pre = .ok y.post from (hr.mem hy).1)
  have gen : ∀ (f : InputData → ℝ), (∀ d e, f (d.update_precip_deltas e) = f d) →
      (∀ d e, f (d.add_deltas e) = f d + f e) → (∀ lv, f (dl lv) = (f i2 - f i1) / ((ts lv).intervals_per_timestep : ℝ)) →
      (∀ y ∈ l, f y.post.input1 = f y.pre.input1) →
      ∀ a x b, l = a ++ x :: b → f x.pre.input1 = g.between a (f i1) (f i2) := by
    intro f hu ha hf hk a x b e
    rw [(runs_field hr f hu ha).1 a x b e]
    unfold Config.between
    rw [← minutes_share hg hts]
    congr 2
    refine List.map_congr_left fun y hy => ?_
    rw [hf, hk y (by rw [e]; simp [hy])]
    ring
  have hmin : g.minutes l = g.norm_time_step := by
    have h1 := share_sum ht hl 1
    have h2 := minutes_share hg hts l 0 1
    rw [List.map_map] at h1
    simp only [sub_zero, mul_one] at h2
    have : (l.map ((fun lv => (1:ℝ) / ((ts lv).intervals_per_timestep : ℝ)) ∘ fun x => x.lv)).sum =
        (l.map fun y => (1:ℝ) / ((ts y.lv).intervals_per_timestep : ℝ)).sum := rfl
    rw [this, h2] at h1
    have hN : (0 : ℝ) < (g.norm_time_step : ℝ) := by exact_mod_cast hg.1
    field_simp at h1
    exact h1
  have ve : ∀ a : List (RStep Phys), (a.map fun y => (dl y.lv).e_a - (y.pre.input1.e_a - y.post.input1.e_a)).sum =
      g.minutes a / g.norm_time_step * (i2.e_a - i1.e_a) - clipped a := by
    intro a
    rw [← minutes_share hg hts]
    unfold clipped
    simp only [hd, Rec.toInput, deltaRec]
    induction a with
    | nil => simp
    | cons y a ih => simp only [List.map_cons, List.sum_cons, ih]; ring
  refine ⟨fun a x b e => ⟨?_, ?_, ?_, ?_, ?_, ?_⟩, hmin, ?_⟩
  · exact gen (·.S_n) (fun _ _ => rfl) (fun _ _ => rfl) (fun lv => by rw [hd]; rfl) (fun y hy => (keep y hy).1) a x b e
  · exact gen (·.I_lw) (fun _ _ => rfl) (fun _ _ => rfl) (fun lv => by rw [hd]; rfl) (fun y hy => (keep y hy).2.1) a x b e
  · exact gen (·.t_a) (fun _ _ => rfl) (fun _ _ => rfl) (fun lv => by rw [hd]; rfl) (fun y hy => (keep y hy).2.2.1) a x b e
  · exact gen (·.u) (fun _ _ => rfl) (fun _ _ => rfl) (fun lv => by rw [hd]; rfl) (fun y hy => (keep y hy).2.2.2.1) a x b e
  · exact gen (·.t_g) (fun _ _ => rfl) (fun _ _ => rfl) (fun lv => by rw [hd]; rfl) (fun y hy => (keep y hy).2.2.2.2.1) a x b e
  · rw [(runs_field hr (·.e_a) (fun _ _ => rfl) (fun _ _ => rfl)).1 a x b e, ve]
    unfold Config.between
    ring
  · rw [hm, (runs_field hr (·.e_a) (fun _ _ => rfl) (fun _ _ => rfl)).2, ve, hmin]
    have hN : (0 : ℝ) < (g.norm_time_step : ℝ) := by exact_mod_cast hg.1
    field_simp
    ring

end

end Pysnobal
