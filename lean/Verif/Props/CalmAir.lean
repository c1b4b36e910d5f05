import Verif.Lemmas.Agree
import Verif.Props.Site
import Verif.Props.Turbulence
import Verif.Props.Ties

/-! # C96: without wind the air does not matter -/

namespace Pysnobal

noncomputable section

/-! ## Specification -/

/-- The same configuration with other heights of the wind and temperature measurements and another roughness length. -/
def Config.withHeights (g : Config) (z_u z_t z_0 : ℝ) : Config := { g with z_u := z_u, z_t := z_t, init_z_0 := z_0 }

/-- Two rows of calm weather that differ at most in air temperature and vapour pressure. -/
def CalmAlike (r r' : Rec) : Prop := r.u = 0 ∧ r' = { r with t_a := r'.t_a, e_a := r'.e_a }

/-! ## Proof -/

/-- The same for input data. -/
def InputCalmAlike (i i' : InputData) : Prop := i.u = 0 ∧ i' = { i with t_a := i'.t_a, e_a := i'.e_a }

/-- The same for states. -/
def PhysCalmAlike (p q : Phys) : Prop := q.snow = p.snow ∧ InputCalmAlike p.input1 q.input1

/-- The environment with other heights. -/
def Env.heights (c : Env) (z_u z_t z_0 : ℝ) : Env := { c with z_u := z_u, z_t := z_t, z_0 := z_0 }

theorem mkEnv_heights {g : Config} {c : Env} (h : mkEnv g = .ok c) (u t z : ℝ) : mkEnv (g.withHeights u t z) = .ok (c.heights u t z) := by
  unfold mkEnv at h
  obtain ⟨P, e, h⟩ := bind_eq_ok.mp h
  cases h
  unfold mkEnv
  rw [show (g.withHeights u t z).elevation = g.elevation from rfl, e, bind_ok]
  rfl

/-- The snow after the energy balance of a calm run step. -/
def calmSnow (c : Env) (i : InputData) (dt : ℝ) (s : Snow) : Except Err Snow :=
  if s.layer_count > 0 then do
    let (G, G_0) ← heat_transfer c i s
    let M ← advec i dt s
    let R := net_radiation i s
    pure { s with E := 0, en := { R_n := R, H := 0, L_v_E := 0, G, G_0, M, delta_Q_0 := R + G_0 + M, delta_Q := R + G_0 + M + G - G_0 } }
  else .ok { s with E := 0, en := Energy.zero }

theorem heat_transfer_air (c : Env) (i : InputData) (s : Snow) (x : ℝ) : heat_transfer c { i with e_a := x } s = heat_transfer c i s := rfl

theorem energy_balance_calm {c : Env} {dt : ℝ} {p p' : Phys} (hu : p.input1.u = 0) (h : energy_balance c dt p = .ok p') :
    calmSnow c p.input1 dt p.snow = .ok p'.snow ∧ InputCalmAlike p.input1 p'.input1 := by
  unfold energy_balance at h
  unfold calmSnow
  split at h
  · rename_i hl
    rw [if_pos hl]
    dsimp only at h
    obtain ⟨⟨r, q⟩, e1, h⟩ := bind_eq_ok.mp h
    have hq : q.snow = p.snow ∧ (∃ x, q.input1 = { p.input1 with e_a := x }) ∧ r.h = 0 ∧ r.e = 0 ∧ r.le = 0 := by
      unfold h_le at e1
      dsimp only at e1
      obtain ⟨sv, _, e1⟩ := bind_eq_ok.mp e1
      obtain ⟨es, _, e1⟩ := bind_eq_ok.mp e1
      obtain ⟨r', e2, e1⟩ := bind_eq_ok.mp e1
      have hw := C34_calm_air _ (by
        show (if p.input1.e_a > sv then _ else _ : InputData).u = 0
        split <;> exact hu) _ e2
      have : r' = r ∧ q.snow = p.snow ∧ q.input1 = if p.input1.e_a > sv then { p.input1 with e_a := sv } else p.input1 := by
        split at e1
        · exact absurd e1 (by intro e; obtain ⟨_, e, _⟩ := bind_eq_ok.mp e; cases e)
        · cases e1
          exact ⟨rfl, rfl, rfl⟩
      obtain ⟨rfl, k1, k2⟩ := this
      refine ⟨k1, ?_, hw.1, hw.2.1, hw.2.2.1⟩
      rw [k2]
      split
      · exact ⟨sv, rfl⟩
      · exact ⟨p.input1.e_a, rfl⟩
    obtain ⟨k1, ⟨x, k2⟩, h1, h2, h3⟩ := hq
    dsimp only at h
    obtain ⟨⟨G, G0⟩, e2, h⟩ := bind_eq_ok.mp h
    obtain ⟨M, e3, h⟩ := bind_eq_ok.mp h
    rw [k1, k2] at e2 e3
    have e2' : heat_transfer c p.input1 p.snow = .ok (G, G0) := e2
    have e3' : advec p.input1 dt p.snow = .ok M := e3
    rw [e2', bind_ok]
    dsimp only
    rw [e3', bind_ok]
    cases h
    refine ⟨?_, ?_⟩
    · simp only [k1, h1, h2, h3, add_zero, pure_ok]
    · show InputCalmAlike p.input1 q.input1
      rw [k2]
      exact ⟨hu, rfl⟩
  · rename_i hl
    rw [if_neg hl]
    cases h
    exact ⟨rfl, hu, rfl⟩

theorem calmSnow_alike {c : Env} {i i' : InputData} (h : InputCalmAlike i i') (dt : ℝ) (s : Snow) (u t z : ℝ) :
    calmSnow (c.heights u t z) i' dt s = calmSnow c i dt s := by
  rw [h.2]
  rfl

theorem mass_balance_calmAlike {c : Env} {i i' : InputData} (h : InputCalmAlike i i') (dt : ℝ) (s : Snow) (u t z : ℝ) :
    mass_balance (c.heights u t z) i' dt s = mass_balance c i dt s := by
  have h1 : ∀ s, time_compact (c.heights u t z) dt s = time_compact c dt s := fun _ => rfl
  have h2 : ∀ s, precip_event (c.heights u t z) i' s = precip_event c i s := fun s => by
    have a : ∀ s, init_snow (c.heights u t z) s = init_snow c s := fun _ => rfl
    have b : ∀ x y s, adj_snow (c.heights u t z) x y s = adj_snow c x y s := fun _ _ _ => rfl
    rw [h.2]
    unfold precip_event
    simp only [a, b]
    rfl
  have h3 : ∀ s, snowmelt (c.heights u t z) dt s = snowmelt c dt s := fun _ => rfl
  have h4 : ∀ s, evap_cond (c.heights u t z) i' dt s = evap_cond c i dt s := fun s => by
    have a : ∀ s, soilEvap (c.heights u t z) i' dt s = soilEvap c i dt s := fun _ => by rw [h.2]; rfl
    have b : ∀ x y s, adj_snow (c.heights u t z) x y s = adj_snow c x y s := fun _ _ _ => rfl
    unfold evap_cond
    simp only [a, b]
  have h5 : ∀ s, h2o_compact (c.heights u t z) i' s = h2o_compact c i s := fun _ => by rw [h.2]; rfl
  have h6 : ∀ s, runoff (c.heights u t z) s = runoff c s := fun s => by
    have a : (c.heights u t z).max_h2o_vol = c.max_h2o_vol := rfl
    have b : ∀ x y s, adj_snow (c.heights u t z) x y s = adj_snow c x y s := fun _ _ _ => rfl
    unfold runoff
    simp only [a, b]
  unfold mass_balance
  simp only [h1, h2, h3, h4, h5, h6]

/-- Increments of calm weather. -/
theorem InputCalmAlike.update {i i' d d' : InputData} (h : InputCalmAlike i i') (hd : InputCalmAlike d d') :
    InputCalmAlike (i.update_precip_deltas d) (i'.update_precip_deltas d') := by
  refine ⟨h.1, ?_⟩
  rw [h.2, hd.2]
  rfl

theorem InputCalmAlike.add {i i' d d' : InputData} (h : InputCalmAlike i i') (hd : InputCalmAlike d d') : InputCalmAlike (i.add_deltas d) (i'.add_deltas d') := by
  refine ⟨?_, ?_⟩
  · show i.u + d.u = 0
    rw [h.1, hd.1, add_zero]
  · rw [h.2, hd.2]
    rfl

theorem InputCalmAlike.precip {i i' : InputData} (h : InputCalmAlike i i') : i'.precip_now = i.precip_now := by rw [h.2]

theorem PhysCalmAlike.update {p q : Phys} {d d' : InputData} (h : PhysCalmAlike p q) (hd : InputCalmAlike d d') :
    PhysCalmAlike (if p.input1.precip_now then { p with input1 := p.input1.update_precip_deltas d } else p)
      (if q.input1.precip_now then { q with input1 := q.input1.update_precip_deltas d' } else q) := by
  rw [h.2.precip]
  cases hb : p.input1.precip_now <;> simp only [Bool.false_eq_true, if_false, if_true]
  · exact h
  · exact ⟨h.1, h.2.update hd⟩

theorem InputCalmAlike.trans {a b c d : InputData} (hab : InputCalmAlike a b) (h1 : InputCalmAlike a c) (h2 : InputCalmAlike b d) : InputCalmAlike c d := by
  refine ⟨by rw [h1.2]; exact hab.1, ?_⟩
  have e := h2.2
  rw [hab.2] at e
  rw [e, h1.2]

theorem stepStart_calmAlike {p q : Phys} {d d' : InputData} (h : PhysCalmAlike p q) (hd : InputCalmAlike d d') : PhysCalmAlike (stepStart d p) (stepStart d' q) := by
  refine ⟨?_, ?_⟩
  · unfold stepStart
    rw [h.1]
  · show InputCalmAlike (applied d p.input1) (applied d' q.input1)
    unfold applied
    rw [h.2.precip]
    split
    · exact h.2.update hd
    · exact h.2

theorem stepPhys_calmAlike {c : Env} {dt : ℝ} {d d' : InputData} {p q p' q' : Phys} {u t z : ℝ} (h : PhysCalmAlike p q) (hd : InputCalmAlike d d')
    (hp : stepPhys c dt d p = .ok p') (hq : stepPhys (c.heights u t z) dt d' q = .ok q') : PhysCalmAlike p' q' := by
  rw [stepPhys_eq] at hp hq
  have hs := stepStart_calmAlike h hd
  obtain ⟨p1, e1, hp⟩ := bind_eq_ok.mp hp
  obtain ⟨s1, e2, hp⟩ := bind_eq_ok.mp hp
  obtain ⟨q1, f1, hq⟩ := bind_eq_ok.mp hq
  obtain ⟨s2, f2, hq⟩ := bind_eq_ok.mp hq
  cases hp
  cases hq
  obtain ⟨k1, k2⟩ := energy_balance_calm hs.2.1 e1
  obtain ⟨l1, l2⟩ := energy_balance_calm (by rw [hs.2.2]; exact hs.2.1) f1
  have hi := hs.2.trans k2 l2
  rw [calmSnow_alike hs.2, hs.1, k1] at l1
  have hsn : q1.snow = p1.snow := (Except.ok.inj l1).symm
  rw [mass_balance_calmAlike hi, hsn, e2] at f2
  exact ⟨(Except.ok.inj f2).symm, hi⟩

theorem sims_calmAlike (c : Env) (ts : Tsteps) (all : Bool) {dl dl' : Level → InputData} (hd : ∀ lv, InputCalmAlike (dl lv) (dl' lv)) (u t z : ℝ) :
    (snobalSim c ts all dl).Agree (snobalSim (c.heights u t z) ts all dl') PhysCalmAlike PhysCalmAlike where
  intervals := rfl
  timedelta := rfl
  divided := rfl
  below lv p q h := by
    show below_thold _ q.snow = below_thold _ p.snow
    rw [h.1]
  enter p q h := h.update (hd .small)
  phys lv p q p' q' h hp hq := stepPhys_calmAlike h (hd lv) hp hq
  accum lv p q a h := by
    show accumulate _ q.snow a = accumulate _ p.snow a
    rw [h.1]
  finish lv p q h := ⟨h.1, h.2.add (hd lv)⟩
  snap p q a t h := by
    show snapshot q.snow _ _ = snapshot p.snow _ _
    rw [(h.elim id id : PhysCalmAlike p q).1]
  reset := rfl

theorem toInput_calmAlike {r r' : Rec} (h : CalmAlike r r') : InputCalmAlike r.toInput r'.toInput := by
  refine ⟨h.1, ?_⟩
  rw [h.2]
  rfl

theorem deltas_calmAlike {i1 i1' i2 i2' : InputData} (h1 : InputCalmAlike i1 i1') (h2 : InputCalmAlike i2 i2') (n : ℝ) :
    InputCalmAlike (deltaRec i1 i2 n).toInput (deltaRec i1' i2' n).toInput := by
  refine toInput_calmAlike ⟨?_, ?_⟩
  · show (i2.u - i1.u) / n = 0
    rw [h1.1, h2.1, sub_zero, zero_div]
  · rw [h1.2, h2.2]
    rfl

theorem inputDeltas_calmEntries {ts : Tsteps} {i1 i2 : InputData} {dl : Level → InputData} (h : inputDeltas ts i1 i2 = .ok dl) (lv : Level) :
    dl lv = (deltaRec i1 i2 (ts lv).intervals_per_timestep).toInput := by
  unfold inputDeltas at h
  obtain ⟨n, e1, h⟩ := bind_eq_ok.mp h
  obtain ⟨m, e2, h⟩ := bind_eq_ok.mp h
  obtain ⟨s, e3, h⟩ := bind_eq_ok.mp h
  cases h
  cases lv
  · exact (deltaFor_ok e1).2
  · exact (deltaFor_ok e2).2
  · exact (deltaFor_ok e3).2

/-- Two models with the same snow and the same records. -/
structure SameSnowModel (m m' : Model) : Prop where
  snow : m'.phys.snow = m.phys.snow
  acc : m'.acc = m.acc
  time : m'.current_datetime = m.current_datetime
  out : m'.output_list = m.output_list

theorem data_step_calmAlike {c : Env} {ts : Tsteps} {all : Bool} {i1 i1' i2 i2' : InputData} (h1 : InputCalmAlike i1 i1') (h2 : InputCalmAlike i2 i2') {u t z : ℝ}
    {m m' n n' : Model} (h : SameSnowModel m m') (e : do_data_tstep c ts all i1 i2 m = .ok n)
    (f : do_data_tstep (c.heights u t z) ts all i1' i2' m' = .ok n') : SameSnowModel n n' := by
  obtain ⟨dl, e1, e⟩ := bind_eq_ok.mp e
  obtain ⟨dl', f1, f⟩ := bind_eq_ok.mp f
  have hd : ∀ lv, InputCalmAlike (dl lv) (dl' lv) := fun lv => by
    rw [inputDeltas_calmEntries e1, inputDeltas_calmEntries f1]
    exact deltas_calmAlike h1 h2 _
  have := (sims_calmAlike c ts all hd u t z).data_tstep (s := { m with phys := { m.phys with input1 := i1 } })
    (t := { m' with phys := { m'.phys with input1 := i1' } }) ⟨⟨h.snow, h1⟩, h.acc, h.time, h.out⟩ _ _ e f
  exact ⟨this.phys.1, this.acc, this.time, this.out⟩

theorem runSteps_calmAlike {c : Env} {ts : Tsteps} {all : Bool} {u t z : ℝ} {rs rs' : List Rec} (hr : List.Forall₂ CalmAlike rs rs') :
    ∀ {i1 i1' : InputData} {m m' n n' : Model}, InputCalmAlike i1 i1' → SameSnowModel m m' → runSteps c ts all i1 rs m = .ok n →
      runSteps (c.heights u t z) ts all i1' rs' m' = .ok n' → SameSnowModel n n' := by
  induction hr with
  | nil =>
    intro i1 i1' m m' n n' _ h e f
    cases e
    cases f
    exact h
  | cons hr _ ih =>
    intro i1 i1' m m' n n' h1 h e f
    obtain ⟨i2, m1, e1, e2, e3⟩ := runSteps_cons e
    obtain ⟨i2', m1', f1, f2, f3⟩ := runSteps_cons f
    have h2 : InputCalmAlike i2 i2' := by
      rw [(new_ok e1).1, (new_ok f1).1]
      exact toInput_calmAlike hr
    exact ih h2 (data_step_calmAlike h1 h2 h e2 f2) e3 f3

/-- C96: over two tables of calm weather that differ at most in air temperatures and vapour pressures, under configurations that differ
at most in the heights of the wind and temperature measurements and in the roughness length, two completed runs produce the same
output records, the same clock and the same snow. -/
theorem C96_calm_air_unread (g : Config) (z_u z_t z_0 : ℝ) (rows rows' : List Rec) (hr : List.Forall₂ CalmAlike rows rows')
    (m m' : Model) (h : simulate g rows = .ok m) (h' : simulate (g.withHeights z_u z_t z_0) rows' = .ok m') :
    m'.phys.snow = m.phys.snow ∧ m'.current_datetime = m.current_datetime ∧ m'.output_list = m.output_list := by
  cases hr with
  | nil => cases h
  | cons hr hrs =>
    obtain ⟨ts, i1, c, m0, e1, e2, e3, e4, e5⟩ := simulate_ok h
    obtain ⟨ts', i1', c', m0', f1, f2, f3, f4, f5⟩ := simulate_ok h'
    rw [show parse_time_steps (g.withHeights z_u z_t z_0) = parse_time_steps g from rfl, e1] at f1
    cases f1
    rw [mkEnv_heights e3] at f3
    cases f3
    have h1 : InputCalmAlike i1 i1' := by
      rw [(new_ok e2).1, (new_ok f2).1]
      exact toInput_calmAlike hr
    have h0 : SameSnowModel m0 m0' := by
      unfold mkModel at e4 f4
      obtain ⟨s, k1, e4⟩ := bind_eq_ok.mp e4
      obtain ⟨s', k2, f4⟩ := bind_eq_ok.mp f4
      have : s' = s := by
        have k2' : init_snow c (recordSnow g) = .ok s' := k2
        rw [k1] at k2'
        exact (Except.ok.inj k2').symm
      cases e4
      cases f4
      exact ⟨this, rfl, rfl, rfl⟩
    have := runSteps_calmAlike hrs h1 h0 e5 f5
    exact ⟨this.snow, this.time, this.out⟩

end

end Pysnobal
