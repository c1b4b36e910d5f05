import Verif.Lemmas.NanRecover

/-! # Weather cells that are not read: a step from bare ground, and increments that are not used -/

namespace Pysnobal

noncomputable section

open Classical

/-- The same precipitation in both rows. -/
structure NRec.FallsAs (n n' : NRec) : Prop where
  m_pp : n.m_pp = n'.m_pp
  percent_snow : n.percent_snow = n'.percent_snow
  rho_snow : n.rho_snow = n'.rho_snow
  t_pp : n.t_pp = n'.t_pp

/-- The same precipitation in both forcings. -/
structure NInput.FallsAs (n n' : NInput) : Prop where
  m_pp : n.m_pp = n'.m_pp
  percent_snow : n.percent_snow = n'.percent_snow
  rho_snow : n.rho_snow = n'.rho_snow
  t_pp : n.t_pp = n'.t_pp
  m_snow : n.m_snow = n'.m_snow
  m_rain : n.m_rain = n'.m_rain
  z_snow : n.z_snow = n'.z_snow
  h2o_sat_snow : n.h2o_sat_snow = n'.h2o_sat_snow
  t_snow : n.t_snow = n'.t_snow
  precip_now : n.precip_now = n'.precip_now

namespace Nan

theorem falls_new {n n' : NRec} (h : n.FallsAs n') : RelE NInput.FallsAs (NInput.new n) (NInput.new n') := by
  rw [nnew_eq, nnew_eq]
  have e1 : n.m_pp = n'.m_pp := h.m_pp
  have e2 : n.percent_snow = n'.percent_snow := h.percent_snow
  have e3 : n.rho_snow = n'.rho_snow := h.rho_snow
  have e4 : n.t_pp = n'.t_pp := h.t_pp
  rw [e1, e2, e3]
  split
  · rfl
  · refine ⟨e1, e2, e3, ?_, ?_, ?_, ?_, ?_, ?_, ?_⟩ <;>
    · unfold NRec.toNInput
      dsimp only
      try rw [e1]
      try rw [e2]
      try rw [e3]
      try rw [e4]

theorem falls_deltas {ts : Tsteps} (ht : TileOK ts) {d1 d1' : NInput} (h : d1.FallsAs d1') (d2 d2' : NInput) :
    RelE (fun dl dl' => ∀ lv : Level, (dl lv).FallsAs (dl' lv)) (inputDeltas ts d1 d2) (inputDeltas ts d1' d2') := by
  have key : ∀ lv, RelE NInput.FallsAs (nDeltaFor d1 d2 (ts lv)) (nDeltaFor d1' d2' (ts lv)) := by
    intro lv
    have hN : (0 : ℝ) < (ts lv).intervals_per_timestep := by exact_mod_cast ht.ipt_pos lv
    rw [nDeltaFor_eq _ _ _ hN.ne', nDeltaFor_eq _ _ _ hN.ne']
    refine falls_new ?_
    have e1 : d1.m_pp = d1'.m_pp := h.m_pp
    have e2 : d1.percent_snow = d1'.percent_snow := h.percent_snow
    have e3 : d1.rho_snow = d1'.rho_snow := h.rho_snow
    have e4 : d1.t_pp = d1'.t_pp := h.t_pp
    exact ⟨by dsimp only; rw [e1], e2, e3, e4⟩
  unfold inputDeltas
  refine RelE.bind (key .normal) fun a a' ha => ?_
  refine RelE.bind (key .medium) fun b b' hb => ?_
  refine RelE.bind (key .small) fun d d' hd => ?_
  intro lv
  cases lv
  · exact ha
  · exact hb
  · exact hd

/-- The same state but for the forcing. -/
def Phys.Same (p p' : Phys) : Prop := p = { p' with input1 := p.input1 }

theorem Phys.Same.snow {p p' : Phys} (h : p.Same p') : p.snow = p'.snow := by
  unfold Phys.Same at h
  rw [h]

/-- A run step reads the weather only where snow lies. -/
theorem step_unread {c : Env} {dt : ℝ} {dl dl' : NInput} (hd : dl.FallsAs dl') {p p' : Phys} (hp : p.Same p')
    (hi : p.input1.FallsAs p'.input1) (h : p'.snow.layer_count = 0 ∨ p.input1 = p'.input1) :
    RelE Phys.Same (stepPhys c dt dl p) (stepPhys c dt dl' p') := by
  obtain ⟨s, i, u, f⟩ := p
  obtain ⟨s', i', u', f'⟩ := p'
  have a1 : s = s' := hp.snow
  have a2 : u = u' := congrArg Phys.init_ustar hp
  have a3 : f = f' := congrArg Phys.init_factor hp
  subst a1 a2 a3
  have hi : i.FallsAs i' := hi
  have now : i.precip_now = i'.precip_now := hi.precip_now
  have b : dl.m_pp = dl'.m_pp ∧ dl.m_snow = dl'.m_snow ∧ dl.m_rain = dl'.m_rain ∧ dl.z_snow = dl'.z_snow :=
    ⟨hd.m_pp, hd.m_snow, hd.m_rain, hd.z_snow⟩
  have hup : (if i.precip_now then i.update_precip_deltas dl else i).FallsAs (if i'.precip_now then i'.update_precip_deltas dl' else i') := by
    rw [now]
    split
    · exact ⟨b.1, hi.percent_snow, hi.rho_snow, hi.t_pp, b.2.1, b.2.2.1, b.2.2.2, hi.h2o_sat_snow, hi.t_snow, hi.precip_now⟩
    · exact hi
  have hj : ∀ (i : NInput) (dl : NInput), (if i.precip_now then ({ snow := s, input1 := i.update_precip_deltas dl, init_ustar := u, init_factor := f } : Phys) else
      { snow := s, input1 := i, init_ustar := u, init_factor := f }) = { snow := s, input1 := if i.precip_now then i.update_precip_deltas dl else i, init_ustar := u, init_factor := f } := by
    intro i dl; split <;> rfl
  unfold stepPhys
  dsimp only
  rw [hj, hj]
  dsimp only
  rcases h with h | h
  · have h : s.layer_count = 0 := h
    generalize (if i.precip_now then i.update_precip_deltas dl else i) = j at hup
    generalize (if i'.precip_now then i'.update_precip_deltas dl' else i') = j' at hup
    have hl : decide (Snow.layer_count { s with h2o_total := 0 } > 0) = false := by
      rw [show Snow.layer_count { s with h2o_total := 0 } = 0 from h]; rfl
    rw [hl]
    unfold energy_balance
    have hl2 : ¬Snow.layer_count { s with h2o_total := 0, snowcover := false } > 0 := by
      rw [show Snow.layer_count { s with h2o_total := 0, snowcover := false } = 0 from h]; simp
    rw [if_neg hl2, if_neg hl2, bind_ok, bind_ok]
    dsimp only
    generalize hx : ({ s with h2o_total := 0, snowcover := false, en := Energy.zero, E := 0 } : Snow) = x
    have hk : x.snowcover = false := by rw [← hx]
    have hm : mass_balance c j dt x = mass_balance c j' dt x := by
      unfold mass_balance
      have e1 : time_compact c dt x = .ok x := by unfold time_compact; rw [if_pos (.inl hk)]
      have e2 : precip_event c j x = precip_event c j' x := by
        unfold precip_event
        rw [show j.precip_now = j'.precip_now from hup.precip_now, hk,
          show j.m_snow = j'.m_snow from hup.m_snow, show j.z_snow = j'.z_snow from hup.z_snow,
          show j.rho_snow = j'.rho_snow from hup.rho_snow, show j.t_snow = j'.t_snow from hup.t_snow,
          show j.h2o_sat_snow = j'.h2o_sat_snow from hup.h2o_sat_snow,
          show j.m_rain = j'.m_rain from hup.m_rain]
        rfl
      rw [e1, bind_ok, bind_ok, e2]
      cases e3 : precip_event c j' x with
      | error e => rfl
      | ok y =>
        have hy : y.snowcover = false := by
          unfold precip_event at e3
          split at e3
          · dsimp only at e3
            rw [hk] at e3
            simp only [Bool.false_eq_true, if_false] at e3
            split at e3
            · obtain ⟨z, e4, e3⟩ := bind_eq_ok.mp e3
              cases e3
              exact (init_snow_cover e4).trans rfl
            · cases e3; exact hk
          · cases e3; exact hk
        simp only [bind_ok]
        unfold snowmelt evap_cond h2o_compact runoff
        simp only [hy, true_or, if_true, if_false, bind_ok, Bool.false_eq_true, pure_ok]
    rw [hm]
    cases mass_balance c j' dt x with
    | error e => rfl
    | ok y => rfl
  · have h : i = i' := h
    subst h
    have hju : (if i.precip_now then i.update_precip_deltas dl else i) = (if i.precip_now then i.update_precip_deltas dl' else i) := by
      split
      · unfold NInput.update_precip_deltas
        rw [b.1, b.2.1, b.2.2.1, b.2.2.2]
      · rfl
    rw [hju]
    generalize (energy_balance c dt _ >>= _) = y
    cases y with
    | error e => rfl
    | ok y => rfl

/-- The same model but for the forcing of the last step. -/
def Model.Same (m m' : Model) : Prop := m.phys.Same m'.phys ∧ m.acc = m'.acc ∧ m.current_datetime = m'.current_datetime ∧ m.output_list = m'.output_list

theorem Model.Same.rfl' (m : Model) : m.Same m := ⟨rfl, rfl, rfl, rfl⟩

variable {c : Env} {ts : Tsteps} {all : Bool}

theorem output_same {dl dl' : Level → NInput} {m m' : Model} (h : m.Same m') :
    RelE Model.Same ((snobalSim c ts all dl).output m) ((snobalSim c ts all dl').output m') := by
  obtain ⟨⟨s, i, u, f⟩, a, t, o⟩ := m
  obtain ⟨⟨s', i', u', f'⟩, a', t', o'⟩ := m'
  obtain ⟨h1, h2, h3, h4⟩ := h
  have a1 : s = s' := h1.snow
  have a2 : u = u' := congrArg Phys.init_ustar h1
  have a3 : f = f' := congrArg Phys.init_factor h1
  dsimp only at h2 h3 h4
  subst a1 a2 a3 h2 h3 h4
  unfold Sim.output
  show RelE _ (snapshot s a.acc t >>= _) (snapshot s a.acc t >>= _)
  cases snapshot s a.acc t with
  | error e => rfl
  | ok r => exact ⟨rfl, rfl, rfl, rfl⟩

theorem tstep_same {dl dl' : Level → NInput} {lv : Level} {m m' : Model} (h : m.Same m')
    (hs : RelE Phys.Same (stepPhys c (ts lv).time_step (dl lv) m.phys) (stepPhys c (ts lv).time_step (dl' lv) m'.phys)) :
    RelE Model.Same ((snobalSim c ts all dl).do_tstep lv m) ((snobalSim c ts all dl').do_tstep lv m') := by
  obtain ⟨p, a, t, o⟩ := m
  obtain ⟨p', a', t', o'⟩ := m'
  obtain ⟨h1, h2, h3, h4⟩ := h
  dsimp only at h1 h2 h3 h4 hs
  subst h2 h3 h4
  unfold Sim.do_tstep
  refine RelE.bind hs fun q q' hq => ?_
  have e : q.snow = q'.snow := hq.snow
  show RelE _ (accumulate (ts lv).time_step q.snow a >>= _) (accumulate (ts lv).time_step q'.snow a >>= _)
  rw [e]
  cases accumulate (ts lv).time_step q'.snow a with
  | error e => rfl
  | ok b =>
    have last : ∀ x y : Model, x.Same y → Model.Same { x with phys := (snobalSim c ts all dl).finish lv x.phys }
        { y with phys := (snobalSim c ts all dl').finish lv y.phys } := by
      intro x y hxy
      obtain ⟨k1, k2, k3, k4⟩ := hxy
      refine ⟨?_, k2, k3, k4⟩
      obtain ⟨⟨sx, ix, ux, fx⟩, ax, tx, ox⟩ := x
      obtain ⟨⟨sy, iy, uy, fy⟩, ay, ty, oy⟩ := y
      have a1 : sx = sy := k1.snow
      have a2 : ux = uy := congrArg Phys.init_ustar k1
      have a3 : fx = fy := congrArg Phys.init_factor k1
      subst a1 a2 a3
      rfl
    simp only [bind_ok]
    have hst : Model.Same { phys := q, acc := b, current_datetime := t + (snobalSim c ts all dl).timedelta lv, output_list := o }
        { phys := q', acc := b, current_datetime := t + (snobalSim c ts all dl').timedelta lv, output_list := o } := ⟨hq, rfl, rfl, rfl⟩
    have o1 : (snobalSim c ts all dl).output_divided = all := rfl
    have o2 : (snobalSim c ts all dl').output_divided = all := rfl
    rw [o1, o2]
    by_cases ha : all = true
    · rw [if_pos ha, if_pos ha]
      exact RelE.bind (output_same hst) fun x y hxy => last x y hxy
    · rw [if_neg ha, if_neg ha]
      exact last _ _ hst

/-- A data step that is not subdivided. -/
theorem data_unread (ht : TileOK ts) {d1 d1' d2 d2' : NInput} (h1 : d1.FallsAs d1') {m m' : Model} (h : m.Same m')
    (hb : below_thold (ts .normal).threshold m'.phys.snow = false) (hl : m'.phys.snow.layer_count = 0 ∨ d1 = d1') :
    RelE Model.Same (do_data_tstep c ts all d1 d2 m) (do_data_tstep c ts all d1' d2' m') := by
  unfold do_data_tstep
  refine RelE.bind (falls_deltas ht h1 d2 d2') fun dl dl' hdl => ?_
  rw [data_tstep_eq, data_tstep_eq]
  have hn : ((ts .normal).intervals).toNat = 1 := by rw [ht.n_normal]; rfl
  have hs : m.phys.snow = m'.phys.snow := h.1.snow
  refine RelE.bind (R := Model.Same) ?_ fun x y hxy => ?_
  · unfold Sim.normalBlock
    simp only [show (snobalSim c ts all dl).intervals .normal = (ts .normal).intervals from rfl,
      show (snobalSim c ts all dl').intervals .normal = (ts .normal).intervals from rfl, hn, iterM]
    have e1 : (snobalSim c ts all dl).below .normal { m.phys with input1 := d1 } = false := by
      show below_thold _ m.phys.snow = _
      rw [hs]; exact hb
    have e2 : (snobalSim c ts all dl').below .normal { m'.phys with input1 := d1' } = false := hb
    rw [e1, e2]
    simp only [Bool.false_eq_true, if_false]
    have q := h.1
    unfold Phys.Same at q
    refine RelE.bind (R := Model.Same) (tstep_same (m := { m with phys := { m.phys with input1 := d1 } }) (m' := { m' with phys := { m'.phys with input1 := d1' } })
      ⟨?_, h.2.1, h.2.2.1, h.2.2.2⟩ (step_unread (hdl .normal) ?_ h1 hl)) fun x y hxy => hxy
    · unfold Phys.Same; rw [q]
    · unfold Phys.Same; dsimp only; rw [q]
  · cases all
    · exact output_same hxy
    · exact hxy

theorem data_same {d1 d2 : NInput} {m m' : Model} (h : m.Same m') :
    do_data_tstep c ts all d1 d2 m = do_data_tstep c ts all d1 d2 m' := by
  obtain ⟨p, a, t, o⟩ := m
  obtain ⟨p', a', t', o'⟩ := m'
  obtain ⟨h1, h2, h3, h4⟩ := h
  dsimp only at h1 h2 h3 h4
  subst h2 h3 h4
  unfold do_data_tstep
  unfold Phys.Same at h1
  dsimp only
  rw [h1]

end Nan

end

end Pysnobal
