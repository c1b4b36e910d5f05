import Verif.Props.Levels
import Verif.Props.Clipping
import Verif.Props.NetRadiation

/-! # C101: vapour pressure above saturation does not matter in undivided data steps -/

namespace Pysnobal

noncomputable section

/-! ## Specification -/

/-- Two rows that differ at most in the vapour pressure, and in that only above saturation over ice at the air temperature. -/
def Rec.SameBelowSaturation (r r' : Rec) : Prop :=
  r' = { r with e_a := r'.e_a } ∧ ∀ sat, sati r.t_a = .ok sat → min r'.e_a sat = min r.e_a sat

/-! ## Proof -/

def InputData.humid (e : ℝ) (i : InputData) : InputData := { i with e_a := e }

theorem mass_balance_humid (c : Env) (i : InputData) (e dt : ℝ) (s : Snow) : mass_balance c (i.humid e) dt s = mass_balance c i dt s := by
  have h2 : ∀ s, precip_event c (i.humid e) s = precip_event c i s := fun s => by
    unfold precip_event
    rfl
  have h4 : ∀ s, evap_cond c (i.humid e) dt s = evap_cond c i dt s := fun s => by
    have a : ∀ s, soilEvap c (i.humid e) dt s = soilEvap c i dt s := fun _ => rfl
    unfold evap_cond
    simp only [a]
  have h5 : ∀ s, h2o_compact c (i.humid e) s = h2o_compact c i s := fun _ => rfl
  unfold mass_balance
  simp only [h2, h4, h5]

/-- States that differ at most in the vapour pressure of the working forcing. -/
def HumidPhys (p q : Phys) : Prop := ∃ e, q = { p with input1 := p.input1.humid e }

theorem energy_balance_humid (c : Env) (dt : ℝ) (p : Phys) (e : ℝ) (h : ∀ sat, sati p.input1.t_a = .ok sat → min e sat = min p.input1.e_a sat) :
    RelE HumidPhys (energy_balance c dt p) (energy_balance c dt { p with input1 := p.input1.humid e }) := by
  by_cases hl : p.snow.layer_count > 0
  · have he : energy_balance c dt { p with input1 := p.input1.humid e } = energy_balance c dt p := by
      unfold energy_balance
      rw [if_pos hl, if_pos (by exact hl)]
      cases hs : sati p.input1.t_a with
      | error er =>
        have h1 : h_le c p = .error er := by unfold h_le InputData.sat_vp; rw [hs]; rfl
        have h2 : h_le c { p with input1 := p.input1.humid e } = .error er := by
          unfold h_le InputData.sat_vp
          rw [show ({ p with input1 := p.input1.humid e } : Phys).input1.t_a = p.input1.t_a from rfl, hs]
          rfl
        dsimp only
        rw [h1, h2]
        rfl
      | ok sat =>
        have h1 := h_le_excess c p sat hs
        have h2 := h_le_excess c { p with input1 := p.input1.humid e } sat hs
        have h3 : ({ p.input1.humid e with e_a := min (p.input1.humid e).e_a sat } : InputData) = { p.input1 with e_a := min p.input1.e_a sat } := by
          show ({ p.input1 with e_a := min e sat } : InputData) = _
          rw [h sat hs]
        dsimp only at h2
        rw [h3, h1] at h2
        dsimp only
        rw [← h2]
        rfl
    rw [he]
    cases energy_balance c dt p with
    | error er => rfl
    | ok q => exact ⟨q.input1.e_a, rfl⟩
  · unfold energy_balance
    rw [if_neg hl, if_neg (by exact hl)]
    exact ⟨e, rfl⟩

theorem stepPhys_humid (c : Env) (dt : ℝ) (d : InputData) (p : Phys) (e : ℝ) (h : ∀ sat, sati p.input1.t_a = .ok sat → min e sat = min p.input1.e_a sat) :
    RelE HumidPhys (stepPhys c dt d p) (stepPhys c dt d { p with input1 := p.input1.humid e }) := by
  rw [stepPhys_eq, stepPhys_eq]
  have ha : (applied d p.input1).t_a = p.input1.t_a ∧ (applied d p.input1).e_a = p.input1.e_a := by
    unfold applied; split <;> exact ⟨rfl, rfl⟩
  have e0 : stepStart d { p with input1 := p.input1.humid e } = { stepStart d p with input1 := (stepStart d p).input1.humid e } := by
    have : applied d (p.input1.humid e) = (applied d p.input1).humid e := by
      unfold applied
      show (if p.input1.precip_now = true then _ else _) = _
      split <;> rfl
    unfold stepStart
    rw [this]
  rw [e0]
  have hb := energy_balance_humid c dt (stepStart d p) e (by
    show ∀ sat, sati (applied d p.input1).t_a = .ok sat → min e sat = min (applied d p.input1).e_a sat
    rw [ha.1, ha.2]
    exact h)
  refine RelE.bind hb fun q q' hq => ?_
  obtain ⟨e', rfl⟩ := hq
  show RelE HumidPhys (mass_balance c q.input1 dt q.snow >>= _) (mass_balance c (q.input1.humid e') dt q.snow >>= _)
  rw [mass_balance_humid]
  cases mass_balance c q.input1 dt q.snow with
  | error er => rfl
  | ok s => exact ⟨e', rfl⟩

theorem new_humid {r r' : Rec} (h : r.SameBelowSaturation r') :
    (∃ er, InputData.new r = .error er ∧ InputData.new r' = .error er) ∨ InputData.new r = .ok r.toInput ∧ InputData.new r' = .ok r'.toInput := by
  obtain ⟨e, -⟩ := h
  rw [new_eq, new_eq, e]
  show (∃ er, (if 0 < r.m_pp ∧ 0 < r.m_pp * r.percent_snow ∧ r.rho_snow ≤ 0 then _ else _) = _ ∧ _) ∨ _
  by_cases h : 0 < r.m_pp ∧ 0 < r.m_pp * r.percent_snow ∧ r.rho_snow ≤ 0
  · exact .inl ⟨_, if_pos h, if_pos h⟩
  · exact .inr ⟨if_neg h, if_neg h⟩

theorem data_humid {c : Env} {ts : Tsteps} (ht : TileOK ts) (all : Bool) {r1 r1' r2 r2' : Rec} (h1 : r1.SameBelowSaturation r1')
    (n1 : InputData.new r1 = .ok r1.toInput) (n1' : InputData.new r1' = .ok r1'.toInput) {a b : Model}
    (hab : SameButForcing a b) (h0 : a.acc.time_since_out = 0) (hb : below_thold (ts .normal).threshold a.phys.snow = false) :
    RelE (fun m m' => SameButForcing m m' ∧ m.acc.time_since_out = 0) (do_data_tstep c ts all r1.toInput r2.toInput a)
      (do_data_tstep c ts all r1'.toInput r2'.toInput b) := by
  obtain ⟨q1, q2, q3, q4, q5, q6⟩ := hab
  rw [do_data_normal_eq ht n1 h0 hb, do_data_normal_eq ht n1' (by rw [← q4]; exact h0) (by rw [← q1]; exact hb)]
  obtain ⟨e1, e2⟩ := h1
  have ei : r1'.toInput = r1.toInput.humid r1'.e_a := by rw [e1]; rfl
  have ed : stepPhys c (ts .normal).time_step (deltaRec r1'.toInput r2'.toInput 1).toInput { b.phys with input1 := r1'.toInput } =
      stepPhys c (ts .normal).time_step (deltaRec r1.toInput r2.toInput 1).toInput { b.phys with input1 := r1'.toInput } := by
    refine stepPhys_precip c _ _ ?_
    rw [ei]
    rfl
  rw [ed, ei, ← show ({ a.phys with input1 := r1.toInput.humid r1'.e_a } : Phys) = { b.phys with input1 := r1.toInput.humid r1'.e_a } from by
    cases ha : a.phys; cases hbp : b.phys; rw [ha, hbp] at q1 q2 q3; dsimp only at q1 q2 q3; subst q1 q2 q3; rfl]
  have key := stepPhys_humid c (ts .normal).time_step (deltaRec r1.toInput r2.toInput 1).toInput { a.phys with input1 := r1.toInput } r1'.e_a e2
  revert key
  dsimp only
  generalize stepPhys _ _ _ _ = x
  generalize stepPhys _ _ _ _ = y
  intro key
  cases x <;> cases y <;> try exact key
  obtain ⟨e', rfl⟩ := key
  refine ⟨⟨rfl, rfl, rfl, ?_, ?_, ?_⟩, rfl⟩
  · simp only [normalStep, q4]
  · simp only [normalStep, q5]
  · simp only [normalStep, q5, q6]

theorem runSteps_humid {c : Env} {ts : Tsteps} (ht : TileOK ts) (all : Bool) {rs rs' : List Rec} (hrs : List.Forall₂ Rec.SameBelowSaturation rs rs') :
    ∀ (r1 r1' : Rec) (a b : Model), r1.SameBelowSaturation r1' → InputData.new r1 = .ok r1.toInput → InputData.new r1' = .ok r1'.toInput →
      SameButForcing a b → a.acc.time_since_out = 0 →
      (∀ x y, rs = x ++ y → y ≠ [] → ∀ m1, runSteps c ts all r1.toInput x a = .ok m1 → below_thold (ts .normal).threshold m1.phys.snow = false) →
      RelE SameButForcing (runSteps c ts all r1.toInput rs a) (runSteps c ts all r1'.toInput rs' b) := by
  induction hrs with
  | nil => exact fun r1 r1' a b _ _ _ h _ _ => h
  | @cons x x' xs xs' hx hxs ih =>
    intro r1 r1' a b h1 n1 n1' hab h0 hb
    unfold runSteps
    rcases new_humid hx with ⟨er, e1, e2⟩ | ⟨e1, e2⟩
    · rw [e1, e2]; rfl
    · rw [e1, e2, bind_ok, bind_ok]
      have hd := data_humid (c := c) ht all (r2 := x) (r2' := x') h1 n1 n1' hab h0 (hb [] (x :: xs) rfl (by simp) a rfl)
      cases hm : do_data_tstep c ts all r1.toInput x.toInput a with
      | error er =>
        rw [hm] at hd
        cases hm' : do_data_tstep c ts all r1'.toInput x'.toInput b with
        | error er' => rw [hm'] at hd; exact hd
        | ok _ => rw [hm'] at hd; exact hd.elim
      | ok m1 =>
        rw [hm] at hd
        cases hm' : do_data_tstep c ts all r1'.toInput x'.toInput b with
        | error er' => rw [hm'] at hd; exact hd.elim
        | ok m1' =>
          rw [hm'] at hd
          rw [bind_ok, bind_ok]
          refine ih x x' m1 m1' hx e1 e2 hd.1 hd.2 fun u v huv hv m2 h2 => ?_
          refine hb (x :: u) v (by rw [huv]; rfl) hv m2 ?_
          unfold runSteps
          rw [e1, bind_ok, hm, bind_ok]
          exact h2

/-- C101: vapour pressure above saturation over ice at the air temperature does not matter as long as no data step is subdivided: take a table
during whose simulation no snow layer is lighter than the normal threshold whenever a record is processed, and change its vapour pressures only
above saturation.  The simulation has the same outcome: the same exception, or the same records, snow and output file. -/
theorem C101_supersaturation_irrelevant (g : Config) (hg : g.Tiled) (rows rows' : List Rec) (hn : NeverThin g rows)
    (h : List.Forall₂ Rec.SameBelowSaturation rows rows') :
    RelE (fun m m' => m.output_list = m'.output_list ∧ m.phys.snow = m'.phys.snow ∧ m.current_datetime = m'.current_datetime)
      (simulate g rows) (simulate g rows') ∧
    ∀ file, run g rows file = run g rows' file := by
  have hs : RelE SameButForcing (simulate g rows) (simulate g rows') := by
    cases h with
    | nil => rfl
    | @cons r r' rs rs' hr hrs =>
      cases hts : parse_time_steps g with
      | error e => unfold simulate; rw [hts]; rfl
      | ok ts =>
        have ht := parse_tile hg hts
        rcases new_humid hr with ⟨er, e1, e2⟩ | ⟨e1, e2⟩
        · unfold simulate; dsimp only; rw [hts, bind_ok, bind_ok, e1, e2]; rfl
        · cases hc : mkEnv g with
          | error e => unfold simulate; dsimp only; rw [hts, bind_ok, bind_ok, e1, e2, bind_ok, bind_ok, hc]; rfl
          | ok c =>
            cases hi : init_snow c (recordSnow g) with
            | error e => unfold simulate mkModel; dsimp only; rw [hts, bind_ok, bind_ok, e1, e2, bind_ok, bind_ok, hc, bind_ok, bind_ok, hi]; rfl
            | ok s =>
              have key := runSteps_humid (c := c) ht g.output_all hrs r r'
                { phys := { snow := s, input1 := r.toInput, init_ustar := none, init_factor := none }
                  acc := { acc := { bar := Energy.zero, melt_sum := 0, E_s_sum := 0, swi_sum := none }, time_since_out := 0 }
                  current_datetime := g.start_date
                  output_list := [] }
                { phys := { snow := s, input1 := r'.toInput, init_ustar := none, init_factor := none }
                  acc := { acc := { bar := Energy.zero, melt_sum := 0, E_s_sum := 0, swi_sum := none }, time_since_out := 0 }
                  current_datetime := g.start_date
                  output_list := [] } hr e1 e2 ⟨rfl, rfl, rfl, rfl, rfl, rfl⟩ rfl ?_
              · unfold simulate mkModel
                dsimp only
                rw [hts, bind_ok, bind_ok, e1, e2, bind_ok, bind_ok, hc, bind_ok, bind_ok, hi]
                exact key
              · intro u v huv hv m1 h1
                have : (ts .normal).threshold = g.norm_threshold := by rw [(parse_ok hts).2.2.1]
                rw [this]
                refine below_of_noThin (hn (r :: u) v (by rw [huv]; rfl) hv m1 ?_)
                unfold simulate mkModel
                dsimp only
                rw [hts, bind_ok, e1, bind_ok, hc, bind_ok, hi]
                exact h1
  constructor
  · revert hs
    cases simulate g rows <;> cases simulate g rows' <;> intro hs <;> try exact hs
    exact ⟨hs.2.2.2.2.2, hs.1, hs.2.2.2.2.1⟩
  · intro file
    unfold run
    revert hs
    cases simulate g rows <;> cases simulate g rows' <;> intro hs
    · rw [show _ = _ from hs]
    · exact hs.elim
    · exact hs.elim
    · simp only [hs.2.2.2.2.2]

end

end Pysnobal
