import Verif.Props.LostStart
import Verif.Props.Ties

/-! # C99: light snowfall never builds a snow cover -/

namespace Pysnobal

noncomputable section

/-! ## Specification -/

/-- If there is precipitation, then its snow fraction is not negative; if snow falls, then it has a density and its mass does not exceed
`thr`. -/
def Rec.LightSnow (thr : ℝ) (r : Rec) : Prop :=
  0 < r.m_pp → 0 ≤ r.percent_snow ∧ (0 < r.m_pp * r.percent_snow → 0 < r.rho_snow ∧ r.m_pp * r.percent_snow ≤ thr)

/-! ## Proof -/

/-- Bare ground without stored water. -/
structure DryGround (s : Snow) : Prop where
  layers : s.layer_count = 0
  h2o : s.h2o = 0
  mass : s.m_s = 0 ∧ s.m_s_0 = 0 ∧ s.m_s_l = 0

/-- Snow that reports a runoff of `x` and nothing else. -/
structure RanOff (x : ℝ) (s : Snow) : Prop where
  dry : DryGround s
  swi : s.swi = x
  total : s.h2o_total = x
  melt : s.melt = 0
  E_s : s.E_s = 0
  en : s.en = Energy.zero

theorem RanOff.record {x : ℝ} {s : Snow} (h : RanOff x s) (t : ℤ) : OnlyRunoff (recordOf s t) ∧ (recordOf s t).swi_sum = x := by
  refine ⟨⟨h.dry.layers, h.dry.mass, ⟨h.dry.h2o, ?_⟩, h.melt, h.E_s, ?_⟩, h.swi⟩
  · show s.h2o_total = s.swi
    rw [h.total, h.swi]
  · unfold recordOf
    simp only [h.en]
    exact ⟨rfl, rfl, rfl, rfl, rfl, rfl, rfl, rfl⟩

/-- The state before the precipitation of a run step on bare ground. -/
def idle (s : Snow) : Snow := { s with h2o_total := 0, snowcover := false, E := 0, en := Energy.zero }

/-- The new snow melts into the ground. -/
theorem init_light_fall {c : Env} {i : InputData} {s : Snow} (h : i.rho_snow * i.z_snow = i.m_snow) (h0 : 0 < i.m_snow) (hl : i.m_snow ≤ c.small_threshold) :
    ∃ t, init_snow c { idle s with z_s := i.z_snow, rho := i.rho_snow, t_s := i.t_snow, t_s_0 := i.t_snow, t_s_l := i.t_snow, h2o_sat := i.h2o_sat_snow } = .ok t ∧
      DryGround t ∧ t.h2o_total = i.m_snow ∧ t.snowcover = false ∧ t.en = Energy.zero := by
  unfold init_snow initLayers Snow.calc_layers idle
  dsimp only
  rw [h, if_pos hl]
  rw [if_pos (by simp [Snow.layer_count])]
  refine ⟨_, rfl, ⟨by simp [Snow.layer_count, initBare], rfl, rfl, rfl, rfl⟩, ?_, rfl, rfl⟩
  unfold initBare
  dsimp only
  rw [if_pos h0, zero_add]

theorem mass_light {c : Env} {i : InputData} {dt : ℝ} {s : Snow} (hs : DryGround s) {x : ℝ}
    (h : ∃ t, precip_event c i (idle s) = .ok t ∧ DryGround t ∧ t.h2o_total = x ∧ t.snowcover = false ∧ t.en = Energy.zero) :
    ∃ t, mass_balance c i dt (idle s) = .ok t ∧ RanOff x t := by
  obtain ⟨t, e, h1, h2, h3, h4⟩ := h
  refine ⟨{ t with melt := 0, E_s := 0, swi := t.h2o_total }, ?_, ⟨h1.layers, h1.h2o, h1.mass⟩, h2, h2, rfl, rfl, h4⟩
  unfold mass_balance
  have t1 : time_compact c dt (idle s) = .ok (idle s) := if_pos (.inl rfl)
  have t2 : snowmelt c dt t = .ok { t with melt := 0 } := if_pos h3
  have t3 : evap_cond c i dt { t with melt := 0 } = .ok { t with melt := 0, E_s := 0 } := if_pos h3
  have t4 : h2o_compact c i { t with melt := 0, E_s := 0 } = .ok { t with melt := 0, E_s := 0 } := if_pos (.inl h3)
  have t5 : runoff c { t with melt := 0, E_s := 0 } = .ok { t with melt := 0, E_s := 0, swi := t.h2o_total } := if_pos (.inl h3)
  rw [t1, bind_ok, e, bind_ok, t2, bind_ok, t3, bind_ok, t4, bind_ok, t5, bind_ok, if_neg (by show ¬ t.snowcover = true; rw [h3]; simp)]
  rfl

/-- A run step on bare ground with light precipitation. -/
theorem stepPhys_light {c : Env} {dt : ℝ} {dl : InputData} {p : Phys} (hs : DryGround p.snow) {x : ℝ}
    (h : ∃ t, precip_event c (applied dl p.input1) (idle p.snow) = .ok t ∧ DryGround t ∧ t.h2o_total = x ∧ t.snowcover = false ∧ t.en = Energy.zero) :
    ∃ p', stepPhys c dt dl p = .ok p' ∧ RanOff x p'.snow := by
  have hc : decide (p.snow.layer_count > 0) = false := by rw [hs.layers]; rfl
  have e : energy_balance c dt (stepStart dl p) = .ok { p with input1 := applied dl p.input1, snow := idle p.snow } := by
    refine (if_neg (by show ¬ p.snow.layer_count > 0; rw [hs.layers]; simp)).trans ?_
    unfold stepStart idle
    rw [hc]
  obtain ⟨t, e1, e2⟩ := mass_light (dt := dt) hs h
  refine ⟨{ p with input1 := applied dl p.input1, snow := t }, ?_, e2⟩
  rw [stepPhys_eq, e, bind_ok]
  dsimp only
  rw [e1, bind_ok]
  rfl

/-- The precipitation of a data step with light snowfall. -/
theorem precip_light {c : Env} {r : Rec} (hr : r.LightSnow c.small_threshold) (i2 : InputData) {s : Snow} (hs : DryGround s) :
    ∃ t, precip_event c (applied (deltaRec r.toInput i2 1).toInput r.toInput) (idle s) = .ok t ∧ DryGround t ∧ t.h2o_total = max r.m_pp 0 ∧ t.snowcover = false ∧
      t.en = Energy.zero := by
  have hpre : r.toInput.precip_now = decide (0 < r.m_pp) := rfl
  by_cases hp : 0 < r.m_pp
  · have hpn : r.toInput.precip_now = true := by rw [hpre]; simp [hp]
    rw [max_eq_left hp.le]
    obtain ⟨i, hi⟩ : ∃ i, i = applied (deltaRec r.toInput i2 1).toInput r.toInput := ⟨_, rfl⟩
    have e1 : i.precip_now = true := by rw [hi]; unfold applied; rw [if_pos hpn]; exact hpn
    have e2 : i.m_snow = r.m_pp * r.percent_snow := by
      rw [hi]; unfold applied; rw [if_pos hpn]
      show r.m_pp / 1 * r.percent_snow = _
      rw [div_one]
    have e3 : i.m_rain = r.m_pp - r.m_pp * r.percent_snow := by
      rw [hi]; unfold applied; rw [if_pos hpn]
      show r.m_pp / 1 - r.m_pp / 1 * r.percent_snow = _
      rw [div_one]
    have e4 : i.rho_snow = r.rho_snow := by rw [hi]; unfold applied; rw [if_pos hpn]; rfl
    have e5 : i.z_snow = if 0 < r.m_pp ∧ 0 < r.m_pp * r.percent_snow then r.m_pp * r.percent_snow / r.rho_snow else 0 := by
      rw [hi]; unfold applied; rw [if_pos hpn]
      show (if 0 < r.m_pp / 1 ∧ 0 < r.m_pp / 1 * r.percent_snow then r.m_pp / 1 * r.percent_snow / r.rho_snow else 0) = _
      rw [div_one]
    rw [← hi]
    unfold precip_event
    rw [if_pos e1]
    by_cases hm : 0 < r.m_pp * r.percent_snow
    · obtain ⟨h1, h2⟩ := (hr hp).2 hm
      rw [if_pos ⟨hp, hm⟩] at e5
      obtain ⟨t, k1, k2, k3, k4, k5⟩ := init_light_fall (c := c) (i := i) (s := s) (by rw [e4, e5, e2]; field_simp) (by rw [e2]; exact hm) (by rw [e2]; exact h2)
      refine ⟨{ t with h2o_total := t.h2o_total + (t.h2o + i.m_rain) }, ?_, ⟨k2.layers, k2.h2o, k2.mass⟩, ?_, k4, k5⟩
      · have hcov : ¬ (idle s).snowcover = true := by simp [idle]
        dsimp only
        rw [if_neg hcov, if_pos (by rw [e2]; exact hm), k1]
        rfl
      · show t.h2o_total + (t.h2o + i.m_rain) = _
        rw [k3, k2.h2o, e2, e3]
        ring
    · refine ⟨{ idle s with h2o_total := (idle s).h2o_total + ((idle s).h2o + i.m_rain) }, ?_, ⟨hs.layers, hs.h2o, hs.mass⟩, ?_, rfl, rfl⟩
      · have hcov : ¬ (idle s).snowcover = true := by simp [idle]
        dsimp only
        rw [if_neg hcov, if_neg (by rw [e2]; exact hm)]
        rfl
      · have h0 : r.m_pp * r.percent_snow = 0 := le_antisymm (not_lt.mp hm) (mul_nonneg hp.le (hr hp).1)
        show (0:ℝ) + (s.h2o + i.m_rain) = _
        rw [hs.h2o, e3, h0]
        ring
  · have hpn : r.toInput.precip_now = false := by rw [hpre]; simp [hp]
    rw [max_eq_right (not_lt.mp hp)]
    have : applied (deltaRec r.toInput i2 1).toInput r.toInput = r.toInput := by unfold applied; rw [if_neg (by rw [hpn]; simp)]
    rw [this]
    refine ⟨{ idle s with h2o_total := (idle s).h2o_total + (idle s).h2o }, if_neg (by rw [hpn]; simp), ⟨hs.layers, hs.h2o, hs.mass⟩, ?_, rfl, rfl⟩
    show (0:ℝ) + s.h2o = 0
    rw [hs.h2o, add_zero]

/-- Bare ground without stored water, between data steps. -/
def DryModel (m : Model) : Prop := DryGround m.phys.snow ∧ m.acc.time_since_out = 0

/-- A data step on bare ground with light precipitation. -/
theorem do_data_light {c : Env} {ts : Tsteps} (ht : TileOK ts) {all : Bool} {r1 : Rec} {i1 i2 : InputData} (n1 : InputData.new r1 = .ok i1)
    (hr : r1.LightSnow c.small_threshold) {m : Model} (hm : DryModel m) : ∃ m' s, do_data_tstep c ts all i1 i2 m = .ok m' ∧ DryModel m' ∧
      RanOff (max r1.m_pp 0) s ∧ m'.output_list = m.output_list ++ [recordOf s (m.current_datetime + (ts .normal).timedelta)] := by
  obtain ⟨h1, h2⟩ := hm
  obtain ⟨rfl, -⟩ := new_ok n1
  obtain ⟨p', e, k⟩ := stepPhys_light (c := c) (dt := (ts .normal).time_step) (dl := (deltaRec r1.toInput i2 1).toInput)
    (p := { m.phys with input1 := r1.toInput }) h1 (precip_light hr i2 h1)
  exact ⟨_, p'.snow, do_data_normal ht n1 h2 (bare_below _ h1.layers) e, ⟨k.dry, rfl⟩, k, rfl⟩

theorem light_new {thr : ℝ} {r : Rec} (h : r.LightSnow thr) : InputData.new r = .ok r.toInput := by
  rw [new_eq, if_neg]
  rintro ⟨h1, h2, h3⟩
  exact absurd ((h h1).2 h2).1 (not_lt.mpr h3)

theorem runSteps_light {c : Env} {ts : Tsteps} (ht : TileOK ts) {all : Bool} : ∀ (rs : List Rec) (r1 : Rec) (i1 : InputData) (m : Model),
    InputData.new r1 = .ok i1 → (∀ r ∈ r1 :: rs, r.LightSnow c.small_threshold) → DryModel m →
    ∃ m' out, runSteps c ts all i1 rs m = .ok m' ∧ DryModel m' ∧ m'.output_list = m.output_list ++ out ∧
      out.map (·.swi_sum) = (r1 :: rs).dropLast.map (fun r => max r.m_pp 0) ∧ ∀ o ∈ out, OnlyRunoff o := by
  intro rs
  induction rs with
  | nil =>
    intro r1 i1 m n1 _ hm
    exact ⟨m, [], rfl, hm, by simp, by simp, by simp⟩
  | cons r rs ih =>
    intro r1 i1 m n1 hr hm
    have n2 := light_new (hr r (by simp))
    obtain ⟨m1, s, h1, h2, h3, h4⟩ := do_data_light (all := all) (i2 := r.toInput) ht n1 (hr r1 (by simp)) hm
    obtain ⟨m', out, k1, k2, k3, k4, k5⟩ := ih r r.toInput m1 n2 (fun x hx => hr x (by simp [hx])) h2
    obtain ⟨a1, a2⟩ := h3.record (m.current_datetime + (ts .normal).timedelta)
    refine ⟨m', recordOf s (m.current_datetime + (ts .normal).timedelta) :: out, ?_, k2, ?_, ?_, ?_⟩
    · unfold runSteps
      rw [n2, bind_ok, h1, bind_ok, k1]
    · rw [k3, h4, List.append_assoc]; rfl
    · simp only [List.map_cons, k4, List.dropLast_cons_cons, a2]
    · intro o ho
      rcases List.mem_cons.mp ho with rfl | ho
      · exact a1
      · exact k5 o ho

/-- C99: from bare ground, whatever the weather is, as long as the snow that falls in each data step does not exceed the small mass
threshold, every simulation completes without a snow cover: each data step reports exactly its precipitation, snow included, as runoff and
nothing else.  However long it lasts, light snowfall is not accumulated. -/
theorem C99_light_snowfall_runs_off (g : Config) (hg : g.Tiled) (hmax : 0 < g.max_active) (hb : g.StartsBare) (he : ∃ c, mkEnv g = .ok c)
    (r1 : Rec) (rs : List Rec) (hr : ∀ r ∈ r1 :: rs, r.LightSnow g.small_threshold) :
    ∃ m, simulate g (r1 :: rs) = .ok m ∧
      m.output_list.map (·.swi_sum) = (r1 :: rs).dropLast.map (fun r => max r.m_pp 0) ∧
      (∀ o ∈ m.output_list, OnlyRunoff o) ∧
      m.phys.snow.layer_count = 0 ∧ m.phys.snow.m_s = 0 ∧ m.phys.snow.h2o = 0 := by
  obtain ⟨c, hc⟩ := he
  obtain ⟨ts, hts⟩ := parse_of_ne (g := g) (by have := hg.2.1; omega) (by have := hg.2.2.1; omega)
  have ht := parse_tile hg hts
  have hthr := (mkEnv_ok hc).2.1
  obtain ⟨s, hs, hs1, hs2, hs3, hs4, hs5⟩ := start_bare hmax hb hc
  have n1 := light_new (hr r1 (by simp))
  obtain ⟨m', out, k1, k2, k3, k4, k5⟩ := runSteps_light (c := c) ht (all := g.output_all) rs r1 r1.toInput
    { phys := { snow := s, input1 := r1.toInput, init_ustar := none, init_factor := none }
      acc := { acc := { bar := Energy.zero, melt_sum := 0, E_s_sum := 0, swi_sum := none }, time_since_out := 0 }
      current_datetime := g.start_date
      output_list := [] } n1 (by rw [hthr]; exact hr) ⟨⟨hs1, hs2, hs3, hs4, hs5⟩, rfl⟩
  rw [List.nil_append] at k3
  refine ⟨m', ?_, by rw [k3, k4], by rw [k3]; exact k5, k2.1.layers, k2.1.mass.1, k2.1.h2o⟩
  unfold simulate mkModel
  dsimp only
  rw [hts, bind_ok, n1, bind_ok, hc, bind_ok, hs]
  exact k1

/-- Any number of hours of 1 kg/m² of snow each: not a flake is left. -/
example (n : ℕ) (r : Rec) (h1 : r.m_pp = 1) (h2 : r.percent_snow = 1) (h3 : 0 < r.rho_snow) (g : Config) (hg : g.Tiled) (hmax : 0 < g.max_active)
    (hb : g.StartsBare) (he : ∃ c, mkEnv g = .ok c) (ht : g.small_threshold = 1) :
    ∃ m, simulate g (r :: List.replicate n r) = .ok m ∧ m.output_list.map (·.swi_sum) = List.replicate n 1 ∧ m.phys.snow.m_s = 0 := by
  obtain ⟨m, e, k1, _, _, k2, _⟩ := C99_light_snowfall_runs_off g hg hmax hb he r (List.replicate n r) (by
    intro x hx
    rw [← List.replicate_succ] at hx
    rw [List.eq_of_mem_replicate hx]
    intro _
    rw [h1, h2, ht]
    exact ⟨by norm_num, fun _ => ⟨h3, by norm_num⟩⟩)
  refine ⟨m, e, ?_, k2⟩
  rw [k1, ← List.replicate_succ, List.dropLast_replicate, List.map_replicate, h1]
  norm_num

end

end Pysnobal
