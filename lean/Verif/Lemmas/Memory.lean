import Verif.Lemmas.Trace
import Verif.Lemmas.Steps

/-! # What a run step reads of the snow it starts from -/

namespace Pysnobal

noncomputable section

/-- The totals of the previous step replaced. -/
def Snow.marks (a b d : ℝ) (s : Snow) : Snow := { s with melt := a, E_s := b, swi := d }

theorem marks_calc (a b d : ℝ) (c : Env) (s : Snow) : (s.marks a b d).calc_layers c = (s.calc_layers c).marks a b d := by
  unfold Snow.calc_layers Snow.marks
  dsimp only
  split_ifs <;> rfl

theorem marks_count (a b d : ℝ) (s : Snow) : (s.marks a b d).layer_count = s.layer_count := rfl

theorem marks_adj_layers (a b d : ℝ) (c : Env) (s : Snow) : adj_layers c (s.marks a b d) = (adj_layers c s).marks a b d := by
  unfold adj_layers
  simp only [marks_calc, marks_count]
  unfold Snow.marks Snow.layer_mass Snow.layer_count
  dsimp only
  split_ifs <;> rfl

theorem marks_adj_snow (a b d : ℝ) (c : Env) (dz dm : ℝ) (s : Snow) :
    adj_snow c dz dm (s.marks a b d) = (adj_snow c dz dm s).marks a b d := by
  unfold adj_snow
  by_cases h : (if s.z_s + dz ≠ 0 then (s.m_s + dm) / (s.z_s + dz) else 0) > MAX_SNOW_DENSITY
  · exact (if_pos h).trans ((marks_adj_layers a b d c { s with m_s := s.m_s + dm, rho := MAX_SNOW_DENSITY, z_s := (s.m_s + dm) / MAX_SNOW_DENSITY }).trans
      (congrArg (Snow.marks a b d) (if_pos h).symm))
  · refine (if_neg h).trans (Eq.trans ?_ (congrArg (Snow.marks a b d) (if_neg h).symm))
    by_cases h' : dz ≠ 0
    · exact (if_pos h').trans ((marks_adj_layers a b d c { s with m_s := s.m_s + dm, z_s := s.z_s + dz, rho := if s.z_s + dz ≠ 0 then (s.m_s + dm) / (s.z_s + dz) else 0 }).trans
        (congrArg (Snow.marks a b d) (if_pos h').symm))
    · rw [if_neg h', if_neg h']
      rfl

theorem marks_time_compact (a b d : ℝ) (c : Env) (dt : ℝ) (s : Snow) :
    time_compact c dt (s.marks a b d) = (time_compact c dt s).map (Snow.marks a b d) := by
  unfold time_compact
  by_cases h : s.snowcover = false ∨ s.rho ≥ RHO_MAX
  · exact (if_pos h).trans (by rw [if_pos h]; rfl)
  · refine (if_neg h).trans ?_
    rw [if_neg h]
    show (compactRate dt s >>= _) = _
    cases compactRate dt s with
    | error e => rfl
    | ok r =>
      simp only [bind_ok]
      show (pdiv (0.01 * (if s.rho < 100 then 1 else Real.exp (-0.046 * (s.rho - 100))) * Real.exp (-0.04 * (FREEZE - s.t_s))) r >>= _) = _
      cases pdiv (0.01 * (if s.rho < 100 then 1 else Real.exp (-0.046 * (s.rho - 100))) * Real.exp (-0.04 * (FREEZE - s.t_s))) r with
      | error e => rfl
      | ok q1 =>
        simp only [bind_ok]
        show (pdiv (0.026 * Real.exp (-0.08 * (FREEZE - s.t_s)) * s.m_s * Real.exp (-21 * (s.rho / RHO_W0))) r >>= _) = _
        cases pdiv (0.026 * Real.exp (-0.08 * (FREEZE - s.t_s)) * s.m_s * Real.exp (-21 * (s.rho / RHO_W0))) r with
        | error e => rfl
        | ok q2 =>
          simp only [bind_ok]
          show (pdiv s.m_s (s.rho + (q1 + q2) * s.rho) >>= _) = _
          cases pdiv s.m_s (s.rho + (q1 + q2) * s.rho) with
          | error e => rfl
          | ok z => exact congrArg Except.ok (marks_adj_layers a b d c { s with rho := s.rho + (q1 + q2) * s.rho, z_s := z })

theorem initWater_eq (c : Env) (s : Snow) : initWater c s =
    (pdiv (s.rho - s.h2o_sat * c.max_h2o_vol * RHO_W0) (1 - s.h2o_sat * c.max_h2o_vol * RHO_W0 / RHO_ICE)).map
      fun d => { s with h2o_vol := s.h2o_sat * c.max_h2o_vol, h2o_max := h2o_left s.z_s d c.max_h2o_vol,
                        h2o := s.h2o_sat * h2o_left s.z_s d c.max_h2o_vol } := by
  unfold initWater Snow.dry_snow_density
  dsimp only
  cases pdiv (s.rho - s.h2o_sat * c.max_h2o_vol * RHO_W0) (1 - s.h2o_sat * c.max_h2o_vol * RHO_W0 / RHO_ICE) <;> rfl

theorem marks_init (a b d : ℝ) (c : Env) (s : Snow) :
    init_snow c (s.marks a b d) = (init_snow c s).map (Snow.marks a b d) := by
  unfold init_snow
  have e : (Snow.calc_layers c { s.marks a b d with m_s := (s.marks a b d).rho * (s.marks a b d).z_s }) =
      (Snow.calc_layers c { s with m_s := s.rho * s.z_s }).marks a b d :=
    marks_calc a b d c { s with m_s := s.rho * s.z_s }
  rw [e]
  generalize Snow.calc_layers c { s with m_s := s.rho * s.z_s } = t
  unfold initLayers
  by_cases h : t.layer_count = 0
  · exact (if_pos h).trans (by rw [if_pos h]; rfl)
  · refine (if_neg h).trans ?_
    rw [if_neg h]
    have e0 : initCold (t.marks a b d) = (initCold t).marks a b d := rfl
    rw [e0]
    generalize initCold t = u
    rw [initWater_eq, initWater_eq]
    show Except.map _ (pdiv (u.rho - u.h2o_sat * c.max_h2o_vol * RHO_W0) (1 - u.h2o_sat * c.max_h2o_vol * RHO_W0 / RHO_ICE)) = _
    cases pdiv (u.rho - u.h2o_sat * c.max_h2o_vol * RHO_W0) (1 - u.h2o_sat * c.max_h2o_vol * RHO_W0 / RHO_ICE) with
    | error e => rfl
    | ok x => rfl

theorem marks_precip (a b d : ℝ) (c : Env) (i : InputData) (s : Snow) :
    precip_event c i (s.marks a b d) = (precip_event c i s).map (Snow.marks a b d) := by
  unfold precip_event
  by_cases h : i.precip_now = true
  · rw [if_pos h, if_pos h]
    have hs : (s.marks a b d).snowcover = s.snowcover := rfl
    rw [hs]
    cases hc : s.snowcover with
    | true =>
      simp only [if_true, pure_ok, bind_ok, marks_adj_snow]
      rfl
    | false =>
      simp only [Bool.false_eq_true, if_false]
      by_cases hm : i.m_snow > 0
      · rw [if_pos hm, if_pos hm]
        have := marks_init a b d c { s with z_s := i.z_snow, rho := i.rho_snow, t_s := i.t_snow, t_s_0 := i.t_snow, t_s_l := i.t_snow, h2o_sat := i.h2o_sat_snow, snowcover := false }
        show (init_snow c (Snow.marks a b d { s with z_s := i.z_snow, rho := i.rho_snow, t_s := i.t_snow, t_s_0 := i.t_snow, t_s_l := i.t_snow, h2o_sat := i.h2o_sat_snow, snowcover := false }) >>= _) = _
        rw [this]
        cases init_snow c { s with z_s := i.z_snow, rho := i.rho_snow, t_s := i.t_snow, t_s_0 := i.t_snow, t_s_l := i.t_snow, h2o_sat := i.h2o_sat_snow, snowcover := false } <;> rfl
      · rw [if_neg hm, if_neg hm]
        rfl
  · rw [if_neg h, if_neg h]
    rfl

/-! ### Melt -/

/-- The vapour total and the runoff of the previous step replaced. -/
def Snow.marks2 (b d : ℝ) (s : Snow) : Snow := { s with E_s := b, swi := d }

theorem adj_snow_melt (c : Env) (dz dm : ℝ) (s : Snow) : (adj_snow c dz dm s).melt = s.melt := by
  have h := congrArg Snow.melt (marks_adj_snow s.melt s.E_s s.swi c dz dm s)
  exact h

theorem adj_snow_E_s (c : Env) (dz dm : ℝ) (s : Snow) : (adj_snow c dz dm s).E_s = s.E_s := by
  have h := congrArg Snow.E_s (marks_adj_snow s.melt s.E_s s.swi c dz dm s)
  exact h

theorem marks2_adj_snow (b d : ℝ) (c : Env) (dz dm : ℝ) (s : Snow) :
    adj_snow c dz dm (s.marks2 b d) = (adj_snow c dz dm s).marks2 b d := by
  refine (marks_adj_snow s.melt b d c dz dm s).trans ?_
  unfold Snow.marks Snow.marks2
  rw [← adj_snow_melt c dz dm s]

theorem marks_meltLayers (a b d dt : ℝ) (s : Snow) :
    meltLayers dt (s.marks a b d) = (meltLayers dt s).marks2 b d := by
  unfold meltLayers
  have e1 : meltQ0 dt (s.marks a b d) = meltQ0 dt s := rfl
  have e2 : meltQl dt (s.marks a b d) = meltQl dt s := rfl
  rw [e1, e2]
  unfold Snow.marks Snow.marks2 Snow.layer_count
  dsimp only
  split_ifs <;> rfl

theorem marks2_refreezeSurf (b d q : ℝ) (s : Snow) :
    refreezeSurf q (s.marks2 b d) = (refreezeSurf q s).map (fun x => (x.1.marks2 b d, x.2)) := by
  unfold refreezeSurf
  by_cases h : s.cc_s_0 < 0 ∧ s.h2o_total > 0
  · refine (if_pos h).trans ?_
    rw [if_pos h]
    show (pdiv s.z_s_0 s.z_s >>= _) = _
    cases pdiv s.z_s_0 s.z_s with
    | error e => rfl
    | ok f =>
      simp only [bind_ok]
      by_cases h' : q + s.h2o_total * f * lh_fus FREEZE ≤ 0
      · exact (if_pos h').trans (by rw [if_pos h']; rfl)
      · exact (if_neg h').trans (by rw [if_neg h']; rfl)
  · exact (if_neg h).trans (by rw [if_neg h]; rfl)

theorem marks2_refreezeLower (b d q : ℝ) (s : Snow) (r : ℝ) :
    refreezeLower q (s.marks2 b d) r = (refreezeLower q s r).map (fun x => (x.1.marks2 b d, x.2)) := by
  unfold refreezeLower
  by_cases h : (s.layer_count = 2 ∧ s.cc_s_l < 0) ∧ s.h2o_total > 0
  · refine (if_pos h).trans ?_
    rw [if_pos h]
    show (pdiv s.z_s_l s.z_s >>= _) = _
    cases pdiv s.z_s_l s.z_s with
    | error e => rfl
    | ok f =>
      simp only [bind_ok]
      by_cases h' : q + s.h2o_total * f * lh_fus FREEZE ≤ 0
      · exact (if_pos h').trans (by rw [if_pos h']; rfl)
      · exact (if_neg h').trans (by rw [if_neg h']; rfl)
  · exact (if_neg h).trans (by rw [if_neg h]; rfl)

theorem marks2_refreezeSnap (b d : ℝ) (s : Snow) (r : ℝ) :
    refreezeSnap (s.marks2 b d) r = (refreezeSnap s r).marks2 b d := by
  unfold refreezeSnap
  by_cases h : |s.h2o_total - r| ≤ 1e-8
  · exact (if_pos h).trans (by rw [if_pos h]; rfl)
  · exact (if_neg h).trans (by rw [if_neg h]; rfl)

theorem marks_snowmelt (a b d : ℝ) (c : Env) (dt : ℝ) (s : Snow) :
    snowmelt c dt (s.marks a b d) = (snowmelt c dt s).map (Snow.marks2 b d) := by
  unfold snowmelt
  by_cases h : s.snowcover = false
  · exact (if_pos h).trans (by rw [if_pos h]; rfl)
  · refine (if_neg h).trans ?_
    rw [if_neg h]
    have e1 : meltQ0 dt (s.marks a b d) = meltQ0 dt s := rfl
    have e2 : meltQl dt (s.marks a b d) = meltQl dt s := rfl
    simp only [e1, e2, marks_meltLayers, marks2_refreezeSurf]
    cases refreezeSurf (meltQ0 dt s) (meltLayers dt s) with
    | error e => rfl
    | ok x =>
      obtain ⟨s1, r1⟩ := x
      simp only [Except.map, bind_ok, marks2_refreezeLower]
      cases refreezeLower (meltQl dt s) s1 r1 with
      | error e => rfl
      | ok y =>
        obtain ⟨s2, r2⟩ := y
        simp only [bind_ok, marks2_refreezeSnap]
        generalize refreezeSnap s2 r2 = t
        by_cases h' : t.melt > 0
        · refine (if_pos h').trans ?_
          rw [if_pos h']
          show (pdiv (-1 * t.melt) t.rho >>= _) = _
          cases pdiv (-1 * t.melt) t.rho with
          | error e => rfl
          | ok q => exact congrArg Except.ok (marks2_adj_snow b d c q 0 t)
        · exact (if_neg h').trans (by rw [if_neg h']; rfl)

/-! ### Vapour -/

/-- The runoff of the previous step replaced. -/
def Snow.marks1 (d : ℝ) (s : Snow) : Snow := { s with swi := d }

theorem marks1_adj_snow (d : ℝ) (c : Env) (dz dm : ℝ) (s : Snow) :
    adj_snow c dz dm (s.marks1 d) = (adj_snow c dz dm s).marks1 d := by
  refine (marks2_adj_snow s.E_s d c dz dm s).trans ?_
  unfold Snow.marks1 Snow.marks2
  rw [← adj_snow_E_s c dz dm s]

theorem marks1_adj_layers (d : ℝ) (c : Env) (s : Snow) :
    adj_layers c (s.marks1 d) = (adj_layers c s).marks1 d := by
  refine (marks_adj_layers s.melt s.E_s d c s).trans ?_
  have := marks_adj_layers s.melt s.E_s s.swi c s
  have h1 : (adj_layers c s).melt = s.melt := by
    have h := congrArg Snow.melt this
    exact h
  have h2 : (adj_layers c s).E_s = s.E_s := by
    have h := congrArg Snow.E_s this
    exact h
  unfold Snow.marks Snow.marks1
  rw [← h1, ← h2]

theorem marks2_evap (b d : ℝ) (c : Env) (i : InputData) (dt : ℝ) (s : Snow) :
    evap_cond c i dt (s.marks2 b d) = (evap_cond c i dt s).map (Snow.marks1 d) := by
  unfold evap_cond
  by_cases h : s.snowcover = false
  · exact (if_pos h).trans (by rw [if_pos h]; rfl)
  · refine (if_neg h).trans ?_
    rw [if_neg h]
    dsimp only
    by_cases h0 : s.layer_count = 0
    · have h1 : ¬ s.layer_count > 0 := by omega
      rw [if_pos (by exact h0), if_pos (by exact h0)]
      simp only [pure_ok, bind_ok]
      rw [if_neg (by exact h1), if_neg (by exact h1)]
      rfl
    · have h1 : s.layer_count > 0 := by omega
      rw [if_neg (by exact h0), if_neg (by exact h0)]
      have e1 : soilEvap c i dt { s.marks2 b d with h2o_total := evapH2o (s.marks2 b d).h2o_total ((s.marks2 b d).E * dt) } =
        soilEvap c i dt { s with h2o_total := evapH2o s.h2o_total (s.E * dt) } := rfl
      rw [e1]
      cases soilEvap c i dt { s with h2o_total := evapH2o s.h2o_total (s.E * dt) } with
      | error e => rfl
      | ok x =>
        simp only [pure_ok, bind_ok]
        rw [if_pos (by exact h1), if_pos (by exact h1)]
        show (pdiv (s.E * dt + x + s.h2o_total - evapH2o (evapH2o s.h2o_total (s.E * dt)) x) s.rho >>= _) = _
        cases pdiv (s.E * dt + x + s.h2o_total - evapH2o (evapH2o s.h2o_total (s.E * dt)) x) s.rho with
        | error e => rfl
        | ok q => exact congrArg Except.ok (marks1_adj_snow d c (q / 2) (s.E * dt + x)
            { s with h2o_total := evapH2o (evapH2o s.h2o_total (s.E * dt)) x, E_s := s.E * dt + x })

/-! ### Compaction by water and runoff -/

theorem marks1_compact (d : ℝ) (c : Env) (i : InputData) (s : Snow) :
    h2o_compact c i (s.marks1 d) = (h2o_compact c i s).map (Snow.marks1 d) := by
  unfold h2o_compact
  by_cases h : s.snowcover = false ∨ s.rho > 550
  · exact (if_pos h).trans (by rw [if_pos h]; rfl)
  · refine (if_neg h).trans ?_
    rw [if_neg h]
    have e1 : h2oAdded i (s.marks1 d) = h2oAdded i s := rfl
    simp only [e1]
    cases h2oAdded i s with
    | error e => rfl
    | ok x =>
      simp only [bind_ok]
      by_cases h' : x > 0.000001
      · rw [if_pos h', if_pos h']
        cases pdiv 0.4 x with
        | error e => rfl
        | ok y =>
          simp only [bind_ok]
          show (pdiv (550 - s.rho) (1 + y) >>= _) = _
          cases pdiv (550 - s.rho) (1 + y) with
          | error e => rfl
          | ok q =>
            simp only [bind_ok]
            show (pdiv s.m_s (s.rho + q) >>= _) = _
            cases pdiv s.m_s (s.rho + q) with
            | error e => rfl
            | ok z => exact congrArg Except.ok (marks1_adj_layers d c { s with rho := s.rho + q, z_s := z })
      · rw [if_neg h', if_neg h']
        rfl

theorem marks1_runoff (d : ℝ) (c : Env) (s : Snow) : runoff c (s.marks1 d) = runoff c s := by
  unfold runoff
  by_cases h : s.snowcover = false ∨ s.layer_count = 0
  · exact (if_pos h).trans (by rw [if_pos h]; rfl)
  · refine (if_neg h).trans ?_
    rw [if_neg h]
    dsimp only [Snow.marks1]
    cases pdiv (s.m_s - s.h2o_total) s.z_s with
    | error e => rfl
    | ok x => rfl

theorem marks_mass_balance (a b d : ℝ) (c : Env) (i : InputData) (dt : ℝ) (s : Snow) :
    mass_balance c i dt (s.marks a b d) = mass_balance c i dt s := by
  unfold mass_balance
  rw [marks_time_compact]
  cases time_compact c dt s with
  | error e => rfl
  | ok s1 =>
    simp only [Except.map, bind_ok, marks_precip]
    cases precip_event c i s1 with
    | error e => rfl
    | ok s2 =>
      simp only [Except.map, bind_ok, marks_snowmelt]
      cases snowmelt c dt s2 with
      | error e => rfl
      | ok s3 =>
        simp only [Except.map, bind_ok, marks2_evap]
        cases evap_cond c i dt s3 with
        | error e => rfl
        | ok s4 =>
          simp only [Except.map, bind_ok, marks1_compact]
          cases h2o_compact c i s4 with
          | error e => rfl
          | ok s5 => simp only [Except.map, bind_ok, marks1_runoff]

/-! ### A whole run step -/

/-- What a run step starts from: of the previous step's totals, fluxes and flags nothing is left. -/
def Snow.fresh (s : Snow) : Snow :=
  { s with h2o_total := 0, en := Energy.zero, E := 0, melt := 0, E_s := 0, swi := 0, snowcover := false }

theorem energy_balance_marks (a b d : ℝ) (v : Energy) (w : ℝ) (c : Env) (dt : ℝ) (p : Phys) :
    energy_balance c dt { p with snow := { p.snow with en := v, E := w, melt := a, E_s := b, swi := d } } =
      (energy_balance c dt p).map fun q => { q with snow := q.snow.marks a b d } := by
  unfold energy_balance
  by_cases h : p.snow.layer_count > 0
  · refine (if_pos h).trans ?_
    rw [if_pos h]
    have e : h_le c { p with snow := { p.snow with en := v, E := w, melt := a, E_s := b, swi := d } } =
        (h_le c p).map fun x => (x.1, { x.2 with snow := { x.2.snow with en := v, E := w, melt := a, E_s := b, swi := d } }) := by
      unfold h_le
      dsimp only
      cases p.input1.sat_vp with
      | error e => rfl
      | ok x =>
        simp only [bind_ok]
        show (p.snow.e_s_0 >>= _) = _
        cases p.snow.e_s_0 with
        | error e => rfl
        | ok es =>
          simp only [bind_ok]
          cases hle1 { press := c.P_a, air_temp := (if p.input1.e_a > x then { p.input1 with e_a := x } else p.input1).t_a, surface_temp := p.snow.t_s_0, za := (if c.relative_hts = true then c.z_t else c.z_t - p.snow.z_s), ea := (if p.input1.e_a > x then { p.input1 with e_a := x } else p.input1).e_a, es := es, zq := (if c.relative_hts = true then c.z_t else c.z_t - p.snow.z_s), wind_speed := (if p.input1.e_a > x then { p.input1 with e_a := x } else p.input1).u, zu := (if c.relative_hts = true then c.z_u else c.z_u - p.snow.z_s), z0 := c.z_0, init_ustar := p.init_ustar, init_factor := p.init_factor } with
          | error e => rfl
          | ok r =>
            simp only [bind_ok]
            by_cases hr : r.status ≠ 0
            · rw [if_pos hr, if_pos hr]
              rfl
            · rw [if_neg hr, if_neg hr]
              rfl
    rw [e]
    cases h_le c p with
    | error e => rfl
    | ok x =>
      obtain ⟨r, q⟩ := x
      simp only [Except.map, bind_ok]
      show (heat_transfer c q.input1 q.snow >>= _) = _
      cases heat_transfer c q.input1 q.snow with
      | error e => rfl
      | ok y =>
        obtain ⟨G, G0⟩ := y
        simp only [bind_ok]
        show (advec q.input1 dt q.snow >>= _) = _
        cases advec q.input1 dt q.snow with
        | error e => rfl
        | ok M => rfl
  · exact (if_neg h).trans (by rw [if_neg h]; rfl)

theorem stepPhys_fresh (c : Env) (dt : ℝ) (dl : InputData) (p : Phys) :
    stepPhys c dt dl { p with snow := p.snow.fresh } = stepPhys c dt dl p := by
  unfold stepPhys
  dsimp only
  have key : ∀ (i : InputData),
      (energy_balance c dt { snow := { p.snow with h2o_total := 0, en := Energy.zero, E := 0, melt := 0, E_s := 0, swi := 0, snowcover := decide (p.snow.layer_count > 0) }, input1 := i, init_ustar := p.init_ustar, init_factor := p.init_factor } >>= fun q => mass_balance c q.input1 dt q.snow >>= fun s => pure { q with snow := s }) =
      (energy_balance c dt { snow := { p.snow with h2o_total := 0, snowcover := decide (p.snow.layer_count > 0) }, input1 := i, init_ustar := p.init_ustar, init_factor := p.init_factor } >>= fun q => mass_balance c q.input1 dt q.snow >>= fun s => pure { q with snow := s }) := by
    intro i
    have := energy_balance_marks 0 0 0 Energy.zero 0 c dt { snow := { p.snow with h2o_total := 0, snowcover := decide (p.snow.layer_count > 0) }, input1 := i, init_ustar := p.init_ustar, init_factor := p.init_factor }
    rw [this]
    cases energy_balance c dt { snow := { p.snow with h2o_total := 0, snowcover := decide (p.snow.layer_count > 0) }, input1 := i, init_ustar := p.init_ustar, init_factor := p.init_factor } with
    | error e => rfl
    | ok q =>
      simp only [Except.map, bind_ok, marks_mass_balance]
  cases h : p.input1.precip_now with
  | true =>
    simp only [if_true]
    exact key _
  | false =>
    simp only [Bool.false_eq_true, if_false]
    exact key _

/-- The variables of the pack that a record reports agree (all but the liquid water of the step). -/
structure Snow.SamePack (s t : Snow) : Prop where
  h2o_sat : s.h2o_sat = t.h2o_sat
  rho : s.rho = t.rho
  t_s : s.t_s = t.t_s
  t_s_0 : s.t_s_0 = t.t_s_0
  t_s_l : s.t_s_l = t.t_s_l
  z_s : s.z_s = t.z_s
  z_s_0 : s.z_s_0 = t.z_s_0
  z_s_l : s.z_s_l = t.z_s_l
  cc_s_0 : s.cc_s_0 = t.cc_s_0
  cc_s_l : s.cc_s_l = t.cc_s_l
  m_s : s.m_s = t.m_s
  m_s_0 : s.m_s_0 = t.m_s_0
  m_s_l : s.m_s_l = t.m_s_l
  h2o : s.h2o = t.h2o
  h2o_max : s.h2o_max = t.h2o_max
  h2o_vol : s.h2o_vol = t.h2o_vol

theorem Snow.SamePack.fresh_eq {s t : Snow} (h : s.SamePack t) : s.fresh = t.fresh := by
  obtain ⟨h1, h2, h3, h4, h5, h6, h7, h8, h9, h10, h11, h12, h13, h14, h15, h16⟩ := h
  unfold Snow.fresh
  rw [h1, h2, h3, h4, h5, h6, h7, h8, h9, h10, h11, h12, h13, h14, h15, h16]

theorem stepPhys_same {c : Env} {dt : ℝ} {dl : InputData} {p q : Phys} (h : p.snow.SamePack q.snow)
    (hi : p.input1 = q.input1) (hu : p.init_ustar = q.init_ustar) (hf : p.init_factor = q.init_factor) :
    stepPhys c dt dl p = stepPhys c dt dl q := by
  rw [← stepPhys_fresh c dt dl p, ← stepPhys_fresh c dt dl q, h.fresh_eq, hi, hu, hf]

end

end Pysnobal
