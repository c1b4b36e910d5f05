import Verif.Props.MeltBound
import Verif.Props.StepLedger
import Verif.Props.Modes
import Verif.Props.Shift
import Verif.Lemmas.WitnessRun

/-! # C75: more radiation never means less melt -/

namespace Pysnobal
noncomputable section

/-- The same snow with other fluxes. -/
def Snow.setEn (e : Energy) (s : Snow) : Snow := { s with en := e }

theorem layer_count_setEn (e : Energy) (s : Snow) : (s.setEn e).layer_count = s.layer_count := rfl

theorem calc_layers_setEn (c : Env) (e : Energy) (s : Snow) : (s.setEn e).calc_layers c = (s.calc_layers c).setEn e := by
  unfold Snow.calc_layers
  show (if s.m_s ≤ c.small_threshold then _ else _) = _
  split <;> rfl

theorem layer_mass_setEn (e : Energy) (s : Snow) : (s.setEn e).layer_mass = s.layer_mass.setEn e := rfl

theorem adj_layers_setEn (c : Env) (e : Energy) (s : Snow) : adj_layers c (s.setEn e) = (adj_layers c s).setEn e := by
  unfold adj_layers
  rw [calc_layers_setEn, layer_count_setEn]
  obtain ⟨t, ht⟩ : ∃ t, t = s.calc_layers c := ⟨_, rfl⟩
  rw [← ht]
  show (if t.layer_count = 0 then _ else _) = Snow.setEn e (if t.layer_count = 0 then _ else _)
  by_cases h0 : t.layer_count = 0
  · rw [if_pos h0, if_pos h0]
    by_cases h2 : s.layer_count = 2
    · simp only [if_pos h2]; rfl
    · simp only [if_neg h2]; rfl
  · rw [if_neg h0, if_neg h0]
    dsimp only
    rw [layer_mass_setEn, layer_count_setEn]
    split
    · rfl
    · split <;> rfl

theorem adj_snow_setEn (c : Env) (e : Energy) (dz dm : ℝ) (s : Snow) :
    adj_snow c dz dm (s.setEn e) = (adj_snow c dz dm s).setEn e := by
  unfold adj_snow
  dsimp only [Snow.setEn]
  obtain ⟨r, hr⟩ : ∃ r, r = if s.z_s + dz ≠ 0 then (s.m_s + dm) / (s.z_s + dz) else 0 := ⟨_, rfl⟩
  rw [← hr]
  split
  · exact adj_layers_setEn c e { s with m_s := s.m_s + dm, rho := MAX_SNOW_DENSITY, z_s := (s.m_s + dm) / MAX_SNOW_DENSITY }
  · split
    · exact adj_layers_setEn c e { s with z_s := s.z_s + dz, m_s := s.m_s + dm, rho := r }
    · rfl

theorem init_snow_setEn (c : Env) (e : Energy) (s : Snow) :
    init_snow c (s.setEn e) = (init_snow c s).map (Snow.setEn e) := by
  unfold init_snow
  have : ({ s.setEn e with m_s := (s.setEn e).rho * (s.setEn e).z_s } : Snow) = Snow.setEn e { s with m_s := s.rho * s.z_s } := rfl
  rw [this, calc_layers_setEn]
  obtain ⟨t, ht⟩ : ∃ t, t = Snow.calc_layers c { s with m_s := s.rho * s.z_s } := ⟨_, rfl⟩
  rw [← ht]
  unfold initLayers
  rw [layer_count_setEn]
  split
  · rfl
  · unfold initWater
    show (do let d ← Snow.dry_snow_density { initCold t with h2o_vol := (initCold t).h2o_sat * c.max_h2o_vol }; _) = _
    dsimp only
    cases Snow.dry_snow_density { initCold t with h2o_vol := (initCold t).h2o_sat * c.max_h2o_vol } with
    | error e => rfl
    | ok d => rfl

theorem map_bind_err {α β γ : Type} (x : Except Err α) (f : α → Except Err β) (g : β → γ) :
    (x >>= f).map g = x >>= fun a => (f a).map g := by cases x <;> rfl

theorem bind_ext_err {α β : Type} {x : Except Err α} {f f' : α → Except Err β} (h : ∀ a, f a = f' a) :
    x >>= f = x >>= f' := by
  cases x with
  | error e => rfl
  | ok a => exact h a

theorem time_compact_setEn (c : Env) (e : Energy) (dt : ℝ) (s : Snow) :
    time_compact c dt (s.setEn e) = (time_compact c dt s).map (Snow.setEn e) := by
  unfold time_compact
  show (if s.snowcover = false ∨ s.rho ≥ RHO_MAX then _ else _) = _
  split
  · rfl
  · rw [map_bind_err]
    refine bind_ext_err (x := compactRate dt s) fun rate => ?_
    rw [map_bind_err]
    refine bind_ext_err fun a => ?_
    rw [map_bind_err]
    refine bind_ext_err fun b => ?_
    rw [map_bind_err]
    refine bind_ext_err fun z => ?_
    exact congrArg Except.ok (adj_layers_setEn c e { s with rho := s.rho + (a + b) * s.rho, z_s := z })

theorem precip_event_setEn (c : Env) (e : Energy) (i : InputData) (s : Snow) :
    precip_event c i (s.setEn e) = (precip_event c i s).map (Snow.setEn e) := by
  have key : ∀ x x' : Except Err Snow, x' = x.map (Snow.setEn e) →
      (x' >>= fun s => (pure { s with h2o_total := s.h2o_total + (s.h2o + i.m_rain) } : Except Err Snow)) =
      (x >>= fun s => (pure { s with h2o_total := s.h2o_total + (s.h2o + i.m_rain) } : Except Err Snow)).map (Snow.setEn e) := by
    intro x x' h
    rw [h]
    cases x <;> rfl
  unfold precip_event
  by_cases hp : i.precip_now = true
  · rw [if_pos hp, if_pos hp]
    dsimp only
    by_cases hs : s.snowcover = true
    · have hs' : (s.setEn e).snowcover = true := hs
      rw [if_pos hs, if_pos hs', adj_snow_setEn]
      rfl
    · have hs' : ¬ (s.setEn e).snowcover = true := hs
      rw [if_neg hs, if_neg hs']
      by_cases hm : i.m_snow > 0
      · rw [if_pos hm, if_pos hm]
        exact key _ _ (init_snow_setEn c e { s with z_s := i.z_snow, rho := i.rho_snow, t_s := i.t_snow, t_s_0 := i.t_snow, t_s_l := i.t_snow, h2o_sat := i.h2o_sat_snow })
      · rw [if_neg hm, if_neg hm]
        rfl
  · rw [if_neg hp, if_neg hp]
    rfl

/-! ## The melt stage -/

theorem lf_pos : (0:ℝ) < lh_fus FREEZE := by rw [lf_eq]; norm_num

theorem melt_if (q : ℝ) : (if q > 0 then melt q else 0) = max 0 q / lh_fus FREEZE := by
  split
  · rename_i h
    rw [max_eq_right h.le, eq_div_iff lf_pos.ne', mul_comm, lf_melt]
  · rename_i h
    rw [max_eq_left (not_lt.mp h), zero_div]

/-- More energy at the surface: no less melt, no colder, no more refreezing than melt in excess. -/
theorem melt_mono {dt δ r r' : ℝ} {e : Energy} {s t t' : Snow} (hm : MeltRes dt s t r) (hm' : MeltRes dt (s.setEn e) t' r')
    (hδ : 0 ≤ δ) (hG : e.G - e.G_0 = s.en.G - s.en.G_0) (hQ : e.delta_Q_0 * dt = s.en.delta_Q_0 * dt + δ) :
    t.melt ≤ t'.melt ∧ lh_fus FREEZE * (t'.melt - t.melt) ≤ δ ∧
    (0 < s.z_s → 0 ≤ s.z_s_0 → 0 ≤ s.z_s_l → s.z_s = s.z_s_0 + s.z_s_l → 0 ≤ s.h2o_total →
      t.cc_s_0 ≤ t'.cc_s_0 ∧ s.h2o_total + t.melt - r ≤ s.h2o_total + t'.melt - r') := by
  have q0 : meltQ0 dt (s.setEn e) = meltQ0 dt s + δ := by
    show e.delta_Q_0 * dt + s.cc_s_0 = s.en.delta_Q_0 * dt + s.cc_s_0 + δ
    rw [hQ]; ring
  have ql : meltQl dt (s.setEn e) = meltQl dt s := by
    show (if s.layer_count = 2 then (e.G - e.G_0) * dt + s.cc_s_l else 0) = _
    rw [hG]; rfl
  have lf := lf_pos
  obtain ⟨low, hlow⟩ : ∃ low, low = if s.layer_count = 2 ∧ meltQl dt s > 0 then melt (meltQl dt s) else 0 := ⟨_, rfl⟩
  have hlow0 : 0 ≤ low := by
    rw [hlow]; split
    · rename_i h; exact melt_nonneg h.2.le
    · exact le_refl _
  have em : t.melt = max 0 (meltQ0 dt s) / lh_fus FREEZE + low := by rw [hm.melt_eq, melt_if, hlow]
  have em' : t'.melt = max 0 (meltQ0 dt s + δ) / lh_fus FREEZE + low := by
    rw [hm'.melt_eq, melt_if, q0, ql, hlow]; rfl
  have d1 : max 0 (meltQ0 dt s) ≤ max 0 (meltQ0 dt s + δ) := max_le_max (le_refl _) (by linarith)
  have d2 : max 0 (meltQ0 dt s + δ) ≤ max 0 (meltQ0 dt s) + δ :=
    max_le (by have := le_max_left 0 (meltQ0 dt s); linarith) (by have := le_max_right 0 (meltQ0 dt s); linarith)
  refine ⟨?_, ?_, ?_⟩
  · rw [em, em']
    have := div_le_div_of_nonneg_right d1 lf.le
    linarith
  · rw [em, em']
    have : lh_fus FREEZE * (max 0 (meltQ0 dt s + δ) / lh_fus FREEZE + low - (max 0 (meltQ0 dt s) / lh_fus FREEZE + low)) =
        max 0 (meltQ0 dt s + δ) - max 0 (meltQ0 dt s) := by field_simp; ring
    rw [this]; linarith
  · intro hz h0 hl hs hw
    have f0 : 0 ≤ s.z_s_0 / s.z_s := div_nonneg h0 hz.le
    have fl : 0 ≤ s.z_s_l / s.z_s := div_nonneg hl hz.le
    have fs : s.z_s_0 / s.z_s + s.z_s_l / s.z_s = 1 := by rw [← add_div, ← hs]; exact div_self hz.ne'
    have mn := hm.melt_nonneg
    have mn' := hm'.melt_nonneg
    have l1 := hm.surf_law (by linarith) f0
    have l1' : t'.cc_s_0 - min 0 (meltQ0 dt (s.setEn e)) = min (max 0 (-meltQ0 dt (s.setEn e)))
        (lh_fus FREEZE * ((s.h2o_total + t'.melt) * (s.z_s_0 / s.z_s))) := hm'.surf_law (by show 0 ≤ s.h2o_total + _; linarith) f0
    rw [q0] at l1'
    have e1 := hm.energy
    have e1' := hm'.energy
    rw [q0, ql] at e1'
    have hlc : (s.setEn e).layer_count = s.layer_count := rfl
    rw [hlc] at e1'
    have mm : t.melt ≤ t'.melt := by
      rw [em, em']
      have := div_le_div_of_nonneg_right d1 lf.le
      linarith
    -- what refreezes in the lower layer grows by no more than the melt
    obtain ⟨X, hX⟩ : ∃ X, X = if s.layer_count = 2 then t.cc_s_l - min 0 (meltQl dt s) else 0 := ⟨_, rfl⟩
    obtain ⟨X', hX'⟩ : ∃ X', X' = if s.layer_count = 2 then t'.cc_s_l - min 0 (meltQl dt s) else 0 := ⟨_, rfl⟩
    rw [← hX] at e1
    rw [← hX'] at e1'
    have hXX : X' ≤ X + lh_fus FREEZE * ((t'.melt - t.melt) * (s.z_s_l / s.z_s)) := by
      by_cases h2 : s.layer_count = 2
      · have l2 := hm.lower_law h2 (by linarith) fl
        have l2' : t'.cc_s_l - min 0 (meltQl dt (s.setEn e)) = min (max 0 (-meltQl dt (s.setEn e)))
            (lh_fus FREEZE * ((s.h2o_total + t'.melt) * (s.z_s_l / s.z_s))) := hm'.lower_law h2 (by show 0 ≤ s.h2o_total + _; linarith) fl
        rw [ql] at l2'
        rw [if_pos h2, l2] at hX
        rw [if_pos h2, l2'] at hX'
        have hd : 0 ≤ lh_fus FREEZE * ((t'.melt - t.melt) * (s.z_s_l / s.z_s)) :=
          mul_nonneg lf.le (mul_nonneg (by linarith) fl)
        have hsplit : lh_fus FREEZE * ((s.h2o_total + t'.melt) * (s.z_s_l / s.z_s)) =
            lh_fus FREEZE * ((s.h2o_total + t.melt) * (s.z_s_l / s.z_s)) + lh_fus FREEZE * ((t'.melt - t.melt) * (s.z_s_l / s.z_s)) := by ring
        rw [hX', hX, hsplit]
        rcases min_choice (max 0 (-meltQl dt s)) (lh_fus FREEZE * ((s.h2o_total + t.melt) * (s.z_s_l / s.z_s))) with h | h
        · rw [h]
          exact (min_le_left _ _).trans (by linarith)
        · rw [h]
          exact min_le_right _ _
      · rw [if_neg h2] at hX hX'
        rw [hX, hX']
        have : 0 ≤ lh_fus FREEZE * ((t'.melt - t.melt) * (s.z_s_l / s.z_s)) :=
          mul_nonneg lf.le (mul_nonneg (by linarith) fl)
        linarith
    rcases le_or_gt (meltQ0 dt s + δ) 0 with hq | hq
    · have hμ : t'.melt = t.melt := by
        rw [em, em', max_eq_left hq, max_eq_left (by linarith)]
      rw [hμ, sub_self, zero_mul, mul_zero, add_zero] at hXX
      rw [hμ, min_eq_right hq, max_eq_right (by linarith)] at l1'
      rw [min_eq_right (by linarith : meltQ0 dt s ≤ 0), max_eq_right (by linarith)] at l1
      rw [min_eq_right hq] at e1'
      rw [min_eq_right (by linarith : meltQ0 dt s ≤ 0)] at e1
      obtain ⟨B, hB⟩ : ∃ B, B = lh_fus FREEZE * ((s.h2o_total + t.melt) * (s.z_s_0 / s.z_s)) := ⟨_, rfl⟩
      rw [← hB] at l1 l1'
      have m1 : min (-(meltQ0 dt s + δ)) B ≤ min (-meltQ0 dt s) B := min_le_min (by linarith) (le_refl _)
      have m2 : min (-meltQ0 dt s) B - δ ≤ min (-(meltQ0 dt s + δ)) B :=
        le_min (by have := min_le_left (-meltQ0 dt s) B; linarith) (by have := min_le_right (-meltQ0 dt s) B; linarith)
      refine ⟨by linarith, ?_⟩
      have : lh_fus FREEZE * r' ≤ lh_fus FREEZE * r := by linarith
      have := le_of_mul_le_mul_left this lf
      linarith
    · have hw' : 0 ≤ lh_fus FREEZE * ((s.h2o_total + t'.melt) * (s.z_s_0 / s.z_s)) :=
        mul_nonneg lf.le (mul_nonneg (by linarith) f0)
      rw [min_eq_left hq.le, max_eq_left (by linarith), min_eq_left hw'] at l1'
      have hc' : t'.cc_s_0 = 0 := by linarith
      refine ⟨by rw [hc']; exact hm.cc0, ?_⟩
      rw [min_eq_left hq.le, hc'] at e1'
      have hge : 0 ≤ t.cc_s_0 - min 0 (meltQ0 dt s) := by
        rw [l1]
        exact le_min (le_max_left _ _) (mul_nonneg lf.le (mul_nonneg (by linarith) f0))
      have h3 : (t'.melt - t.melt) * (s.z_s_l / s.z_s) ≤ t'.melt - t.melt := by
        have : s.z_s_l / s.z_s ≤ 1 := by linarith
        nlinarith
      have h4 := mul_le_mul_of_nonneg_left h3 lf.le
      have : lh_fus FREEZE * (r' - r) ≤ lh_fus FREEZE * (t'.melt - t.melt) := by
        rw [mul_sub]; linarith
      have := le_of_mul_le_mul_left this lf
      linarith

/-! ## The energy balance -/

/-- The forcing with another net solar and incoming thermal radiation. -/
def InputData.lit (S I : ℝ) (i : InputData) : InputData := { i with S_n := S, I_lw := I }

def Energy.plus (δ : ℝ) (e : Energy) : Energy :=
  { e with R_n := e.R_n + δ, delta_Q_0 := e.delta_Q_0 + δ, delta_Q := e.delta_Q + δ }

theorem h_le_lit (c : Env) (S I : ℝ) (p : Phys) :
    h_le c { p with input1 := p.input1.lit S I } =
      (h_le c p).map fun q => (q.1, { q.2 with input1 := q.2.input1.lit S I }) := by
  unfold h_le
  rw [map_bind_err]
  refine bind_ext_err (x := p.input1.sat_vp) fun sv => ?_
  have e1 : ∀ i' : InputData, i' = (if p.input1.e_a > sv then { p.input1 with e_a := sv } else p.input1) →
      (if (p.input1.lit S I).e_a > sv then { p.input1.lit S I with e_a := sv } else p.input1.lit S I) = i'.lit S I := by
    intro i' h
    rw [h]
    show (if p.input1.e_a > sv then _ else _) = _
    split <;> rfl
  dsimp only
  rw [e1 _ rfl, map_bind_err]
  refine bind_ext_err fun es => ?_
  rw [map_bind_err]
  refine bind_ext_err fun r => ?_
  dsimp only
  split <;> rfl

theorem energy_balance_lit (c : Env) (dt S I δ : ℝ) (p : Phys)
    (hδ : δ = (S - p.input1.S_n) + 0.98 * (I - p.input1.I_lw)) :
    energy_balance c dt { p with input1 := p.input1.lit S I } =
      (energy_balance c dt p).map fun q => { q with
        input1 := q.input1.lit S I
        snow := q.snow.setEn (if p.snow.layer_count > 0 then q.snow.en.plus δ else q.snow.en) } := by
  unfold energy_balance
  show (if p.snow.layer_count > 0 then _ else _) = _
  by_cases hl : p.snow.layer_count > 0
  · rw [if_pos hl, if_pos hl, h_le_lit]
    have hn : net_radiation (p.input1.lit S I) p.snow = net_radiation p.input1 p.snow + δ := by
      unfold net_radiation SNOW_EMISSIVITY
      show S + 0.98 * (I - _) = _
      rw [hδ]; ring
    dsimp only
    rw [hn]
    cases h_le c p with
    | error e => rfl
    | ok q =>
      obtain ⟨r, q⟩ := q
      show (heat_transfer c q.input1 q.snow >>= fun a => (advec q.input1 dt q.snow >>= _)) =
        (heat_transfer c q.input1 q.snow >>= fun a => (advec q.input1 dt q.snow >>= _)).map _
      cases heat_transfer c q.input1 q.snow with
      | error e => rfl
      | ok a =>
        cases advec q.input1 dt q.snow with
        | error e => rfl
        | ok M =>
          obtain ⟨G, G0⟩ := a
          show Except.ok _ = Except.ok _
          simp only [hl, if_true, Snow.setEn, Energy.plus, Except.ok.injEq, Phys.mk.injEq, Snow.mk.injEq, Energy.mk.injEq, true_and, and_true]
          constructor <;> ring
  · rw [if_neg hl, if_neg hl]
    show Except.ok _ = Except.ok _
    simp only [hl, if_false, Snow.setEn]

theorem applied_lit (dl : InputData) (S I : ℝ) (i : InputData) : applied dl (i.lit S I) = (applied dl i).lit S I := by
  unfold applied
  show (if i.precip_now then _ else _) = _
  split <;> rfl

theorem applied_light (dl i : InputData) : (applied dl i).S_n = i.S_n ∧ (applied dl i).I_lw = i.I_lw := by
  unfold applied
  split <;> exact ⟨rfl, rfl⟩

/-! ## Specification -/

/-- What a run step of length `dt` leaves (`s`), and what it would have left (`s'`) with net radiation greater by `δ`; `pack` says
whether there was snow at its start. -/
structure Brighter (dt δ : ℝ) (pack : Bool) (s s' : Snow) : Prop where
  /-- no other flux changes -/
  fluxes : s'.en.H = s.en.H ∧ s'.en.L_v_E = s.en.L_v_E ∧ s'.en.G = s.en.G ∧ s'.en.G_0 = s.en.G_0 ∧ s'.en.M = s.en.M ∧ s'.E = s.E
  balance : pack = true → s'.en.R_n = s.en.R_n + δ ∧ s'.en.delta_Q_0 = s.en.delta_Q_0 + δ ∧ s'.en.delta_Q = s.en.delta_Q + δ
  /-- no less melts, and no more than the additional energy can melt -/
  melt : s.melt ≤ s'.melt
  melt_bound : 333600 * (s'.melt - s.melt) ≤ δ * dt
  /-- the surface layer is left no colder -/
  cold : s.snowcover = true → s'.snowcover = true → s.cc_s_0 ≤ s'.cc_s_0
  /-- and no less liquid water is retained or runs off, if the exchange of vapour with the soil is the same -/
  water : s.snowcover = true → s'.snowcover = true → s.E_s = s'.E_s → s.h2o + s.swi ≤ s'.h2o + s'.swi

/-! ## The step -/

theorem afterVapour_mono {w w' : ℝ} (e : ℝ) (h0 : 0 ≤ w) (h : w ≤ w') : afterVapour w e ≤ afterVapour w' e := by
  unfold afterVapour
  rcases h0.lt_or_eq with hp | hp
  · rw [if_pos hp, if_pos (lt_of_lt_of_le hp h)]
    exact max_le_max (le_refl _) (by linarith)
  · rw [if_neg (by linarith), ← hp]
    split
    · exact le_max_left _ _
    · rename_i hn; linarith

theorem afterVapour_nonneg' {w : ℝ} (e : ℝ) (h0 : 0 ≤ w) : 0 ≤ afterVapour w e := by
  unfold afterVapour
  split
  · exact le_max_left _ _
  · exact h0

theorem brighter_step {g : Config} {c : Env} {dt : ℝ} {d : InputData} {lv : Level} {p p1 p2 : Phys} {S I δ : ℝ} (hc : c.OK)
    (hv : c.max_h2o_vol = g.max_h2o) (hdt : 0 < dt) (hi : Inv c p.snow) (hh : 0 ≤ p.snow.h2o)
    (h1 : stepPhys c dt d p = .ok p1) (hf : p1.input1.precip_now = true → StepForcing p1.input1)
    (hδ : δ = (S - p.input1.S_n) + 0.98 * (I - p.input1.I_lw)) (hδ0 : 0 ≤ δ)
    (h2 : stepPhys c dt d { p with input1 := p.input1.lit S I } = .ok p2) :
    Brighter dt δ (decide (p.snow.layer_count > 0)) p1.snow p2.snow := by
  have hmax := hc.max_z
  obtain ⟨s0, s1, s2, s3, s4, s5, s6, k⟩ := step_chain hmax hi h1
  obtain ⟨s0', s1', s2', s3', s4', s5', s6', k'⟩ := step_chain (p := { p with input1 := p.input1.lit S I }) hmax hi h2
  -- the fluxes
  have he := energy_balance_lit c dt S I δ ⟨{ p.snow with h2o_total := 0, snowcover := decide (p.snow.layer_count > 0) }, applied d p.input1, p.init_ustar, p.init_factor⟩
    (by rw [(applied_light d p.input1).1, (applied_light d p.input1).2]; exact hδ)
  have ke := k.eb
  have ke' := k'.eb
  dsimp only at ke ke' he
  rw [applied_lit] at ke'
  rw [ke', ke] at he
  have he := Except.ok.inj he
  obtain ⟨e', hee⟩ : ∃ e', e' = if p.snow.layer_count > 0 then s0.en.plus δ else s0.en := ⟨_, rfl⟩
  have hs0 : s0' = s0.setEn e' := by
    have := congrArg Phys.snow he
    rw [hee]; exact this
  have hin : p2.input1 = p1.input1.lit S I := congrArg Phys.input1 he
  have lift : ∀ {f : Snow → Except Err Snow} (_ : ∀ e s, f (s.setEn e) = (f s).map (Snow.setEn e)) {a a' b b' : Snow},
      f a = .ok b → f a' = .ok b' → a' = a.setEn e' → b' = b.setEn e' ∧ b.en = a.en := by
    intro f hf a a' b b' h h' ea
    have q1 := hf e' a
    rw [← ea, h', h] at q1
    have q2 := hf a.en a
    have e0 : a.setEn a.en = a := rfl
    rw [e0] at q2
    have q3 : Except.ok b = (Except.ok b : Except Err Snow).map (Snow.setEn a.en) := by
      have q4 := q2
      rw [h] at q4
      exact q4
    have q5 : b = b.setEn a.en := Except.ok.inj q3
    have q6 : b.en = (b.setEn a.en).en := congrArg Snow.en q5
    exact ⟨Except.ok.inj q1, q6⟩
  obtain ⟨hs1, en1⟩ := lift (fun e s => time_compact_setEn c e dt s) k.tc k'.tc hs0
  have hpe' : precip_event c p1.input1 s1' = .ok s2' := by
    have := k'.pe
    rw [hin] at this
    exact this
  obtain ⟨hs2, en2⟩ := lift (fun e s => precip_event_setEn c e p1.input1 s) k.pe hpe' hs1
  have en20 : s2.en = s0.en := by rw [en2, en1]
  have en2' : s2'.en = e' := by rw [hs2]; rfl
  -- the melt stage
  obtain ⟨m1, n1, o1, _⟩ := k.melt_en hmax
  obtain ⟨m2, n2, o2, _⟩ := k'.melt_en hmax
  have hmelt : ∀ {a b : Snow}, Inv c a → snowmelt c dt a = .ok b → b.en = a.en ∧ b.E = a.E ∧
      ((a.snowcover = false ∧ b.melt = 0) ∨ (a.snowcover = true ∧ ∃ t r, MeltRes dt a t r ∧ b.melt = t.melt)) := by
    intro a b hi h
    rcases snowmelt_out hmax hi h with ⟨hf, e⟩ | ⟨hf, t, r, hm, _, h3⟩
    · rw [e]; exact ⟨rfl, rfl, .inl ⟨hf, rfl⟩⟩
    · have ht : t.en = a.en ∧ t.E = a.E := by rw [hm.frame]; exact ⟨rfl, rfl⟩
      rcases h3 with ⟨st, _⟩ | hg
      · exact ⟨st.en.trans ht.1, st.E.trans ht.2, .inr ⟨hf, t, r, hm, st.melt⟩⟩
      · exact ⟨hg.en.trans ht.1, hg.E.trans ht.2, .inr ⟨hf, t, r, hm, hg.melt⟩⟩
  obtain ⟨en3, E3, c3⟩ := hmelt k.i2 k.sm
  obtain ⟨en3', E3', c3'⟩ := hmelt k'.i2 k'.sm
  have ena : p1.snow.en = s0.en := by rw [n1, en3, en20]
  have enb : p2.snow.en = e' := by rw [n2, en3', en2']
  have hfix : e'.H = s0.en.H ∧ e'.L_v_E = s0.en.L_v_E ∧ e'.G = s0.en.G ∧ e'.G_0 = s0.en.G_0 ∧ e'.M = s0.en.M := by
    rw [hee]; split <;> exact ⟨rfl, rfl, rfl, rfl, rfl⟩
  obtain ⟨δ', hδ', hq⟩ : ∃ δ', (0 ≤ δ' ∧ δ' ≤ δ * dt) ∧ e'.delta_Q_0 * dt = s2.en.delta_Q_0 * dt + δ' := by
    rw [hee, en20]
    split
    · exact ⟨δ * dt, ⟨mul_nonneg hδ0 hdt.le, le_refl _⟩, by show (s0.en.delta_Q_0 + δ) * dt = _; ring⟩
    · exact ⟨0, ⟨le_refl _, mul_nonneg hδ0 hdt.le⟩, by ring⟩
  have hG : e'.G - e'.G_0 = s2.en.G - s2.en.G_0 := by rw [hfix.2.2.1, hfix.2.2.2.1, en20]
  have hE : p2.snow.E = p1.snow.E := by
    rw [o1, o2, E3, E3', hs2]; rfl
  have hcov : s2'.snowcover = s2.snowcover := by rw [hs2]; rfl
  have hmm : p1.snow.melt ≤ p2.snow.melt ∧ 333600 * (p2.snow.melt - p1.snow.melt) ≤ δ * dt := by
    rw [m1, m2]
    rcases c3 with ⟨f, e⟩ | ⟨f, t, r, hm, e⟩ <;> rcases c3' with ⟨f', e''⟩ | ⟨f', t', r', hm', e''⟩
    · rw [e, e'', sub_self, mul_zero]
      exact ⟨le_refl _, mul_nonneg hδ0 hdt.le⟩
    · rw [hcov, f] at f'; cases f'
    · rw [hcov, f] at f'; cases f'
    · rw [hs2] at hm'
      obtain ⟨a1, a2, _⟩ := melt_mono hm hm' hδ'.1 hG hq
      rw [e, e'']
      rw [lf_eq] at a2
      exact ⟨a1, a2.trans hδ'.2⟩
  have fin : ∀ {q q' : Phys} {a0 a1 a2 a3 a4 a5 a6 t : Snow}, StepChain c dt d q q' a0 a1 a2 a3 a4 a5 a6 → Stay c t a2.m_s a3 →
      q'.snow.snowcover = true → q'.snow.cc_s_0 = t.cc_s_0 ∧ q'.snow.melt = t.melt := by
    intro q q' a0 a1 a2 a3 a4 a5 a6 t k st hs
    obtain ⟨f6, f5, f4, f3, _⟩ := k.persist hmax hs
    obtain ⟨_, _, el, w, _, hw, hE, st4, _⟩ := k.flag4 hmax f4
    obtain ⟨_, st5, _⟩ := k.flag5 hmax f5
    obtain ⟨_, _, _, d4, d5, d6, _, _, _, den, dcc, _⟩ := k.drained hmax f5
    refine ⟨?_, ((k.melt_en hmax).1).trans st.melt⟩
    rw [k.frame7]
    show a6.cc_s_0 = _
    rw [dcc, st5.cc0, st4.cc0]; exact st.cc0
  have hf2 : p2.input1.precip_now = true → StepForcing p2.input1 := by
    rw [hin]
    intro h
    obtain ⟨b1, b2, b3, b4, b5, b6, b7, b8⟩ := hf h
    exact ⟨b1, b2, b3, b4, b5, b6, b7, b8⟩
  have both : p1.snow.snowcover = true → p2.snow.snowcover = true → p1.snow.cc_s_0 ≤ p2.snow.cc_s_0 ∧
      (p1.snow.E_s = p2.snow.E_s → p1.snow.h2o + p1.snow.swi ≤ p2.snow.h2o + p2.snow.swi) := by
    intro c1 c2
    obtain ⟨r0, rl, w, wb, _, t, hm, st, _⟩ := k.ledgers (g := g) (x := ⟨lv, p, p1⟩) hc hv hdt hh hf c1
    obtain ⟨r0', rl', w', wb', _, t', hm', st', _⟩ :=
      k'.ledgers (g := g) (x := ⟨lv, { p with input1 := p.input1.lit S I }, p2⟩) hc hv hdt hh hf2 c2
    obtain ⟨_, _, _, _, f2, _⟩ := k.persist hmax c1
    have h02 := k.i2.flag f2
    have hz2 := k.i2.z_pos h02
    have b2 := k.books2 hc hh hf
    obtain ⟨g1, g2⟩ := fin k st c1
    obtain ⟨g1', g2'⟩ := fin k' st' c2
    rw [hs2] at hm'
    obtain ⟨_, _, a3⟩ := melt_mono hm hm' hδ'.1 hG hq
    obtain ⟨a4, a5⟩ := a3 hz2 h02.le k.i2.zl k.i2.sum b2.total
    refine ⟨by rw [g1, g1']; exact a4, fun hes => ?_⟩
    have hl := wb.left
    have hl' := wb'.left
    have ho := wb.out
    have ho' := wb'.out
    have hbd := wb.bound
    dsimp only at hl hl' ho ho' hbd
    have hwi : waterIn g ⟨lv, { p with input1 := p.input1.lit S I }, p2⟩ = waterIn g ⟨lv, p, p1⟩ := by
      unfold waterIn
      dsimp only
      rw [hin]
      rfl
    rw [hwi, g2'] at hl'
    rw [g2] at hl hbd
    rw [ho, ho', hE, ← hes]
    have hX : p.snow.h2o + waterIn g ⟨lv, p, p1⟩ + t.melt - (r0 + rl) ≤ p.snow.h2o + waterIn g ⟨lv, p, p1⟩ + t'.melt - (r0' + rl') := by linarith
    have hw0 : 0 ≤ w ∧ w ≤ w' := by
      rw [hl, hl']
      split
      · split
        · exact ⟨le_refl _, le_refl _⟩
        · rename_i n; exact ⟨le_refl _, by linarith⟩
      · rename_i n
        rw [if_neg (by linarith)]
        exact ⟨by linarith, hX⟩
    exact afterVapour_mono _ (afterVapour_nonneg' _ hw0.1) (afterVapour_mono _ hw0.1 hw0.2)
  refine ⟨?_, ?_, hmm.1, hmm.2, fun c1 c2 => (both c1 c2).1, fun c1 c2 => (both c1 c2).2⟩
  · rw [ena, enb]
    exact ⟨hfix.1, hfix.2.1, hfix.2.2.1, hfix.2.2.2.1, hfix.2.2.2.2, hE⟩
  · intro hp
    rw [ena, enb, hee, if_pos (of_decide_eq_true hp)]
    exact ⟨rfl, rfl, rfl⟩

/-! ## Whole runs -/

/-- C75, run steps: in every run step of every simulation with admissible data, if the net solar and incoming thermal radiation had been
such that the snow absorbs more of them (`δ`, of which it absorbs all net solar and 98 % of the thermal radiation), and the step had been
completed as well: no other flux would have changed, no less snow would have melted, the surface layer would have been left no colder,
and no less water would have been retained or run off. -/
theorem C75_more_radiation_step (g : Config) (hg : g.Tiled) (ha : g.AdmissibleStart) (rows : List Rec)
    (hr : ∀ r ∈ rows, r.Admissible) (ls : List (List (RStep Phys))) (m : Model)
    (h : RunTrace g rows ls m) : ∃ c ts, mkEnv g = .ok c ∧ parse_time_steps g = .ok ts ∧
      ∀ l ∈ ls, ∀ x ∈ l, ∃ d, stepPhys c (ts x.lv).time_step d x.pre = .ok x.post ∧
        ∀ S I δ y, δ = (S - x.pre.input1.S_n) + 0.98 * (I - x.pre.input1.I_lw) → 0 ≤ δ →
          stepPhys c (ts x.lv).time_step d { x.pre with input1 := { x.pre.input1 with S_n := S, I_lw := I } } = .ok y →
          Brighter (ts x.lv).time_step δ (decide (x.pre.snow.layer_count > 0)) x.post.snow y.snow := by
  obtain ⟨c, ts, hc, hts, ho, ht, hx⟩ := trace_closed hg ha hr h
  refine ⟨c, ts, hc, hts, fun l hl x hxl => ?_⟩
  obtain ⟨d, ⟨h1, h1'⟩, _, hf, h3, _⟩ := hx l hl x hxl
  exact ⟨d, h3, fun S I δ y hδ h0 h2 =>
    brighter_step (g := g) (lv := x.lv) ho (mkEnv_ok hc).2.2.1 (ht.step_pos x.lv) h1 h1' h3 hf hδ h0 h2⟩

/-- The same object with another working forcing. -/
def Model.setIn (j : InputData) (m : Model) : Model := { m with phys := { m.phys with input1 := j } }

/-- A data step that is not divided: nothing but the working forcing depends on the second record. -/
theorem data_normal_setIn {c : Env} {ts : Tsteps} (ht : TileOK ts) {all : Bool} {r1 : Rec} {i1 : InputData}
    (n1 : InputData.new r1 = .ok i1) (i2 i2' j : InputData) {m : Model}
    (hb : below_thold (ts .normal).threshold m.phys.snow = false) :
    (do_data_tstep c ts all i1 i2 m).map (Model.setIn j) = (do_data_tstep c ts all i1 i2' m).map (Model.setIn j) := by
  unfold do_data_tstep
  rw [inputDeltas_total ht n1 i2, inputDeltas_total ht n1 i2', bind_ok, bind_ok, data_tstep_eq, data_tstep_eq]
  unfold Sim.normalBlock
  have hn : ((ts .normal).intervals).toNat = 1 := by rw [ht.n_normal]; rfl
  have e := stepPhys_precip c (ts .normal).time_step
    (dl := (deltaRec i1 i2 ((ts .normal).intervals_per_timestep : ℝ)).toInput)
    (dl' := (deltaRec i1 i2' ((ts .normal).intervals_per_timestep : ℝ)).toInput)
    { m.phys with input1 := i1 } rfl
  cases all <;> simp only [snobalSim, hn, iterM, hb, Sim.do_tstep, e]
  all_goals
    cases stepPhys c (ts .normal).time_step (deltaRec i1 i2' ((ts .normal).intervals_per_timestep : ℝ)).toInput
      { m.phys with input1 := i1 } with
    | error er => rfl
    | ok p =>
      cases h2 : accumulate (ts .normal).time_step p.snow m.acc with
      | error er => simp [h2, Except.map]
      | ok a => cases h3 : a.acc.swi_sum <;> simp [h2, Sim.output, snapshot, h3, Except.map, Model.setIn]

/-- An undivided data step that completes is one completed run step. -/
theorem do_data_normal_inv {c : Env} {ts : Tsteps} (ht : TileOK ts) {all : Bool} {r1 : Rec}
    {i1 i2 : InputData} (n1 : InputData.new r1 = .ok i1) {m m' : Model}
    (hb : below_thold (ts .normal).threshold m.phys.snow = false) (h : do_data_tstep c ts all i1 i2 m = .ok m') :
    ∃ p', stepPhys c (ts .normal).time_step (deltaRec i1 i2 1).toInput { m.phys with input1 := i1 } = .ok p' := by
  cases hp : stepPhys c (ts .normal).time_step (deltaRec i1 i2 1).toInput { m.phys with input1 := i1 } with
  | ok p => exact ⟨p, rfl⟩
  | error e =>
    exfalso
    unfold do_data_tstep at h
    rw [inputDeltas_total ht n1 i2, bind_ok, data_tstep_eq] at h
    unfold Sim.normalBlock at h
    have hn : ((ts .normal).intervals).toNat = 1 := by rw [ht.n_normal]; rfl
    have hd : (((ts .normal).intervals_per_timestep : ℤ) : ℝ) = 1 := by rw [ht.ipt_normal]; norm_num
    simp [snobalSim, hn, iterM, hb, Sim.do_tstep, hd, hp] at h

/-- The last data step of a simulation. -/
theorem simulate_last {g : Config} {L : List Rec} {a b : Rec} {m2 : Model} (h : simulate g (L ++ [a, b]) = .ok m2) :
    ∃ c ts ia ib m1 ls l, mkEnv g = .ok c ∧ parse_time_steps g = .ok ts ∧ InputData.new a = .ok ia ∧ InputData.new b = .ok ib ∧
      simulate g (L ++ [a]) = .ok m1 ∧ do_data_tstep c ts g.output_all ia ib m1 = .ok m2 ∧
      RunTrace g (L ++ [a, b]) (ls ++ [l]) m2 ∧ Executed c ts g.output_all ia ib m1 l m2 := by
  obtain ⟨ls', ht⟩ := simulate_trace h
  obtain ⟨c, ts, i1, m0, r, rs, e, q1, q2, q3, q4, q5⟩ := id ht
  obtain ⟨rs', hrs, e'⟩ : ∃ rs', rs = rs' ++ [b] ∧ L ++ [a] = r :: rs' := by
    cases L with
    | nil =>
      simp only [List.nil_append, List.cons.injEq] at e
      exact ⟨[], by rw [← e.2]; rfl, by rw [← e.1]; rfl⟩
    | cons y ys =>
      simp only [List.cons_append, List.cons.injEq] at e
      exact ⟨ys ++ [a], by rw [← e.2]; simp, by rw [← e.1]; simp⟩
  rw [hrs] at q5
  obtain ⟨ls0, l, m1, iL, i2, rfl, k1, k2, k3, k4, k5⟩ := q5.snoc
  have hia : InputData.new a = .ok iL := by
    rcases k2 with ⟨rfl, rfl⟩ | ⟨r', hr', hn⟩
    · cases L with
      | nil =>
        simp only [List.nil_append, List.cons.injEq] at e'
        rw [e'.1]; exact q3
      | cons y ys => simp at e'
    · have : (r :: rs').getLast? = some a := by rw [← e']; simp
      cases rs' with
      | nil => simp at hr'
      | cons y ys =>
        simp only [List.getLast?_cons_cons] at this hr'
        rw [this] at hr'
        simp only [Option.mem_some_iff, Option.mem_def, Option.some.injEq] at hr'
        rw [hr']; exact hn
  refine ⟨c, ts, iL, i2, m1, ls0, l, q2, q1, hia, k3, ?_, k4, ht, k5⟩
  rw [e']
  exact RunTrace.simulate (ls := ls0) ⟨c, ts, i1, m0, r, rs', rfl, q1, q2, q3, q4, k1⟩

/-- `a'` is the record `a` with other radiation, of which the snow absorbs `δ` more. -/
def Rec.Lit (δ : ℝ) (a a' : Rec) : Prop :=
  a' = { a with S_n := a'.S_n, I_lw := a'.I_lw } ∧ δ = (a'.S_n - a.S_n) + 0.98 * (a'.I_lw - a.I_lw)

/-- What two output records of the same data step say, the second of a run with net radiation greater by `δ` during that step (of
length `dt`).  `pack`: there was snow at its start; `covered`: there still is, in both runs. -/
structure BrighterRecord (dt δ : ℝ) (pack covered : Prop) (o o' : OutRec) : Prop where
  stamp : o'.date_time = o.date_time
  fluxes : o'.H_bar = o.H_bar ∧ o'.L_v_E_bar = o.L_v_E_bar ∧ o'.G_bar = o.G_bar ∧ o'.G_0_bar = o.G_0_bar ∧ o'.M_bar = o.M_bar
  balance : pack → o'.R_n_bar = o.R_n_bar + δ ∧ o'.delta_Q_0_bar = o.delta_Q_0_bar + δ ∧ o'.delta_Q_bar = o.delta_Q_bar + δ
  melt : o.melt_sum ≤ o'.melt_sum
  melt_bound : 333600 * (o'.melt_sum - o.melt_sum) ≤ δ * dt
  cold : covered → o.cc_s_0 ≤ o'.cc_s_0
  water : covered → o.E_s_sum = o'.E_s_sum → o.h2o + o.swi_sum ≤ o'.h2o + o'.swi_sum

/-- C75, records: two runs with the same records up to `a` resp. `a'`, which differ in radiation only, so that the snow absorbs `δ ≥ 0`
more; each run completes one more data step, with any further record.  If neither this nor the preceding data step is divided (no layer
is lighter than the normal threshold when it starts), the records of both runs are the same except for the last, which shows, for the run
with more radiation, as much or more melt, a surface layer no colder, and as much or more water. -/
theorem C75_more_radiation_record (g : Config) (hg : g.Tiled) (ha : g.AdmissibleStart) (L : List Rec) (a a' b b' : Rec)
    (hr : ∀ r ∈ L ++ [a, b], r.Admissible) (δ : ℝ) (hl : a.Lit δ a') (hδ : 0 ≤ δ)
    (before : L = [] ∨ ∃ m0, simulate g L = .ok m0 ∧ m0.phys.snow.NoThinLayer g.norm_threshold)
    (m1 : Model) (h1 : simulate g (L ++ [a]) = .ok m1) (now : m1.phys.snow.NoThinLayer g.norm_threshold)
    (m m' : Model) (h : simulate g (L ++ [a, b]) = .ok m) (h' : simulate g (L ++ [a', b']) = .ok m') :
    ∃ out o o', m.output_list = out ++ [o] ∧ m'.output_list = out ++ [o'] ∧
      BrighterRecord (g.norm_time_step * 60) δ (m1.phys.snow.layer_count > 0)
        (m.phys.snow.snowcover = true ∧ m'.phys.snow.snowcover = true) o o' := by
  obtain ⟨c, ts, ia, ib, m1_, ls, l, hc, hts, na, nb, e1, hd, htr, hex⟩ := simulate_last h
  rw [h1] at e1
  cases e1
  obtain ⟨c', ts', ia', ib', m1', ls', l', hc', hts', na', nb', e1', hd', _, _⟩ := simulate_last h'
  rw [hc] at hc'; cases hc'
  rw [hts] at hts'; cases hts'
  have ht := parse_tile hg hts
  have hthr : (ts .normal).threshold = g.norm_threshold := by
    unfold parse_time_steps at hts
    obtain ⟨a, _, hts⟩ := bind_eq_ok.mp hts
    obtain ⟨b, _, hts⟩ := bind_eq_ok.mp hts
    obtain ⟨d, _, hts⟩ := bind_eq_ok.mp hts
    simp only [pure_ok, Except.ok.injEq] at hts
    rw [← hts]
  -- the runs agree up to here
  have same : m1'.setIn ia = m1.setIn ia := by
    rcases before with rfl | ⟨m0, h0, hb0⟩
    · obtain ⟨_, i1, _, mm, a1, a2, a3, a4, a5⟩ := simulate_ok (r := a) (rs := []) h1
      obtain ⟨_, i1', _, mm', b1, b2, b3, b4, b5⟩ := simulate_ok (r := a') (rs := []) e1'
      rw [a3] at b3; cases b3
      simp only [runSteps, Except.ok.injEq] at a5 b5
      subst a5 b5
      unfold mkModel at a4 b4
      obtain ⟨s, hs, a4⟩ := bind_eq_ok.mp a4
      obtain ⟨s', hs', b4⟩ := bind_eq_ok.mp b4
      rw [hs] at hs'; cases hs'
      simp only [pure_ok, Except.ok.injEq] at a4 b4
      rw [← a4, ← b4]; rfl
    · obtain ⟨K, z, rfl⟩ : ∃ K z, L = K ++ [z] := by
        rcases List.eq_nil_or_concat L with rfl | ⟨K, z, e⟩
        · simp [simulate] at h0
        · exact ⟨K, z, by rw [e, List.concat_eq_append]⟩
      rw [List.append_assoc] at h1 e1'
      obtain ⟨c2, ts2, iz, i2, n1, _, _, a1, a2, a3, a4, a5, a6, _, _⟩ := simulate_last h1
      obtain ⟨c3, ts3, iz', i3, n1', _, _, b1, b2, b3, b4, b5, b6, _, _⟩ := simulate_last e1'
      rw [hc] at a1 b1; cases a1; cases b1
      rw [hts] at a2 b2; cases a2; cases b2
      rw [a3] at b3; cases b3
      rw [h0] at a5 b5; cases a5; cases b5
      have := data_normal_setIn (c := c) (all := g.output_all) ht a3 i2 i3 ia (m := m0) (by rw [hthr]; exact below_of_noThin hb0)
      rw [a6, b6] at this
      exact (Except.ok.inj this).symm
  have hd2 : do_data_tstep c ts g.output_all ia' ib' m1 = .ok m' := by
    have q1 : do_data_tstep c ts g.output_all ia' ib' m1' = do_data_tstep c ts g.output_all ia' ib' (m1'.setIn ia) := rfl
    have q2 : do_data_tstep c ts g.output_all ia' ib' (m1.setIn ia) = do_data_tstep c ts g.output_all ia' ib' m1 := rfl
    rw [← q2, ← same, ← q1]; exact hd'
  have hb : below_thold (ts .normal).threshold m1.phys.snow = false := by rw [hthr]; exact below_of_noThin now
  obtain ⟨p1, s1⟩ := do_data_normal_inv ht na hb hd
  obtain ⟨p2, s2⟩ := do_data_normal_inv ht na' hb hd2
  have h0 := C10_nothing_pending g hg _ _ h1
  have f1 := do_data_normal (all := g.output_all) ht na h0 hb s1
  have f2 := do_data_normal (all := g.output_all) ht na' h0 hb s2
  rw [hd] at f1
  rw [hd2] at f2
  have f1 := Except.ok.inj f1
  have f2 := Except.ok.inj f2
  have hia : ia' = ia.lit a'.S_n a'.I_lw := by
    rw [(new_ok na).1, (new_ok na').1, hl.1]; rfl
  rw [stepPhys_precip c _ _ (show ia'.update_precip_deltas _ = ia'.update_precip_deltas (deltaRec ia ib 1).toInput by rw [hia]; rfl)] at s2
  obtain ⟨_, w1, w2, _⟩ := executed_normal (all := g.output_all) ht na h0 hb s1
  have hll := (Executed.unique hex w2).1
  obtain ⟨c4, ts4, d1, d2, ho, _, hx⟩ := trace_closed hg ha hr htr
  rw [hc] at d1; cases d1
  rw [hts] at d2; cases d2
  obtain ⟨_, ⟨i1, i2⟩, _, hf, _, _⟩ := hx l (by simp) (⟨.normal, { m1.phys with input1 := ia }, p1⟩ : RStep Phys) (by rw [hll]; simp)
  have hS : ia.S_n = a.S_n ∧ ia.I_lw = a.I_lw := by rw [(new_ok na).1]; exact ⟨rfl, rfl⟩
  have key := brighter_step (g := g) (lv := .normal) (p := { m1.phys with input1 := ia }) (S := a'.S_n) (I := a'.I_lw) (δ := δ) ho (mkEnv_ok hc).2.2.1 (ht.step_pos .normal) i1 i2 s1 hf
    (by dsimp only; rw [hS.1, hS.2]; exact hl.2) hδ (by rw [hia] at s2; exact s2)
  have hdt : (ts .normal).time_step = g.norm_time_step * 60 := by
    obtain ⟨_, _, en, _, _⟩ := parse_ok hts
    rw [en]
    push_cast
    ring
  rw [hdt] at key
  have k1 : m.phys.snow = p1.snow := by rw [f1]
  have k2 : m'.phys.snow = p2.snow := by rw [f2]
  refine ⟨m1.output_list, _, _, by rw [f1], by rw [f2], ?_⟩
  rw [k1, k2]
  exact ⟨rfl, ⟨key.fluxes.1, key.fluxes.2.1, key.fluxes.2.2.1, key.fluxes.2.2.2.1, key.fluxes.2.2.2.2.1⟩,
    fun h => key.balance (decide_eq_true h), key.melt, key.melt_bound, fun h => key.cold h.1 h.2, fun h => key.water h.1 h.2⟩

end
end Pysnobal
