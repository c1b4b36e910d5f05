import Verif.Lemmas.Hold
import Verif.Props.Bare
import Verif.Props.Stability

/-! # C90: the site matters only where snow lies -/

namespace Pysnobal

noncomputable section

/-! ## Specification -/

/-- The same configuration for another site: elevation, heights of the wind, temperature and soil measurements, roughness length. -/
def Config.atSite (g : Config) (elevation z_u z_t z_g z_0 : ℝ) : Config := { g with elevation := elevation, z_u := z_u, z_t := z_t, z_g := z_g, init_z_0 := z_0 }

/-- Every run step starts without snow on the ground. -/
def StartsBareSteps (ls : List (List (RStep Phys))) : Prop := ∀ l ∈ ls, ∀ x ∈ l, x.pre.snow.layer_count = 0

/-! ## Proof -/

/-- The environment at another site. -/
def Env.site (c : Env) (P_a z_u z_t z_g z_0 : ℝ) : Env := { c with P_a := P_a, z_u := z_u, z_t := z_t, z_g := z_g, z_0 := z_0 }

theorem mkEnv_site {g : Config} {c : Env} (h : mkEnv g = .ok c) (e u t d z : ℝ) {c' : Env} (h' : mkEnv (g.atSite e u t d z) = .ok c') :
    c' = c.site c'.P_a u t d z := by
  unfold mkEnv at h h'
  obtain ⟨P, _, h⟩ := bind_eq_ok.mp h
  obtain ⟨P', _, h'⟩ := bind_eq_ok.mp h'
  cases h
  cases h'
  rfl

theorem init_cover {c : Env} {s s' : Snow} (e : init_snow c s = .ok s') : s'.snowcover = s.snowcover := by
  unfold init_snow initLayers at e
  split at e
  · cases e
    show (Snow.calc_layers c _).snowcover = _
    rw [calc_snowcover]
  · unfold initWater at e
    obtain ⟨d, _, e⟩ := bind_eq_ok.mp e
    cases e
    show (Snow.calc_layers c _).snowcover = _
    rw [calc_snowcover]

theorem precip_cover {c : Env} {i : InputData} {s s' : Snow} (h : s.snowcover = false) (e : precip_event c i s = .ok s') : s'.snowcover = false := by
  unfold precip_event at e
  split at e
  · rw [if_neg (by rw [h]; simp)] at e
    split at e
    · obtain ⟨t, e1, e2⟩ := bind_eq_ok.mp e
      cases e2
      show t.snowcover = false
      rw [init_cover e1]
      exact h
    · cases e
      exact h
  · cases e
    exact h

theorem mass_site {c : Env} {i : InputData} {dt : ℝ} {s : Snow} (h : s.snowcover = false) (P u t d z : ℝ) :
    mass_balance (c.site P u t d z) i dt s = mass_balance c i dt s := by
  have e0 : ∀ s, precip_event (c.site P u t d z) i s = precip_event c i s := fun _ => rfl
  unfold mass_balance
  have t1 : ∀ c : Env, time_compact c dt s = .ok s := fun c => if_pos (.inl h)
  rw [t1, t1, bind_ok, bind_ok, e0]
  cases e3 : precip_event c i s with
  | error e => rfl
  | ok s2 =>
    have h2 := precip_cover h e3
    have t2 : ∀ c : Env, snowmelt c dt s2 = .ok { s2 with melt := 0 } := fun c => if_pos h2
    have t3 : ∀ c : Env, evap_cond c i dt { s2 with melt := 0 } = .ok { s2 with melt := 0, E_s := 0 } := fun c => if_pos h2
    have t4 : ∀ c : Env, h2o_compact c i { s2 with melt := 0, E_s := 0 } = .ok { s2 with melt := 0, E_s := 0 } := fun c => if_pos (.inl h2)
    have t5 : ∀ c : Env, runoff c { s2 with melt := 0, E_s := 0 } = .ok { s2 with melt := 0, E_s := 0, swi := s2.h2o_total } := fun c => if_pos (.inl h2)
    rw [bind_ok, bind_ok, t2, t2, bind_ok, bind_ok, t3, t3, bind_ok, bind_ok, t4, t4, bind_ok, bind_ok, t5, t5]

theorem step_site {c : Env} {dt : ℝ} {dl : InputData} {p : Phys} (h : p.snow.layer_count = 0) (P u t d z : ℝ) :
    stepPhys (c.site P u t d z) dt dl p = stepPhys c dt dl p := by
  have hb : ¬ (stepStart dl p).snow.layer_count > 0 := by show ¬ p.snow.layer_count > 0; omega
  have e : ∀ c : Env, energy_balance c dt (stepStart dl p) = .ok { stepStart dl p with snow := { (stepStart dl p).snow with E := 0, en := Energy.zero } } :=
    fun c => if_neg hb
  rw [stepPhys_eq, stepPhys_eq, e, e, bind_ok, bind_ok, mass_site]
  show (stepStart dl p).snow.snowcover = false
  simp [stepStart, h]

theorem site_follows (c : Env) (ts : Tsteps) (all : Bool) (dl : Level → InputData) (P u t d z : ℝ) :
    (snobalSim c ts all dl).Follows (snobalSim (c.site P u t d z) ts all dl) (· = ·) (· = ·) (· = ·) (· = ·) fun x => x.pre.snow.layer_count = 0 where
  intervals := rfl
  timedelta := rfl
  divided := rfl
  below lv p q h := by rw [h]; rfl
  enter p q h := by rw [h]; rfl
  phys lv p q p' h hp hg := by
    subst h
    refine ⟨p', ?_, rfl⟩
    rw [← hp]
    exact step_site hg P u t d z
  accum lv p q a b a' h hab ha := by
    subst h hab
    exact ⟨a', ha, rfl⟩
  finish lv p q h := by rw [h]; rfl
  snap p q a b t r h hab hs := by
    have h : p = q := h.elim id id
    subst h hab
    exact ⟨r, hs, rfl⟩
  reset a b h := by rw [h]; rfl

/-- C90: if no run step of a run starts with snow on the ground, then the same run at any other site below 44 km, above which no
air pressure can be computed, is completed as well, with the same records and the same snow in the end. -/
theorem C90_site_unread_on_bare_ground (g : Config) (rows : List Rec) (ls : List (List (RStep Phys))) (m : Model)
    (h : RunTrace g rows ls m) (hb : StartsBareSteps ls) (elevation z_u z_t z_g z_0 : ℝ)
    (he : elevation < 288000 / 6.5) :
    ∃ m', simulate (g.atSite elevation z_u z_t z_g z_0) rows = .ok m' ∧ m'.output_list = m.output_list ∧ m'.phys.snow = m.phys.snow ∧
      m'.current_datetime = m.current_datetime := by
  obtain ⟨c, ts, i1, m0, r, rs, rfl, e1, e2, e3, e4, e5⟩ := h
  obtain ⟨c', hc'⟩ := (C39_run_pressure (g.atSite elevation z_u z_t z_g z_0)).1.mpr he
  have hs := mkEnv_site e2 _ _ _ _ _ hc'
  obtain ⟨m', q1, q2, q3, q4⟩ := follow_steps (fun dl => site_follows c ts g.output_all dl c'.P_a z_u z_t z_g z_0)
    (fun p q i h => by rw [h]) e5 hb m0 rfl rfl rfl (List.forall₂_refl _)
  refine ⟨m', ?_, (by rw [List.forall₂_eq_eq_eq] at q4; exact q4.symm), by rw [q2], q3⟩
  unfold simulate
  dsimp only
  rw [show parse_time_steps (g.atSite elevation z_u z_t z_g z_0) = parse_time_steps g from rfl, e1, bind_ok, e3, bind_ok, hc', bind_ok]
  rw [show mkModel (g.atSite elevation z_u z_t z_g z_0) c' i1 = mkModel g c i1 from by rw [hs]; rfl, e4, bind_ok, hs]
  exact q1

end

end Pysnobal
