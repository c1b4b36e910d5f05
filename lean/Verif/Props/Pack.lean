import Verif.Lemmas.Run
import Verif.Props.Clock

/-! # C13, C14, C15, C41: the layered snow pack in the state and in the output records -/

namespace Pysnobal

noncomputable section

/-! ## C13 -/

/-- C13: the layer split.  `calc_layers` touches nothing but the three depths and
* leaves no layer exactly when the pack is not heavier than the small threshold or has no depth,
* otherwise keeps the whole depth (`z_s` unchanged and equal to the sum of the layer depths),
* has two layers exactly when the pack is deeper than the active layer and the part below weighs at
  least the small threshold; then the surface layer is exactly `max_z_s_0` deep,
* never keeps a lower layer lighter than the small threshold. -/
theorem C13_layer_split (c : Env) (hmax : 0 < c.max_z_s_0) (s : Snow) :
    let t := s.calc_layers c
    t = { s with z_s := t.z_s, z_s_0 := t.z_s_0, z_s_l := t.z_s_l } ∧
    (t.layer_count = 0 ↔ s.m_s ≤ c.small_threshold ∨ s.z_s ≤ 0) ∧
    (t.layer_count ≠ 0 → t.z_s = s.z_s ∧ t.z_s_0 + t.z_s_l = s.z_s ∧ 0 < t.z_s_0 ∧ 0 ≤ t.z_s_l) ∧
    (t.layer_count = 2 ↔ c.small_threshold < s.m_s ∧ c.max_z_s_0 < s.z_s ∧
      c.small_threshold ≤ s.rho * (s.z_s - c.max_z_s_0)) ∧
    (t.layer_count = 2 → t.z_s_0 = c.max_z_s_0 ∧ c.small_threshold ≤ s.rho * t.z_s_l) ∧
    (t.layer_count = 0 ∨ t.layer_count = 1 ∨ t.layer_count = 2) := by
  have hmc := mul_comm s.rho (s.z_s - c.max_z_s_0)
  refine ⟨calc_layers_frame c s, ?_⟩
  rcases calc_cases c hmax s with ⟨h1, h2, h3, h4, h5⟩ | ⟨h1, h1', h2, h3, h4, h5⟩ |
    ⟨h1, h1', h1'', h2, h3, h4, h5⟩ | ⟨h1, h1', h1'', h2, h3, h4, h5⟩
  · simp [h5, h1]
  · simp [h5, h1']
    intro _ h; linarith
  · rw [h5, h2, h3, h4]
    refine ⟨?_, ?_, ?_, by simp, by simp⟩
    · simp; exact ⟨h1, h1'⟩
    · intro _; exact ⟨rfl, by ring, h1', le_refl _⟩
    · simp
      intro _ h6
      rcases h1'' with h | h
      · linarith
      · linarith
  · rw [h5, h2, h3, h4]
    refine ⟨?_, ?_, ?_, ?_, by simp⟩
    · simp; exact ⟨h1, by linarith⟩
    · intro _; exact ⟨rfl, by ring, hmax, by linarith⟩
    · simp only [true_iff]
      exact ⟨h1, h1', by linarith⟩
    · intro _; exact ⟨rfl, by linarith⟩

/-- C13: the depths `calc_layers` stores are always consistent, snow or no snow. -/
theorem C13_depths_add_up (c : Env) (s : Snow) :
    (s.calc_layers c).z_s = (s.calc_layers c).z_s_0 + (s.calc_layers c).z_s_l := by
  unfold Snow.calc_layers
  split
  · simp
  · simp

/-- A concrete pack: 2 m of snow at 300 kg/m³. -/
def deepPack : Snow :=
  { Snow.zero with z_s := 2, rho := 300, m_s := 600, t_s := 270, t_s_0 := 268, t_s_l := 272 }

/-- The parameters used for examples. -/
def exEnv : Env :=
  { P_a := 101324.6, z_u := 5, z_t := 5, z_g := 0.5, relative_hts := false, max_z_s_0 := 0.25,
    small_threshold := 1, max_h2o_vol := 0.01, z_0 := 0.005 }

/-- non-vacuity: the split really occurs -/
example : (deepPack.calc_layers exEnv).layer_count = 2 :=
  (C13_layer_split exEnv (by norm_num [exEnv]) deepPack).2.2.2.1.mpr
    (by norm_num [exEnv, deepPack])

/-! ## Records of a simulation -/

theorem mkEnv_ok {g : Config} {c : Env} (h : mkEnv g = .ok c) :
    c.max_z_s_0 = g.max_active ∧ c.small_threshold = g.small_threshold ∧ c.max_h2o_vol = g.max_h2o ∧
      c.z_0 = g.init_z_0 ∧ c.relative_hts = false ∧ c.z_u = g.z_u ∧ c.z_t = g.z_t ∧ c.z_g = g.z_g ∧
      hysat SEA_LEVEL STD_AIRTMP STD_LAPSE (g.elevation / 1000) GRAVITY MOL_AIR = .ok c.P_a := by
  unfold mkEnv at h
  obtain ⟨p, hp, h⟩ := bind_eq_ok.mp h
  simp only [pure_ok, Except.ok.injEq] at h
  subst h
  exact ⟨rfl, rfl, rfl, rfl, rfl, rfl, rfl, rfl, hp⟩

theorem simulate_parts {g : Config} {rows : List Rec} {m : Model} (h : simulate g rows = .ok m) :
    ∃ c ts, mkEnv g = .ok c ∧ parse_time_steps g = .ok ts := by
  cases rows with
  | nil => simp [simulate] at h
  | cons r rs =>
    obtain ⟨ts, i1, c, m0, e1, e2, e3, e4, e5⟩ := simulate_ok h
    exact ⟨c, ts, e3, e1⟩

/-- The structural invariant is a run invariant. -/
theorem invRule {c : Env} (hmax : 0 < c.max_z_s_0) (ts : Tsteps) :
    RunRule c ts (fun _ => True) (fun _ p => Inv c p.snow) (fun _ _ => True) (Inv c) where
  record := fun _ _ _ _ _ _ h => h
  delta := fun _ _ _ _ _ _ _ _ _ _ _ => trivial
  enter := fun _ _ _ _ h _ => h
  step := fun _ _ _ _ p' _ hi h => by
    have := stepPhys_inv hmax hi h
    exact ⟨this, this⟩
  idle := .inr fun _ _ h => h

/-- Every record of every simulation shows a state satisfying the structural invariant. -/
theorem records_inv {g : Config} (hmax : 0 < g.max_active) {rows : List Rec} {m : Model}
    (h : simulate g rows = .ok m) {c : Env} (hc : mkEnv g = .ok c) :
    Inv c m.phys.snow ∧ ∀ r ∈ m.output_list, Shows (Inv c) r := by
  obtain ⟨_, ts, _, hts⟩ := simulate_parts h
  have hm : 0 < c.max_z_s_0 := by rw [(mkEnv_ok hc).1]; exact hmax
  obtain ⟨⟨i, hI⟩, hO⟩ := RunRule.simulate hc hts (invRule hm ts) (rows := rows)
    (fun r i s _ _ hs => init_snow_inv hm hs rfl) (fun _ _ => trivial) h
  exact ⟨hI, hO⟩

/-- The snow columns of a record. -/
theorem snapshot_snow {s : Snow} {a : Acc} {t : ℤ} {r : OutRec} (h : snapshot s a t = .ok r) :
    r.rho = s.rho ∧ r.t_s_0 = s.t_s_0 ∧ r.t_s_l = s.t_s_l ∧ r.t_s = s.t_s ∧ r.cc_s_0 = s.cc_s_0 ∧
    r.cc_s_l = s.cc_s_l ∧ r.cc_s = s.cc_s_0 + s.cc_s_l ∧ r.m_s = s.m_s ∧ r.m_s_0 = s.m_s_0 ∧
    r.m_s_l = s.m_s_l ∧ r.z_s = s.z_s ∧ r.z_s_0 = s.z_s_0 ∧ r.z_s_l = s.z_s_l ∧
    r.h2o_sat = s.h2o_sat ∧ r.layer_count = s.layer_count ∧ r.h2o = s.h2o ∧ r.h2o_max = s.h2o_max ∧
    r.h2o_vol = s.h2o_vol ∧ r.h2o_total = s.h2o_total := by
  unfold snapshot at h
  split at h
  · cases h
  · cases h
    exact ⟨rfl, rfl, rfl, rfl, rfl, rfl, rfl, rfl, rfl, rfl, rfl, rfl, rfl, rfl, rfl, rfl, rfl, rfl, rfl⟩

/-! ## C14 -/

/-- What C14 says about one record. -/
structure ConsistentPack (max_active : ℝ) (r : OutRec) : Prop where
  depth : r.z_s = r.z_s_0 + r.z_s_l
  cold : r.cc_s = r.cc_s_0 + r.cc_s_l
  layers : r.layer_count = (if 0 < r.z_s_0 then 1 else 0) + (if 0 < r.z_s_l then 1 else 0)
  full : 0 < r.z_s_l → r.z_s_0 = max_active
  lower : r.layer_count = 2 ↔ 0 < r.z_s_l
  mass : 0 < r.layer_count → r.m_s = r.rho * r.z_s ∧ r.m_s_0 = r.rho * r.z_s_0 ∧
    r.m_s_l = r.rho * r.z_s_l ∧ 0 < r.z_s ∧ 0 < r.z_s_0
  total : r.m_s = r.m_s_0 + r.m_s_l

/-- C14: in every output record of every run the two layers add up and a lower layer only exists below
a full active layer. -/
theorem C14_records_consistent (g : Config) (hmax : 0 < g.max_active) (rows : List Rec) (m : Model)
    (h : simulate g rows = .ok m) : ∀ r ∈ m.output_list, ConsistentPack g.max_active r := by
  obtain ⟨c, ts, hc, hts⟩ := simulate_parts h
  obtain ⟨_, hO⟩ := records_inv hmax h hc
  obtain ⟨hm, _⟩ := mkEnv_ok hc
  intro r hr
  obtain ⟨s, a, t, hi, hsn⟩ := hO r hr
  obtain ⟨e1, e2, e3, e4, e5, e6, e7, e8, e9, e10, e11, e12, e13, e14, e15, _⟩ := snapshot_snow hsn
  have hmx : 0 < c.max_z_s_0 := by rw [hm]; exact hmax
  constructor
  · rw [e11, e12, e13]; exact hi.sum
  · rw [e7, e5, e6]
  · rw [e15, e12, e13]; rfl
  · rw [e12, e13, ← hm]; exact hi.full
  · rw [e15, e13, lc_eq_two]
    constructor
    · exact fun h => h.2
    · intro h1; exact ⟨by rw [hi.full h1]; exact hmx, h1⟩
  · rw [e15, hi.lc_pos_iff hmx, e8, e1, e11, e9, e12, e10, e13]
    intro h0
    obtain ⟨a1, a2, a3⟩ := hi.pack h0
    exact ⟨a1, a2, a3, hi.z_pos h0, h0⟩
  · rw [e8, e9, e10]
    by_cases h0 : 0 < s.z_s_0
    · obtain ⟨a1, a2, a3⟩ := hi.pack h0
      rw [a1, a2, a3, hi.sum]; ring
    · obtain ⟨a1, a2, _⟩ := hi.bare (not_lt.mp h0)
      have : s.z_s_l = 0 := by
        rcases eq_or_lt_of_le hi.zl with h1 | h1
        · exact h1.symm
        · exfalso; rw [hi.full h1] at h0; exact h0 hmx
      rw [a1, a2, (hi.one this).1]; ring

/-! ## C15 -/

/-- C15: a record without layers is canonical. -/
theorem C15_snow_free_records (g : Config) (hmax : 0 < g.max_active) (rows : List Rec) (m : Model)
    (h : simulate g rows = .ok m) : ∀ r ∈ m.output_list, r.layer_count = 0 →
      r.m_s = 0 ∧ r.m_s_0 = 0 ∧ r.m_s_l = 0 ∧ r.rho = 0 ∧ r.cc_s = 0 ∧ r.cc_s_0 = 0 ∧ r.cc_s_l = 0 ∧
      r.h2o_sat = 0 ∧ r.h2o_vol = 0 ∧ r.h2o_max = 0 ∧
      (toRow r).t_s = -75 ∧ (toRow r).t_s_0 = -75 ∧ (toRow r).t_s_l = -75 ∧
      r.z_s_l = 0 ∧ r.z_s = r.z_s_0 ∧ r.z_s ≤ 0 := by
  obtain ⟨c, ts, hc, hts⟩ := simulate_parts h
  obtain ⟨_, hO⟩ := records_inv hmax h hc
  obtain ⟨hm, _⟩ := mkEnv_ok hc
  intro r hr h0
  obtain ⟨s, a, t, hi, hsn⟩ := hO r hr
  obtain ⟨e1, e2, e3, e4, e5, e6, e7, e8, e9, e10, e11, e12, e13, e14, e15, _, e17, e18, _⟩ :=
    snapshot_snow hsn
  have hmx : 0 < c.max_z_s_0 := by rw [hm]; exact hmax
  rw [e15, hi.lc_zero_iff hmx] at h0
  obtain ⟨a1, a2, a3, a4, a5, a6, a7, a8, a9⟩ := hi.bare h0
  have hl : s.z_s_l = 0 := by
    rcases eq_or_lt_of_le hi.zl with h1 | h1
    · exact h1.symm
    · exfalso; rw [hi.full h1] at h0; linarith
  obtain ⟨b1, b2, b3⟩ := hi.one hl
  simp only [toRow]
  rw [e8, e9, e10, e1, e7, e5, e6, e14, e18, e17, e4, e2, e3, e11, e12, e13, a1, a2, a3, a4, a5, a6, a7,
    a8, a9, b1, b2, b3, hi.sum, hl]
  have e : T_NONE - FREEZE = -75 := by simp only [T_NONE, MIN_SNOW_TEMP]; ring
  refine ⟨rfl, rfl, rfl, rfl, by ring, rfl, rfl, rfl, rfl, rfl, e, e, e, rfl, by ring, by linarith⟩

/-! ## C41 -/

/-- C41 (negative result): the setting `relative_heights` has no influence on a run; measurement
heights are always taken above the ground, so the height above the snow is `z - z_s`. -/
theorem C41_relative_heights_ignored (g : Config) (b : Bool) (rows : List Rec)
    (file : Option (List OutRow)) :
    run { g with relative_heights := b } rows file = run g rows file := rfl

/-- C41: the turbulent scheme is always given the measurement heights minus the snow depth. -/
theorem C41_heights_above_ground (g : Config) (c : Env) (hc : mkEnv g = .ok c) (p p' : Phys)
    (r : HleOut) (h : h_le c p = .ok (r, p')) :
    ∃ sv es, sati p.input1.t_a = .ok sv ∧ sati p.snow.t_s_0 = .ok es ∧
      hle1 { press := c.P_a, air_temp := p.input1.t_a, surface_temp := p.snow.t_s_0,
             za := g.z_t - p.snow.z_s, ea := min p.input1.e_a sv, es := es,
             zq := g.z_t - p.snow.z_s, wind_speed := p.input1.u, zu := g.z_u - p.snow.z_s,
             z0 := g.init_z_0, init_ustar := p.init_ustar, init_factor := p.init_factor } = .ok r := by
  obtain ⟨sv, es, k1, k2, _, _, _, _, _, h⟩ := h_le_ok h
  obtain ⟨_, _, _, e4, e5, e6, e7, _, _⟩ := mkEnv_ok hc
  simp only [e5, e6, e7, e4, Bool.false_eq_true, if_false] at h
  exact ⟨sv, es, k1, k2, h⟩

end

end Pysnobal
