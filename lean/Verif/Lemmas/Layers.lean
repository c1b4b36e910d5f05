import Verif.Snobal

/-! # Lemmas about the layer bookkeeping (`calc_layers`, `adj_layers`, `adj_snow`, `init_snow`) -/

namespace Pysnobal

noncomputable section

/-- Temperature (K) the code stores for a layer that is not there. -/
abbrev T_NONE : ℝ := MIN_SNOW_TEMP + FREEZE

/-! ### `calc_layers` -/

/-- `calc_layers` only assigns the three depths. -/
theorem calc_layers_frame (c : Env) (s : Snow) :
    s.calc_layers c = { s with z_s := (s.calc_layers c).z_s, z_s_0 := (s.calc_layers c).z_s_0,
                               z_s_l := (s.calc_layers c).z_s_l } := by
  unfold Snow.calc_layers; split <;> rfl

@[simp] theorem calc_m_s (c : Env) (s : Snow) : (s.calc_layers c).m_s = s.m_s := by
  rw [calc_layers_frame]
@[simp] theorem calc_rho (c : Env) (s : Snow) : (s.calc_layers c).rho = s.rho := by
  rw [calc_layers_frame]
@[simp] theorem calc_h2o (c : Env) (s : Snow) : (s.calc_layers c).h2o = s.h2o := by
  rw [calc_layers_frame]
@[simp] theorem calc_h2o_total (c : Env) (s : Snow) : (s.calc_layers c).h2o_total = s.h2o_total := by
  rw [calc_layers_frame]
@[simp] theorem calc_cc0 (c : Env) (s : Snow) : (s.calc_layers c).cc_s_0 = s.cc_s_0 := by
  rw [calc_layers_frame]
@[simp] theorem calc_ccl (c : Env) (s : Snow) : (s.calc_layers c).cc_s_l = s.cc_s_l := by
  rw [calc_layers_frame]
@[simp] theorem calc_t_s (c : Env) (s : Snow) : (s.calc_layers c).t_s = s.t_s := by
  rw [calc_layers_frame]
@[simp] theorem calc_t_s_0 (c : Env) (s : Snow) : (s.calc_layers c).t_s_0 = s.t_s_0 := by
  rw [calc_layers_frame]
@[simp] theorem calc_t_s_l (c : Env) (s : Snow) : (s.calc_layers c).t_s_l = s.t_s_l := by
  rw [calc_layers_frame]
@[simp] theorem calc_m_s_0 (c : Env) (s : Snow) : (s.calc_layers c).m_s_0 = s.m_s_0 := by
  rw [calc_layers_frame]
@[simp] theorem calc_m_s_l (c : Env) (s : Snow) : (s.calc_layers c).m_s_l = s.m_s_l := by
  rw [calc_layers_frame]
@[simp] theorem calc_snowcover (c : Env) (s : Snow) : (s.calc_layers c).snowcover = s.snowcover := by
  rw [calc_layers_frame]

theorem lc_le_two (s : Snow) : s.layer_count ≤ 2 := by
  unfold Snow.layer_count; split <;> split <;> simp

theorem lc_eq_zero {s : Snow} : s.layer_count = 0 ↔ s.z_s_0 ≤ 0 ∧ s.z_s_l ≤ 0 := by
  unfold Snow.layer_count
  constructor
  · intro h
    constructor <;> by_contra hc <;> push Not at hc <;> simp [hc] at h
  · rintro ⟨h1, h2⟩
    simp [not_lt.mpr h1, not_lt.mpr h2]

theorem lc_eq_two {s : Snow} : s.layer_count = 2 ↔ 0 < s.z_s_0 ∧ 0 < s.z_s_l := by
  unfold Snow.layer_count
  constructor
  · intro h
    constructor <;> by_contra hc <;> simp [hc] at h <;> split at h <;> simp at h
  · rintro ⟨h1, h2⟩
    simp [h1, h2]

theorem lc_pos {s : Snow} : 0 < s.layer_count ↔ 0 < s.z_s_0 ∨ 0 < s.z_s_l := by
  rw [Nat.pos_iff_ne_zero, Ne, lc_eq_zero]
  constructor
  · intro h
    by_contra hc
    push Not at hc
    exact h hc
  · rintro (h | h) ⟨h1, h2⟩ <;> linarith

/-- Complete description of the layer split. -/
theorem calc_cases (c : Env) (hmax : 0 < c.max_z_s_0) (s : Snow) :
    (s.m_s ≤ c.small_threshold ∧ (s.calc_layers c).z_s = 0 ∧ (s.calc_layers c).z_s_0 = 0 ∧
      (s.calc_layers c).z_s_l = 0 ∧ (s.calc_layers c).layer_count = 0) ∨
    (c.small_threshold < s.m_s ∧ s.z_s ≤ 0 ∧ (s.calc_layers c).z_s = s.z_s ∧
      (s.calc_layers c).z_s_0 = s.z_s ∧ (s.calc_layers c).z_s_l = 0 ∧
      (s.calc_layers c).layer_count = 0) ∨
    (c.small_threshold < s.m_s ∧ 0 < s.z_s ∧
      (s.z_s ≤ c.max_z_s_0 ∨ (s.z_s - c.max_z_s_0) * s.rho < c.small_threshold) ∧
      (s.calc_layers c).z_s = s.z_s ∧ (s.calc_layers c).z_s_0 = s.z_s ∧
      (s.calc_layers c).z_s_l = 0 ∧ (s.calc_layers c).layer_count = 1) ∨
    (c.small_threshold < s.m_s ∧ c.max_z_s_0 < s.z_s ∧
      c.small_threshold ≤ (s.z_s - c.max_z_s_0) * s.rho ∧
      (s.calc_layers c).z_s = s.z_s ∧ (s.calc_layers c).z_s_0 = c.max_z_s_0 ∧
      (s.calc_layers c).z_s_l = s.z_s - c.max_z_s_0 ∧ (s.calc_layers c).layer_count = 2) := by
  by_cases hm : s.m_s ≤ c.small_threshold
  · left
    simp [Snow.calc_layers, hm, Snow.layer_count]
  · right
    have hm' := not_le.mp hm
    by_cases hz : s.z_s - c.max_z_s_0 > 0
    · right
      have hz0 : 0 < s.z_s := by linarith
      by_cases hr : (s.z_s - c.max_z_s_0) * s.rho < c.small_threshold
      · left
        refine ⟨hm', hz0, .inr hr, ?_⟩
        simp [Snow.calc_layers, hm, hz, hr, Snow.layer_count, hz0, -sub_pos]
      · right
        refine ⟨hm', by linarith, not_lt.mp hr, ?_⟩
        simp [Snow.calc_layers, hm, hz, hr, Snow.layer_count, hmax, -sub_pos]
    · have hz' : s.z_s ≤ c.max_z_s_0 := by linarith
      have hz'' : ¬ (s.z_s - c.max_z_s_0 > 0) := hz
      by_cases hp : 0 < s.z_s
      · right; left
        refine ⟨hm', hp, .inl hz', ?_⟩
        simp only [Snow.calc_layers, hm, hz'', if_false, Snow.layer_count, ite_self]
        simp [hp]
      · left
        refine ⟨hm', not_lt.mp hp, ?_⟩
        simp only [Snow.calc_layers, hm, hz'', if_false, Snow.layer_count, ite_self]
        simp [not_lt.mp hp]

/-! ### `adj_layers` -/

theorem calc_shape (c : Env) (s : Snow) : ∃ z a b,
    s.calc_layers c = { s with z_s := z, z_s_0 := a, z_s_l := b } :=
  ⟨_, _, _, calc_layers_frame c s⟩

/-- Fields neither `adj_layers` nor `adj_snow` touches. -/
structure SameFlux (s s' : Snow) : Prop where
  melt : s'.melt = s.melt
  swi : s'.swi = s.swi
  E_s : s'.E_s = s.E_s
  E : s'.E = s.E
  en : s'.en = s.en

theorem SameFlux.rfl' (s : Snow) : SameFlux s s := ⟨rfl, rfl, rfl, rfl, rfl⟩

/-- `adj_layers` when layers remain. -/
structure AdjPos (c : Env) (s s' : Snow) : Prop extends SameFlux s s' where
  m_s : s'.m_s = s.m_s
  rho : s'.rho = s.rho
  z_s : s'.z_s = s.z_s
  h2o : s'.h2o = s.h2o
  h2o_total : s'.h2o_total = s.h2o_total
  snowcover : s'.snowcover = s.snowcover
  h2o_sat : s'.h2o_sat = s.h2o_sat
  h2o_vol : s'.h2o_vol = s.h2o_vol
  h2o_max : s'.h2o_max = s.h2o_max
  cc0 : s'.cc_s_0 = s.cc_s_0
  t_s : s'.t_s = s.t_s
  t_s_0 : s'.t_s_0 = s.t_s_0
  z0 : s'.z_s_0 = (s.calc_layers c).z_s_0
  zl : s'.z_s_l = (s.calc_layers c).z_s_l
  lc : s'.layer_count = (s.calc_layers c).layer_count
  m0 : s'.m_s_0 = s.rho * s'.z_s_0
  ml : s'.m_s_l = s.rho * s'.z_s_l
  split : s.layer_count = 1 → s'.layer_count = 2 →
    s'.t_s_l = s.t_s ∧ s'.cc_s_l = cold_content s.t_s s'.m_s_l
  merge : s.layer_count = 2 → s'.layer_count = 1 → s'.t_s_l = T_NONE ∧ s'.cc_s_l = 0
  keep : ¬ (s.layer_count = 1 ∧ s'.layer_count = 2) → ¬ (s.layer_count = 2 ∧ s'.layer_count = 1) →
    s'.t_s_l = s.t_s_l ∧ s'.cc_s_l = s.cc_s_l

theorem adj_layers_pos {c : Env} (hmax : 0 < c.max_z_s_0) {s : Snow}
    (h : 0 < (s.calc_layers c).layer_count) : AdjPos c s (adj_layers c s) := by
  have hz : (s.calc_layers c).z_s = s.z_s := by
    rcases calc_cases c hmax s with h1 | h1 | h1 | h1
    · omega
    · omega
    · exact h1.2.2.2.1
    · exact h1.2.2.2.1
  obtain ⟨z, a, b, hfr⟩ := calc_shape c s
  generalize hs' : adj_layers c s = s'
  unfold adj_layers at hs'
  have hne : ¬ (s.calc_layers c).layer_count = 0 := by omega
  simp only [hne, if_false] at hs'
  have hlm : ((s.calc_layers c).layer_mass).layer_count = (s.calc_layers c).layer_count := rfl
  rw [hlm] at hs'
  have hz' : z = s.z_s := by rw [← hz, hfr]
  by_cases h12 : s.layer_count = 1 ∧ (s.calc_layers c).layer_count = 2
  · rw [if_pos h12] at hs'
    have hlc : s'.layer_count = (s.calc_layers c).layer_count := by subst hs'; rfl
    rw [hfr] at hs'
    constructor <;> first
      | exact hlc
      | (constructor <;> (subst hs'; rfl))
      | (rw [hfr]; subst hs'; subst hz'; rfl)
      | (subst hs'; subst hz'; rfl)
      | (intro h1 h2; exfalso; rw [hlc] at h2; omega)
      | (intro h1 h2; exfalso; rw [hlc] at h1; omega)
      | (intro h1 h2; exfalso; rw [hlc] at h1 h2; omega)
      | (intro _ _; subst hs'; exact ⟨rfl, rfl⟩)
  · rw [if_neg h12] at hs'
    by_cases h21 : s.layer_count = 2 ∧ (s.calc_layers c).layer_count = 1
    · rw [if_pos h21] at hs'
      have hlc : s'.layer_count = (s.calc_layers c).layer_count := by subst hs'; rfl
      rw [hfr] at hs'
      constructor <;> first
        | exact hlc
        | (constructor <;> (subst hs'; rfl))
        | (rw [hfr]; subst hs'; subst hz'; rfl)
        | (subst hs'; subst hz'; rfl)
        | (intro h1 h2; exfalso; rw [hlc] at h2; omega)
        | (intro h1 h2; exfalso; rw [hlc] at h1; omega)
        | (intro h1 h2; exfalso; rw [hlc] at h1 h2; omega)
        | (intro _ _; subst hs'; exact ⟨rfl, rfl⟩)
    · rw [if_neg h21] at hs'
      have hlc : s'.layer_count = (s.calc_layers c).layer_count := by subst hs'; rfl
      rw [hfr] at hs'
      constructor <;> first
        | exact hlc
        | (constructor <;> (subst hs'; rfl))
        | (rw [hfr]; subst hs'; subst hz'; rfl)
        | (subst hs'; subst hz'; rfl)
        | (intro h1 h2; exfalso; rw [hlc] at h2; omega)
        | (intro h1 h2; exfalso; rw [hlc] at h1; omega)
        | (intro h1 h2; exfalso; rw [hlc] at h1 h2; omega)
        | (intro _ _; subst hs'; exact ⟨rfl, rfl⟩)

/-- `adj_layers` when no layer remains. -/
structure AdjZero (c : Env) (s s' : Snow) : Prop extends SameFlux s s' where
  m_s : s'.m_s = 0
  rho : s'.rho = 0
  h2o : s'.h2o = 0
  h2o_total : s'.h2o_total = s.h2o_total + max s.m_s 0
  snowcover : s'.snowcover = false
  h2o_sat : s'.h2o_sat = 0
  h2o_vol : s'.h2o_vol = 0
  h2o_max : s'.h2o_max = 0
  cc0 : s'.cc_s_0 = 0
  t_s : s'.t_s = T_NONE
  t_s_0 : s'.t_s_0 = T_NONE
  lc : s'.layer_count = 0
  m0 : s'.m_s_0 = 0
  z_s : s'.z_s = (s.calc_layers c).z_s
  z0 : s'.z_s_0 = (s.calc_layers c).z_s_0
  zl : s'.z_s_l = (s.calc_layers c).z_s_l
  two : s.layer_count = 2 → s'.m_s_l = 0 ∧ s'.cc_s_l = 0 ∧ s'.t_s_l = T_NONE
  keep : s.layer_count ≠ 2 → s'.m_s_l = s.m_s_l ∧ s'.cc_s_l = s.cc_s_l ∧ s'.t_s_l = s.t_s_l

theorem adj_layers_zero {c : Env} {s : Snow} (h : (s.calc_layers c).layer_count = 0) :
    AdjZero c s (adj_layers c s) := by
  generalize hs' : adj_layers c s = s'
  obtain ⟨z, a, b, hfr⟩ := calc_shape c s
  unfold adj_layers at hs'
  have hmx : (if (s.calc_layers c).m_s > 0 then (s.calc_layers c).h2o_total + (s.calc_layers c).m_s
      else (s.calc_layers c).h2o_total) = s.h2o_total + max s.m_s 0 := by
    simp only [calc_m_s, calc_h2o_total]
    split
    · rw [max_eq_left]; linarith
    · rw [max_eq_right] <;> linarith
  have h0 := h
  simp only [h, if_true] at hs'
  rw [hmx] at hs'
  rw [hfr] at hs' h0
  by_cases h2 : s.layer_count = 2
  · rw [if_pos h2] at hs'
    constructor <;> first
      | (rw [hfr]; subst hs'; rfl)
      | (subst hs'; first | rfl | exact h0)
      | (intro h3; exact absurd h2 h3)
      | (intro _; subst hs'; exact ⟨rfl, rfl, rfl⟩)
      | (constructor <;> (subst hs'; rfl))
  · rw [if_neg h2] at hs'
    constructor <;> first
      | (rw [hfr]; subst hs'; rfl)
      | (subst hs'; first | rfl | exact h0)
      | (intro h3; exact absurd h3 h2)
      | (intro _; subst hs'; exact ⟨rfl, rfl, rfl⟩)
      | (constructor <;> (subst hs'; rfl))

end

end Pysnobal
