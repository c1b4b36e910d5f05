import Verif.Lemmas.Layers

/-! # The structural invariant of the snow pack and its preservation by a run step -/

namespace Pysnobal

noncomputable section

/-- What every state between run steps satisfies. -/
structure Inv (c : Env) (s : Snow) : Prop where
  sum : s.z_s = s.z_s_0 + s.z_s_l
  zl : 0 ≤ s.z_s_l
  full : 0 < s.z_s_l → s.z_s_0 = c.max_z_s_0
  one : s.z_s_l = 0 → s.m_s_l = 0 ∧ s.cc_s_l = 0 ∧ s.t_s_l = T_NONE
  bare : s.z_s_0 ≤ 0 → s.m_s = 0 ∧ s.m_s_0 = 0 ∧ s.rho = 0 ∧ s.cc_s_0 = 0 ∧ s.t_s = T_NONE ∧
    s.t_s_0 = T_NONE ∧ s.h2o_sat = 0 ∧ s.h2o_vol = 0 ∧ s.h2o_max = 0
  pack : 0 < s.z_s_0 → s.m_s = s.rho * s.z_s ∧ s.m_s_0 = s.rho * s.z_s_0 ∧ s.m_s_l = s.rho * s.z_s_l
  flag : s.snowcover = true → 0 < s.z_s_0

/-- The part of `Inv` that concerns the layers before they are recomputed. -/
structure InvL (c : Env) (s : Snow) : Prop where
  z0 : 0 < s.z_s_0
  zl : 0 ≤ s.z_s_l
  full : 0 < s.z_s_l → s.z_s_0 = c.max_z_s_0
  one : s.z_s_l = 0 → s.m_s_l = 0 ∧ s.cc_s_l = 0 ∧ s.t_s_l = T_NONE

theorem Inv.toL {c : Env} {s : Snow} (h : Inv c s) (h0 : 0 < s.z_s_0) : InvL c s :=
  ⟨h0, h.zl, h.full, h.one⟩

theorem Inv.z_pos {c : Env} {s : Snow} (h : Inv c s) (h0 : 0 < s.z_s_0) : 0 < s.z_s := by
  rw [h.sum]; linarith [h.zl]

theorem Inv.lc_pos_iff {c : Env} (hmax : 0 < c.max_z_s_0) {s : Snow} (h : Inv c s) :
    0 < s.layer_count ↔ 0 < s.z_s_0 := by
  rw [lc_pos]
  constructor
  · rintro (h1 | h1)
    · exact h1
    · rw [h.full h1]; exact hmax
  · exact .inl

theorem Inv.lc_zero_iff {c : Env} (hmax : 0 < c.max_z_s_0) {s : Snow} (h : Inv c s) :
    s.layer_count = 0 ↔ s.z_s_0 ≤ 0 := by
  rw [← not_lt, ← h.lc_pos_iff hmax]; omega

theorem InvL.lc {c : Env} {s : Snow} (h : InvL c s) :
    (s.z_s_l = 0 → s.layer_count = 1) ∧ (0 < s.z_s_l → s.layer_count = 2) := by
  have := h.z0
  constructor
  · intro h1
    simp [Snow.layer_count, h1, this]
  · intro h1
    simp [Snow.layer_count, h1, this]

theorem adj_layers_inv {c : Env} (hmax : 0 < c.max_z_s_0) {s : Snow} (h : InvL c s)
    (hm : 0 < s.z_s → s.m_s = s.rho * s.z_s) (hf : s.snowcover = true → True) :
    Inv c (adj_layers c s) := by
  by_cases h0 : (s.calc_layers c).layer_count = 0
  · have a := adj_layers_zero h0
    generalize adj_layers c s = s' at a
    have hz : s'.z_s_0 ≤ 0 ∧ s'.z_s_l = 0 ∧ s'.z_s = s'.z_s_0 := by
      rw [a.z0, a.zl, a.z_s]
      rcases calc_cases c hmax s with h1 | h1 | h1 | h1
      · obtain ⟨_, e1, e2, e3, _⟩ := h1
        rw [e1, e2, e3]; simp
      · obtain ⟨_, hz, e1, e2, e3, _⟩ := h1
        rw [e1, e2, e3]; simp [hz]
      · omega
      · omega
    refine ⟨?_, ?_, ?_, ?_, ?_, ?_, ?_⟩
    · rw [hz.2.2, hz.2.1]; ring
    · rw [hz.2.1]
    · intro h1; rw [hz.2.1] at h1; exact absurd h1 (lt_irrefl _)
    · intro _
      rcases eq_or_lt_of_le h.zl with hl | hl
      · have := h.lc.1 hl.symm
        have k := a.keep (by omega)
        have o := h.one hl.symm
        rw [k.1, k.2.1, k.2.2]; exact o
      · exact a.two (h.lc.2 hl)
    · intro _
      exact ⟨a.m_s, a.m0, a.rho, a.cc0, a.t_s, a.t_s_0, a.h2o_sat, a.h2o_vol, a.h2o_max⟩
    · intro h1; linarith [hz.1]
    · intro h1; rw [a.snowcover] at h1; simp at h1
  · have a := adj_layers_pos hmax (s := s) (by omega)
    generalize adj_layers c s = s' at a
    rcases calc_cases c hmax s with h1 | h1 | h1 | h1
    · omega
    · omega
    · obtain ⟨_, hz, _, e1, e2, e3, e4⟩ := h1
      have hl : s'.z_s_l = 0 := by rw [a.zl, e3]
      have h0' : s'.z_s_0 = s.z_s := by rw [a.z0, e2]
      refine ⟨?_, ?_, ?_, ?_, ?_, ?_, ?_⟩
      · rw [a.z_s, hl, h0']; ring
      · rw [hl]
      · intro h2; rw [hl] at h2; exact absurd h2 (lt_irrefl _)
      · intro _
        refine ⟨by rw [a.ml, hl, mul_zero], ?_⟩
        have hlc' : s'.layer_count = 1 := by rw [a.lc, e4]
        rcases eq_or_lt_of_le h.zl with hz2 | hz2
        · have h3 := h.lc.1 hz2.symm
          have k := a.keep (by omega) (by omega)
          have o := h.one hz2.symm
          exact ⟨k.2.trans o.2.1, k.1.trans o.2.2⟩
        · have h3 := h.lc.2 hz2
          have k := a.merge h3 hlc'
          exact ⟨k.2, k.1⟩
      · intro h2; linarith
      · intro _
        refine ⟨by rw [a.m_s, a.rho, a.z_s]; exact hm hz, by rw [a.m0, a.rho], by rw [a.ml, a.rho]⟩
      · intro _; rw [h0']; exact hz
    · obtain ⟨_, hz, _, e1, e2, e3, e4⟩ := h1
      have hl : s'.z_s_l = s.z_s - c.max_z_s_0 := by rw [a.zl, e3]
      have h0' : s'.z_s_0 = c.max_z_s_0 := by rw [a.z0, e2]
      refine ⟨?_, ?_, ?_, ?_, ?_, ?_, ?_⟩
      · rw [a.z_s, hl, h0']; ring
      · rw [hl]; linarith
      · intro _; exact h0'
      · intro h2; rw [hl] at h2; linarith
      · intro h2; linarith
      · intro _
        refine ⟨by rw [a.m_s, a.rho, a.z_s]; exact hm (by linarith), by rw [a.m0, a.rho],
          by rw [a.ml, a.rho]⟩
      · intro _; rw [h0']; exact hmax

/-! ### `adj_snow` as a case distinction -/

/-- The density `adj_snow` computes before clipping. -/
def adjRho (dz dm : ℝ) (s : Snow) : ℝ := if s.z_s + dz ≠ 0 then (s.m_s + dm) / (s.z_s + dz) else 0

theorem adj_snow_clip {c : Env} {dz dm : ℝ} {s : Snow} (h : adjRho dz dm s > 600) :
    adj_snow c dz dm s = adj_layers c { s with z_s := (s.m_s + dm) / 600, m_s := s.m_s + dm,
                                               rho := 600 } := by
  unfold adjRho at h
  unfold adj_snow
  simp only [MAX_SNOW_DENSITY]
  rw [if_pos h]

theorem adj_snow_move {c : Env} {dz dm : ℝ} {s : Snow} (h : ¬ adjRho dz dm s > 600) (hz : dz ≠ 0) :
    adj_snow c dz dm s = adj_layers c { s with z_s := s.z_s + dz, m_s := s.m_s + dm,
                                               rho := adjRho dz dm s } := by
  unfold adjRho at h
  unfold adj_snow
  simp only [MAX_SNOW_DENSITY]
  rw [if_neg h, if_pos hz]
  rfl

theorem adj_snow_still {c : Env} {dm : ℝ} {s : Snow} (h : ¬ adjRho 0 dm s > 600) :
    adj_snow c 0 dm s = { s with m_s := s.m_s + dm, rho := adjRho 0 dm s,
                                 m_s_0 := adjRho 0 dm s * s.z_s_0,
                                 m_s_l := adjRho 0 dm s * s.z_s_l } := by
  unfold adjRho at h
  unfold adj_snow
  simp only [MAX_SNOW_DENSITY]
  rw [if_neg h]
  simp [Snow.layer_mass, adjRho]

theorem InvL.frame {c : Env} {s s' : Snow} (h : InvL c s) (h1 : s'.z_s_0 = s.z_s_0)
    (h2 : s'.z_s_l = s.z_s_l) (h3 : s'.m_s_l = s.m_s_l) (h4 : s'.cc_s_l = s.cc_s_l)
    (h5 : s'.t_s_l = s.t_s_l) : InvL c s' := by
  refine ⟨by rw [h1]; exact h.z0, by rw [h2]; exact h.zl, ?_, ?_⟩
  · rw [h1, h2]; exact h.full
  · rw [h2, h3, h4, h5]; exact h.one

theorem adj_snow_inv {c : Env} (hmax : 0 < c.max_z_s_0) {s : Snow} (h : Inv c s) (h0 : 0 < s.z_s_0)
    (dz dm : ℝ) : Inv c (adj_snow c dz dm s) := by
  have hL := h.toL h0
  by_cases hr : adjRho dz dm s > 600
  · rw [adj_snow_clip hr]
    refine adj_layers_inv hmax (hL.frame rfl rfl rfl rfl rfl) ?_ (fun _ => trivial)
    intro _
    show s.m_s + dm = 600 * ((s.m_s + dm) / 600)
    ring
  · by_cases hz : dz = 0
    · subst hz
      rw [adj_snow_still hr]
      have hzp := h.z_pos h0
      have hrho : adjRho 0 dm s = (s.m_s + dm) / s.z_s := by
        unfold adjRho; simp [hzp.ne']
      refine ⟨h.sum, h.zl, h.full, ?_, ?_, ?_, fun _ => h0⟩
      · intro hl
        have := h.one hl
        refine ⟨?_, this.2⟩
        show adjRho 0 dm s * s.z_s_l = 0
        rw [show s.z_s_l = 0 from hl, mul_zero]
      · intro h1; exact absurd h0 (not_lt.mpr h1)
      · intro _
        refine ⟨?_, rfl, rfl⟩
        show s.m_s + dm = adjRho 0 dm s * s.z_s
        rw [hrho]; field_simp
    · rw [adj_snow_move hr hz]
      refine adj_layers_inv hmax (hL.frame rfl rfl rfl rfl rfl) ?_ (fun _ => trivial)
      intro hz1
      show s.m_s + dm = adjRho dz dm s * (s.z_s + dz)
      have hz2 : s.z_s + dz ≠ 0 := ne_of_gt hz1
      unfold adjRho
      rw [if_pos hz2]; field_simp

/-! ### `init_snow` -/

theorem initWater_ok {c : Env} {s s' : Snow} (h : initWater c s = .ok s') :
    ∃ d, 1 - s.h2o_sat * c.max_h2o_vol * RHO_W0 / RHO_ICE ≠ 0 ∧
      d = (s.rho - s.h2o_sat * c.max_h2o_vol * RHO_W0) /
          (1 - s.h2o_sat * c.max_h2o_vol * RHO_W0 / RHO_ICE) ∧
      s' = { s with h2o_vol := s.h2o_sat * c.max_h2o_vol,
                    h2o_max := h2o_left s.z_s d c.max_h2o_vol,
                    h2o := s.h2o_sat * h2o_left s.z_s d c.max_h2o_vol } := by
  unfold initWater Snow.dry_snow_density at h
  obtain ⟨d, hd, h⟩ := bind_eq_ok.mp h
  rw [pdiv_eq_ok] at hd
  simp only [pure_ok, Except.ok.injEq] at h
  exact ⟨d, hd.1, hd.2, h.symm⟩

theorem init_snow_inv {c : Env} (hmax : 0 < c.max_z_s_0) {s s' : Snow}
    (h : init_snow c s = .ok s') (hf : s.snowcover = false) : Inv c s' := by
  unfold init_snow initLayers at h
  obtain ⟨z, a, b, hfr⟩ := calc_shape c { s with m_s := s.rho * s.z_s }
  have hc := calc_cases c hmax { s with m_s := s.rho * s.z_s }
  generalize Snow.calc_layers c { s with m_s := s.rho * s.z_s } = s1 at h hc hfr
  by_cases h0 : s1.layer_count = 0
  · rw [if_pos h0] at h
    simp only [Except.ok.injEq] at h
    have hz : s1.z_s_0 ≤ 0 ∧ s1.z_s_l = 0 ∧ s1.z_s = s1.z_s_0 := by
      rcases hc with h1 | h1 | h1 | h1
      · obtain ⟨_, e1, e2, e3, _⟩ := h1
        rw [e1, e2, e3]; simp
      · obtain ⟨_, hz, e1, e2, e3, _⟩ := h1
        rw [e1, e2, e3]; simpa using hz
      · omega
      · omega
    have hs : s1.snowcover = false := by rw [hfr]; exact hf
    subst h
    refine ⟨?_, ?_, ?_, ?_, ?_, ?_, ?_⟩
    · show s1.z_s = s1.z_s_0 + s1.z_s_l
      rw [hz.2.2, hz.2.1]; ring
    · show 0 ≤ s1.z_s_l
      rw [hz.2.1]
    · intro h1; exact absurd h1 (by show ¬ 0 < s1.z_s_l; rw [hz.2.1]; exact lt_irrefl _)
    · intro _; exact ⟨rfl, rfl, rfl⟩
    · intro _; exact ⟨rfl, rfl, rfl, rfl, rfl, rfl, rfl, rfl, rfl⟩
    · intro h1; exact absurd h1 (not_lt.mpr hz.1)
    · intro h1
      have h2 : s1.snowcover = true := h1
      rw [hs] at h2; simp at h2
  · rw [if_neg h0] at h
    have hpos : 0 < s1.z_s_0 ∧ s1.z_s = s1.z_s_0 + s1.z_s_l ∧ 0 ≤ s1.z_s_l ∧
        (0 < s1.z_s_l → s1.z_s_0 = c.max_z_s_0) ∧ (s1.z_s_l = 0 ↔ s1.layer_count ≠ 2) ∧
        s1.z_s = s.z_s := by
      rcases hc with h1 | h1 | h1 | h1
      · omega
      · omega
      · obtain ⟨_, hz, _, e1, e2, e3, e4⟩ := h1
        simp only at hz e1 e2
        rw [e1, e2, e3, e4]; simp [hz]
      · obtain ⟨_, hz, _, e1, e2, e3, e4⟩ := h1
        simp only at hz e1 e2 e3
        rw [e1, e2, e3, e4]; simp [hmax]
        exact ⟨by linarith, by intro h; linarith⟩
    obtain ⟨h1, h2, h3, h4, h5, h6⟩ := hpos
    have hm : s1.m_s = s1.rho * s1.z_s := by
      rw [h6, hfr]
    obtain ⟨d, _, _, h⟩ := initWater_ok h
    subst h
    refine ⟨h2, h3, h4, ?_, ?_, ?_, fun _ => h1⟩
    · intro hl
      have hl' : s1.z_s_l = 0 := hl
      have h22 := h5.mp hl'
      refine ⟨?_, ?_, ?_⟩
      · show s1.rho * s1.z_s_l = 0
        rw [hl', mul_zero]
      · simp [initCold, h22]
      · simp [initCold, h22]
    · intro hl; exact absurd h1 (not_lt.mpr hl)
    · intro _; exact ⟨hm, rfl, rfl⟩

end

end Pysnobal
