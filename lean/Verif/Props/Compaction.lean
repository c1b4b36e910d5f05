import Verif.Props.Water

/-! # C27, C28: compaction -/

namespace Pysnobal

noncomputable section

/-- A snow pack on the ground: positive density and depth, mass = density × depth. -/
structure OnGround (s : Snow) : Prop where
  cover : s.snowcover = true
  rho : 0 < s.rho
  depth : 0 < s.z_s
  mass : s.m_s = s.rho * s.z_s

/-- Compaction has made a pack denser: same mass, same liquid water, same surface cold content and
temperatures, still on the ground, strictly denser and strictly shallower. -/
structure Densified (s s' : Snow) : Prop where
  mass : s'.m_s = s.m_s
  rho : s.rho < s'.rho
  depth : s'.z_s < s.z_s
  ground : OnGround s'
  h2o : s'.h2o = s.h2o
  h2o_total : s'.h2o_total = s.h2o_total
  cc0 : s'.cc_s_0 = s.cc_s_0
  t_s : s'.t_s = s.t_s
  t_s_0 : s'.t_s_0 = s.t_s_0

/-- The pack was too light to keep: nothing is left of it and its mass has become liquid water. -/
structure Released (s s' : Snow) : Prop where
  mass : s'.m_s = 0
  layers : s'.layer_count = 0
  h2o_total : s'.h2o_total = s.h2o_total + s.m_s
  cover : s'.snowcover = false

/-- Setting the density of a pack to `r` and its depth to `m_s / r`. -/
theorem redensify {c : Env} (hmax : 0 < c.max_z_s_0) {s : Snow} (g : OnGround s) {r : ℝ} (hr : s.rho < r) :
    (c.small_threshold < s.m_s ∧ Densified s (adj_layers c { s with rho := r, z_s := s.m_s / r }) ∧
      (adj_layers c { s with rho := r, z_s := s.m_s / r }).rho = r) ∨
    (s.m_s ≤ c.small_threshold ∧ Released s (adj_layers c { s with rho := r, z_s := s.m_s / r })) := by
  have hr0 : 0 < r := g.rho.trans hr
  have hm : 0 < s.m_s := by rw [g.mass]; exact mul_pos g.rho g.depth
  have hz : s.m_s / r < s.z_s := by
    rw [div_lt_iff₀ hr0, g.mass, mul_comm]
    exact mul_lt_mul_of_pos_left hr g.depth
  rcases adj_layers_cases hmax { s with rho := r, z_s := s.m_s / r } with ⟨a, b, d, e, f⟩ | ⟨a, b⟩
  · left
    refine ⟨b, ⟨a.m_s, by rw [e]; exact hr, by rw [f]; exact hz,
      ⟨by rw [a.snowcover]; exact g.cover, by rw [e]; exact hr0, by rw [f]; exact d, ?_⟩,
      a.h2o, a.h2o_total, a.cc0, a.t_s, a.t_s_0⟩, e⟩
    rw [a.m_s, e, f]
    show s.m_s = r * (s.m_s / r)
    field_simp
  · right
    refine ⟨?_, a.m_s, a.lc, ?_, a.snowcover⟩
    · rcases b with b | b
      · exact b
      · exact absurd b (not_le.mpr (div_pos hm hr0))
    · rw [a.h2o_total]
      show s.h2o_total + max s.m_s 0 = s.h2o_total + s.m_s
      rw [max_eq_left hm.le]

/-! ## C27 -/

/-- Specification: relative increase of density per compaction time by the settling of the snow itself: one per
cent, at densities of 100 kg/m³ and more decaying by 4.6 % for every kg/m³, and by 4 % for every degree below
freezing (273.16 K). -/
def settling (rho t : ℝ) : ℝ :=
  0.01 * (if rho < 100 then 1 else Real.exp (-0.046 * (rho - 100))) * Real.exp (-0.04 * (273.16 - t))

/-- Specification: relative increase of density per compaction time by the load of a pack of mass `m`. -/
def overburden (rho t m : ℝ) : ℝ :=
  0.026 * m * Real.exp (-21 * rho / 999.87) * Real.exp (-0.08 * (273.16 - t))

/-- Specification: density of a pack of density `rho`, temperature `t` and mass `m` after `hours` of compaction by
gravity.  The compaction time falls from 48 hours for a thin pack to 1 hour at 2000 kg/m²; from there on every
step counts as one compaction time, whatever its length. -/
def gravityDensity (hours rho t m : ℝ) : ℝ :=
  rho * (1 + (settling rho t + overburden rho t m) *
    if m < 2000 then hours / (24.5 + 23.5 * Real.cos (Real.pi * m / 2000)) else 1)

/-- The compaction rate is positive for every pack mass and every positive step length. -/
theorem compactRate_pos {dt : ℝ} (hdt : 0 < dt) (s : Snow) :
    ∃ r, compactRate dt s = .ok r ∧ 0 < r ∧ (s.m_s < 2000 → 3600 / dt ≤ r) ∧
      1 / r = if s.m_s < 2000 then dt / 3600 / (24.5 + 23.5 * Real.cos (Real.pi * s.m_s / 2000)) else 1 := by
  unfold compactRate SWE_MAX R1 R2
  by_cases h : s.m_s ≥ 2000
  · rw [if_pos h]
    exact ⟨1, rfl, one_pos, fun h' => absurd h' (not_lt.mpr h), by rw [if_neg (not_lt.mpr h)]; norm_num⟩
  · rw [if_neg h]
    have h1 := Real.neg_one_le_cos (Real.pi * s.m_s / 2000)
    have h2 : (0 : ℝ) < dt / 3600 := by positivity
    have hn : (1 : ℝ) ≤ 23.5 * Real.cos (Real.pi * s.m_s / 2000) + 24.5 := by linarith
    refine ⟨_, pdiv_of_ne h2.ne', div_pos (by linarith) h2, fun _ => ?_,
      by rw [if_pos (not_le.mp h), one_div_div, add_comm]⟩
    rw [le_div_iff₀ h2]
    calc 3600 / dt * (dt / 3600) = 1 := by field_simp
      _ ≤ _ := hn

/-- C27: for every positive step length and every pack on the ground, gravity compaction completes;
a pack at or above 550 kg/m3 is left alone; a lighter one keeps its mass (and liquid water, cold content
and temperatures) and becomes strictly denser and shallower, its new density being that of the compaction law `gravityDensity`; a pack
not above the mass threshold is released as liquid water. -/
theorem C27_gravity_compaction (c : Env) (hmax : 0 < c.max_z_s_0) (dt : ℝ) (hdt : 0 < dt) (s : Snow)
    (g : OnGround s) : ∃ s', time_compact c dt s = .ok s' ∧
      (550 ≤ s.rho → s' = s) ∧
      (s.rho < 550 → c.small_threshold < s.m_s →
        Densified s s' ∧ s'.rho = gravityDensity (dt / 3600) s.rho s.t_s s.m_s) ∧
      (s.rho < 550 → s.m_s ≤ c.small_threshold → Released s s') := by
  obtain ⟨rate, hrate, hpos, _, hlaw⟩ := compactRate_pos hdt s
  have hm : 0 < s.m_s := by rw [g.mass]; exact mul_pos g.rho g.depth
  unfold time_compact
  by_cases h : s.rho ≥ 550
  · have : s.snowcover = false ∨ s.rho ≥ RHO_MAX := .inr h
    rw [if_pos this]
    exact ⟨s, rfl, fun _ => rfl, fun h' => absurd h' (not_lt.mpr h), fun h' => absurd h' (not_lt.mpr h)⟩
  · have : ¬ (s.snowcover = false ∨ s.rho ≥ RHO_MAX) := by
      rintro (h' | h')
      · rw [g.cover] at h'; cases h'
      · exact h h'
    rw [if_neg this, hrate]
    simp only [bind_ok, pdiv_of_ne hpos.ne', pure_ok]
    generalize hK : (if s.rho < 100 then (1 : ℝ) else Real.exp (-0.046 * (s.rho - 100))) = K
    have hKpos : 0 < K := by
      rw [← hK]; split
      · exact one_pos
      · exact Real.exp_pos _
    set d := 0.01 * K * Real.exp (-0.04 * (FREEZE - s.t_s)) / rate +
      0.026 * Real.exp (-0.08 * (FREEZE - s.t_s)) * s.m_s * Real.exp (-21 * (s.rho / RHO_W0)) / rate
      with hd
    have hdpos : 0 < d := by rw [hd]; positivity
    have hr : s.rho < s.rho + d * s.rho := by
      have := mul_pos hdpos g.rho; linarith
    rw [pdiv_of_ne (g.rho.trans hr).ne']
    refine ⟨_, rfl, fun h' => absurd h' h, fun _ ht => ?_, fun _ ht => ?_⟩
    · rcases redensify hmax g hr with ⟨_, k, e⟩ | ⟨k, _⟩
      · refine ⟨k, e.trans ?_⟩
        unfold gravityDensity settling overburden
        rw [← hlaw, hK, hd]
        unfold FREEZE RHO_W0
        have e1 : -21 * (s.rho / 999.87) = -21 * s.rho / 999.87 := by ring
        rw [e1]
        ring
      · exact absurd k (not_le.mpr ht)
    · rcases redensify hmax g hr with ⟨k, _⟩ | ⟨_, k⟩
      · exact absurd ht (not_le.mpr k)
      · exact k

/-- C27: without a snow cover gravity compaction changes nothing. -/
theorem C27_gravity_compaction_bare (c : Env) (dt : ℝ) (s : Snow) (h : s.snowcover = false) :
    time_compact c dt s = .ok s := by
  unfold time_compact
  rw [if_pos (.inl h)]

/-- C27, the step length: for packs of at least 2000 kg/m2 the result does not depend on the length of
the step, so that subdividing a step multiplies the compaction of deep packs. -/
theorem C27_deep_pack_ignores_step_length (c : Env) (dt dt' : ℝ) (s : Snow) (h : 2000 ≤ s.m_s) :
    time_compact c dt s = time_compact c dt' s := by
  have : compactRate dt s = compactRate dt' s := by
    unfold compactRate SWE_MAX
    rw [if_pos h, if_pos h]
  unfold time_compact
  rw [this]

/-! ## C28 -/

/-- The liquid water added in a step relative to the mass of the pack. -/
def addedWater (i : InputData) (s : Snow) : ℝ :=
  (s.melt + if i.precip_now = true then i.m_rain else 0) / s.m_s

/-- Specification: density of a pack of density `rho` after liquid water of `w` times its mass was added; the
distance to 550 kg/m³ shrinks to `0.4 / (w + 0.4)` of what it was. -/
def wetDensity (rho w : ℝ) : ℝ := 550 - (550 - rho) * (0.4 / (w + 0.4))

/-- C28: for every pack on the ground compaction by liquid water completes; with added water of at most
one millionth of the mass, or at densities of 550 kg/m3 and more, nothing is compacted; otherwise the pack
keeps its mass and becomes strictly denser and shallower without reaching 550 kg/m3 (its density is that of the
compaction law `wetDensity`), or, if it is not
above the mass threshold, is released as liquid water. -/
theorem C28_water_compaction (c : Env) (hmax : 0 < c.max_z_s_0) (i : InputData) (s : Snow)
    (g : OnGround s) : ∃ s', h2o_compact c i s = .ok s' ∧
      (addedWater i s ≤ 0.000001 ∨ 550 < s.rho → s' = s) ∧
      (0.000001 < addedWater i s → s.rho < 550 → c.small_threshold < s.m_s →
        Densified s s' ∧ s'.rho < 550 ∧ s'.rho = wetDensity s.rho (addedWater i s)) ∧
      (0.000001 < addedWater i s → s.rho < 550 → s.m_s ≤ c.small_threshold → Released s s') ∧
      (s.rho = 550 → c.small_threshold < s.m_s →
        s'.rho = s.rho ∧ s'.z_s = s.z_s ∧ s'.m_s = s.m_s ∧ s'.h2o_total = s.h2o_total) := by
  have hm : 0 < s.m_s := by rw [g.mass]; exact mul_pos g.rho g.depth
  have hadd : h2oAdded i s = .ok (addedWater i s) := by
    unfold h2oAdded addedWater
    by_cases hp : i.precip_now = true
    · simp only [hp, if_true, pdiv_of_ne hm.ne']
    · simp only [hp, if_false, pdiv_of_ne hm.ne', add_zero]; simp
  unfold h2o_compact
  by_cases h : s.rho > 550
  · have : s.snowcover = false ∨ s.rho > 550 := .inr h
    rw [if_pos this]
    exact ⟨s, rfl, fun _ => rfl, fun _ h' => absurd h' (by linarith), fun _ h' => absurd h' (by linarith),
      fun h' _ => ⟨rfl, rfl, rfl, rfl⟩⟩
  have hcov : ¬ (s.snowcover = false ∨ s.rho > 550) := by
    rintro (h' | h')
    · rw [g.cover] at h'; cases h'
    · exact h h'
  rw [if_neg hcov, hadd]
  dsimp only
  rw [bind_ok]
  by_cases hw : addedWater i s > 0.000001
  · rw [if_pos hw]
    have hw0 : 0 < addedWater i s := lt_trans (by norm_num) hw
    have hb : 0 < 1 + 0.4 / addedWater i s := by positivity
    have hb1 : 1 < 1 + 0.4 / addedWater i s := by
      have : 0 < 0.4 / addedWater i s := by positivity
      linarith
    rw [pdiv_of_ne hw0.ne', bind_ok, pdiv_of_ne hb.ne', bind_ok]
    have hle : s.rho ≤ 550 := not_lt.mp h
    have hq0 : 0 ≤ (550 - s.rho) / (1 + 0.4 / addedWater i s) := div_nonneg (by linarith) hb.le
    have hne : s.rho + (550 - s.rho) / (1 + 0.4 / addedWater i s) ≠ 0 := by
      have := g.rho; linarith
    simp only [pdiv_of_ne hne, bind_ok, pure_ok]
    refine ⟨_, rfl, ?_, ?_, ?_, ?_⟩
    · rintro (h' | h')
      · exact absurd h' (not_le.mpr hw)
      · exact absurd h' h
    · intro _ h1 h2
      have hr : s.rho < s.rho + (550 - s.rho) / (1 + 0.4 / addedWater i s) := by
        have : 0 < (550 - s.rho) / (1 + 0.4 / addedWater i s) := div_pos (by linarith) hb
        linarith
      have hlt : s.rho + (550 - s.rho) / (1 + 0.4 / addedWater i s) < 550 := by
        have : (550 - s.rho) / (1 + 0.4 / addedWater i s) < 550 - s.rho :=
          div_lt_self (by linarith) hb1
        linarith
      rcases redensify hmax g hr with ⟨_, k, e⟩ | ⟨k, _⟩
      · refine ⟨k, by rw [e]; exact hlt, e.trans ?_⟩
        unfold wetDensity
        have : addedWater i s + 0.4 ≠ 0 := by positivity
        have h3 : (1 + 0.4 / addedWater i s) = (addedWater i s + 0.4) / addedWater i s := by field_simp
        rw [h3]
        field_simp
        ring
      · exact absurd k (not_le.mpr h2)
    · intro _ h1 h2
      have hr : s.rho < s.rho + (550 - s.rho) / (1 + 0.4 / addedWater i s) := by
        have : 0 < (550 - s.rho) / (1 + 0.4 / addedWater i s) := div_pos (by linarith) hb
        linarith
      rcases redensify hmax g hr with ⟨k, _⟩ | ⟨_, k⟩
      · exact absurd h2 (not_le.mpr k)
      · exact k
    · intro h1 h2
      have e0 : (550 - s.rho) / (1 + 0.4 / addedWater i s) = 0 := by rw [h1]; simp
      rw [e0, add_zero]
      have hz : s.m_s / s.rho = s.z_s := by
        rw [g.mass]; field_simp [g.rho.ne']
      rcases adj_layers_cases hmax { s with rho := s.rho, z_s := s.m_s / s.rho } with
        ⟨a, b, d, e, f⟩ | ⟨a, b | b⟩
      · exact ⟨e, by rw [f]; exact hz, a.m_s, a.h2o_total⟩
      · exact absurd b (not_le.mpr h2)
      · exact absurd b (not_le.mpr (div_pos hm g.rho))
  · rw [if_neg hw]
    refine ⟨s, rfl, fun _ => rfl, fun h' => absurd h' hw, fun h' => absurd h' hw,
      fun _ _ => ⟨rfl, rfl, rfl, rfl⟩⟩

/-- C28: without a snow cover compaction by liquid water changes nothing. -/
theorem C28_water_compaction_bare (c : Env) (i : InputData) (s : Snow) (h : s.snowcover = false) :
    h2o_compact c i s = .ok s := by
  unfold h2o_compact
  rw [if_pos (.inl h)]

end

end Pysnobal
