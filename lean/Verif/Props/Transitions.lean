import Verif.Props.Cold
import Verif.Lemmas.WitnessRun

/-! # C46: what the layer bookkeeping does to the cold content

`adj_layers` recomputes the layers after depth, density or mass have been changed.  The pack `s` is the pack with
the new depth and mass and the old layers; the total cold content `cc_s` is what the energy balance relies on. -/

namespace Pysnobal

noncomputable section

/-- C46, splitting: when a one-layer pack becomes a two-layer pack, the surface layer keeps the cold content of
the whole pack and the new lower layer gets cold content of its own, so the pack ends up colder by exactly the
heat needed to warm the lower layer to freezing (`cp_ice · mass · (FREEZE − t_s)`). -/
theorem C46_split_creates_cold (c : Env) (hmax : 0 < c.max_z_s_0) (s : Snow) (h1 : s.layer_count = 1)
    (h2 : (adj_layers c s).layer_count = 2) (hl : s.cc_s_l = 0) (ht : s.t_s < FREEZE) :
    (adj_layers c s).cc_s_0 = s.cc_s_0 ∧
    (adj_layers c s).m_s_l = s.rho * (s.z_s - c.max_z_s_0) ∧
    (adj_layers c s).cc_s = s.cc_s - cp_ice s.t_s * (s.rho * (s.z_s - c.max_z_s_0)) * (FREEZE - s.t_s) ∧
    (0 < s.rho → 0 ≤ s.t_s → (adj_layers c s).cc_s < s.cc_s) := by
  have hp : 0 < (s.calc_layers c).layer_count := by
    by_contra hn
    have := (adj_layers_zero (c := c) (s := s) (by omega)).lc
    omega
  have a := adj_layers_pos hmax hp
  rw [a.lc] at h2
  have hz : (s.calc_layers c).z_s_l = s.z_s - c.max_z_s_0 ∧ c.max_z_s_0 < s.z_s := by
    rcases calc_cases c hmax s with k | k | k | k
    · omega
    · omega
    · omega
    · exact ⟨k.2.2.2.2.2.1, k.2.1⟩
  have hm : (adj_layers c s).m_s_l = s.rho * (s.z_s - c.max_z_s_0) := by rw [a.ml, a.zl, hz.1]
  have hc : (adj_layers c s).cc_s =
      s.cc_s - cp_ice s.t_s * (s.rho * (s.z_s - c.max_z_s_0)) * (FREEZE - s.t_s) := by
    unfold Snow.cc_s
    rw [a.cc0, (a.split h1 (by rw [a.lc]; exact h2)).2, hl, hm]
    unfold cold_content heat_stor
    rw [if_pos ht]
    ring
  refine ⟨a.cc0, hm, hc, fun hr ht0 => ?_⟩
  rw [hc]
  have := cp_ice_pos ht0
  have h3 : 0 < s.z_s - c.max_z_s_0 := by linarith [hz.2]
  have h4 : 0 < FREEZE - s.t_s := by linarith
  have : 0 < cp_ice s.t_s * (s.rho * (s.z_s - c.max_z_s_0)) * (FREEZE - s.t_s) := by positivity
  linarith

/-- C46, merging: when a two-layer pack becomes a one-layer pack, the cold content of its lower layer is
dropped. -/
theorem C46_merge_drops_cold (c : Env) (hmax : 0 < c.max_z_s_0) (s : Snow) (h2 : s.layer_count = 2)
    (h1 : (adj_layers c s).layer_count = 1) :
    (adj_layers c s).cc_s_0 = s.cc_s_0 ∧ (adj_layers c s).cc_s = s.cc_s - s.cc_s_l ∧
    (s.cc_s_l < 0 → s.cc_s < (adj_layers c s).cc_s) := by
  have hp : 0 < (s.calc_layers c).layer_count := by
    by_contra hn
    have := (adj_layers_zero (c := c) (s := s) (by omega)).lc
    omega
  have a := adj_layers_pos hmax hp
  have hc : (adj_layers c s).cc_s = s.cc_s - s.cc_s_l := by
    unfold Snow.cc_s
    rw [a.cc0, (a.merge h2 h1).2]; ring
  exact ⟨a.cc0, hc, fun h => by rw [hc]; linarith⟩

/-- C46, otherwise: without a change in the number of layers the cold content of each layer is unchanged, and a
pack that loses all its layers has none. -/
theorem C46_no_transition (c : Env) (hmax : 0 < c.max_z_s_0) (s : Snow)
    (hl : s.layer_count = 1 → s.cc_s_l = 0) (h0 : 0 < s.layer_count) :
    ((adj_layers c s).layer_count = s.layer_count →
      (adj_layers c s).cc_s_0 = s.cc_s_0 ∧ (adj_layers c s).cc_s_l = s.cc_s_l) ∧
    ((adj_layers c s).layer_count = 0 → (adj_layers c s).cc_s_0 = 0 ∧ (adj_layers c s).cc_s_l = 0) := by
  constructor
  · intro h
    have hp : 0 < (s.calc_layers c).layer_count := by
      by_contra hn
      have := (adj_layers_zero (c := c) (s := s) (by omega)).lc
      omega
    have a := adj_layers_pos hmax hp
    exact ⟨a.cc0, (a.keep (by omega) (by omega)).2⟩
  · intro h
    have h0' : (s.calc_layers c).layer_count = 0 := by
      by_contra hn
      have := (adj_layers_pos hmax (Nat.pos_of_ne_zero hn)).lc
      omega
    have a := adj_layers_zero h0'
    refine ⟨a.cc0, ?_⟩
    by_cases h2 : s.layer_count = 2
    · exact (a.two h2).2.1
    · have := lc_le_two s
      rw [(a.keep h2).2.1]
      exact hl (by omega)

/-- A layer bookkeeping call whose pack obeys the invariants of every reachable state (`Inv` but for the depth
and mass that were just changed). -/
example (vol : ℝ) : ∃ s t : Snow,
    s.layer_count = 1 ∧ InvL (calmEnv vol) s ∧ s.m_s = s.rho * s.z_s ∧
      (adj_layers (calmEnv vol) s).layer_count = 2 ∧ (adj_layers (calmEnv vol) s).cc_s < s.cc_s ∧
    t.layer_count = 2 ∧ InvL (calmEnv vol) t ∧ t.m_s = t.rho * t.z_s ∧
      (adj_layers (calmEnv vol) t).layer_count = 1 ∧ t.cc_s < (adj_layers (calmEnv vol) t).cc_s := by
  have hmax : 0 < (calmEnv vol).max_z_s_0 := by norm_num [calmEnv]
  obtain ⟨s, hs⟩ : ∃ s : Snow, s = { Snow.zero with z_s_0 := 0.2, z_s := 1, rho := 300, m_s := 300, t_s := 270, t_s_0 := 270, t_s_l := T_NONE, cc_s_0 := -100 } := ⟨_, rfl⟩
  obtain ⟨t, ht⟩ : ∃ t : Snow, t = { Snow.zero with z_s_0 := 0.25, z_s_l := 0.5, z_s := 0.2501, rho := 400, m_s := 100.04, t_s := 270, t_s_0 := 270, t_s_l := 270, cc_s_0 := -100, cc_s_l := -100 } := ⟨_, rfl⟩
  have s1 : s.layer_count = 1 := by subst hs; norm_num [Snow.layer_count, Snow.zero]
  have t2 : t.layer_count = 2 := by subst ht; norm_num [Snow.layer_count, Snow.zero]
  have s2 : (adj_layers (calmEnv vol) s).layer_count = 2 := by
    have e : (s.calc_layers (calmEnv vol)).layer_count = 2 := by
      subst hs; norm_num [Snow.layer_count, Snow.calc_layers, Snow.zero, calmEnv]
    rw [(adj_layers_pos hmax (by omega)).lc, e]
  have t1 : (adj_layers (calmEnv vol) t).layer_count = 1 := by
    have e : (t.calc_layers (calmEnv vol)).layer_count = 1 := by
      subst ht; norm_num [Snow.layer_count, Snow.calc_layers, Snow.zero, calmEnv]
    rw [(adj_layers_pos hmax (by omega)).lc, e]
  refine ⟨s, t, s1, ?_, ?_, s2, ?_, t2, ?_, ?_, t1, ?_⟩
  · subst hs; constructor <;> norm_num [Snow.zero]
  · subst hs; norm_num
  · exact (C46_split_creates_cold _ hmax s s1 s2 (by subst hs; rfl) (by subst hs; norm_num [FREEZE])).2.2.2
      (by subst hs; norm_num) (by subst hs; norm_num)
  · subst ht; constructor <;> norm_num [Snow.zero, calmEnv]
  · subst ht; norm_num
  · exact (C46_merge_drops_cold _ hmax t t2 t1).2.2 (by subst ht; norm_num)

end

end Pysnobal
