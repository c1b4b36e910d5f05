import Verif.Props.Retention
import Verif.Lemmas.StepRecords

/-! # C53: what the retention capacity is -/

namespace Pysnobal

noncomputable section

/-- The water (kg/m2) that fits into the fraction `v` of the pore space of a pack of depth `z` (m) whose
solid part (ice) weighs `m_ice` (kg/m2): the pores are the depth minus the depth of the solid ice. -/
def poreWater (v z m_ice : ℝ) : ℝ := v * RHO_W0 * (z - m_ice / RHO_ICE)

theorem h2o_left_pore {v z m : ℝ} (hz : z ≠ 0) : h2o_left z (m / z) v = poreWater v z m := by
  unfold h2o_left poreWater
  have : (RHO_ICE : ℝ) ≠ 0 := by norm_num [RHO_ICE]
  field_simp

/-- The water computed by `init_snow` leaves exactly the dry density it was computed from. -/
theorem fresh_pore {v z rho sat d : ℝ}
    (h : 1 - sat * v * RHO_W0 / RHO_ICE ≠ 0)
    (hd : d = (rho - sat * v * RHO_W0) / (1 - sat * v * RHO_W0 / RHO_ICE)) :
    h2o_left z d v = poreWater v z (rho * z - sat * h2o_left z d v) := by
  have hi : (RHO_ICE : ℝ) ≠ 0 := by norm_num [RHO_ICE]
  have h1 : d * (1 - sat * v * RHO_W0 / RHO_ICE) = rho - sat * v * RHO_W0 := by
    rw [hd, div_mul_cancel₀ _ h]
  have h2 : d * RHO_ICE - d * (sat * v * RHO_W0) = (rho - sat * v * RHO_W0) * RHO_ICE := by
    rw [← h1]; field_simp
  unfold h2o_left poreWater
  field_simp
  linear_combination (-1) * z * v * RHO_W0 * h2

theorem StepChain.capacity_eq {c : Env} {dt : ℝ} {dl : InputData} {p p' : Phys}
    {s0 s1 s2 s3 s4 s5 s6 : Snow} (hmax : 0 < c.max_z_s_0)
    (k : StepChain c dt dl p p' s0 s1 s2 s3 s4 s5 s6) (hl : 0 < p'.snow.layer_count) :
    p'.snow.h2o_max = poreWater c.max_h2o_vol p'.snow.z_s (p'.snow.m_s - p'.snow.h2o) := by
  cases hs : p'.snow.snowcover
  · rcases k.ended hmax hs with h | ⟨hp, hm, t, ht, hlt, e⟩
    · omega
    · rcases init_snow_out hmax ht with h | h
      · obtain ⟨_, h2, d, h0, h3, h4, _, h4', _, h5, h6, h7, h8, _⟩ := h
        have e1 : p'.snow.h2o_max = t.h2o_max ∧ p'.snow.z_s = t.z_s ∧ p'.snow.m_s = t.m_s ∧
            p'.snow.h2o = t.h2o := by rw [e]; exact ⟨rfl, rfl, rfl, rfl⟩
        rw [e1.1, e1.2.1, e1.2.2.1, e1.2.2.2, h4, h4', h6, h5]
        exact fresh_pore h0 h3
      · obtain ⟨_, _, _, _, hz0, hzl, _⟩ := h
        have : t.layer_count = 0 := lc_eq_zero.mpr ⟨hz0, hzl.le⟩
        omega
  · obtain ⟨f6, f5, _⟩ := k.persist hmax hs
    obtain ⟨_, _, d3, d4, d5, d6, _, _, _, _, _, _, _, _, _, _, _, d7, d9⟩ := k.drained hmax f5
    have hz := k.i5.z_pos (k.i5.flag f5)
    have e : p'.snow.h2o_max = s6.h2o_max ∧ p'.snow.z_s = s6.z_s ∧ p'.snow.m_s = s6.m_s ∧
        p'.snow.h2o = s6.h2o := by rw [k.frame7]; exact ⟨rfl, rfl, rfl, rfl⟩
    rw [e.1, e.2.1, e.2.2.1, e.2.2.2, d3, d7, d4]
    unfold capacity
    rw [h2o_left_pore hz.ne']
    congr 1
    linarith

/-- C53, run step: whenever a run step leaves snow layers, the retention capacity is exactly the water
that fits into the configured fraction of the pore space of the pack: its depth minus the depth its ice
(the mass without the retained water) would have as solid ice. -/
theorem C53_capacity_step (g : Config) (hmax : 0 < g.max_active) (rows : List Rec)
    (ls : List (List (RStep Phys))) (m : Model) (h : RunTrace g rows ls m) :
    ∀ l ∈ ls, ∀ x ∈ l, 0 < x.post.snow.layer_count →
      x.post.snow.h2o_max = g.max_h2o * RHO_W0 *
        (x.post.snow.z_s - (x.post.snow.m_s - x.post.snow.h2o) / RHO_ICE) := by
  obtain ⟨c, ts, hc, hts, hm, hx⟩ := trace_step hmax h
  intro l hl x hxl hlc
  obtain ⟨d, h1, h2, h3⟩ := hx l hl x hxl
  obtain ⟨s0, s1, s2, s3, s4, s5, s6, k⟩ := step_chain hm h1 h3
  rw [k.capacity_eq hm hlc, (mkEnv_ok hc).2.2.1]
  rfl

/-- C53, records: the same holds in every record that shows snow layers. -/
theorem C53_capacity_records (g : Config) (hg : g.Tiled) (hmax : 0 < g.max_active) (rows : List Rec)
    (m : Model) (h : simulate g rows = .ok m) :
    ∀ r ∈ m.output_list, 0 < r.layer_count →
      r.h2o_max = g.max_h2o * RHO_W0 * (r.z_s - (r.m_s - r.h2o) / RHO_ICE) := by
  obtain ⟨ls, ht⟩ := simulate_trace h
  intro r hr hl
  obtain ⟨l, hl', x, hx, a, t, hs⟩ := ht.shown hg r hr
  have := C53_capacity_step g hmax rows ls m ht l hl' x hx
  obtain ⟨_, _, _, _, _, _, _, w1, _, _, w2, _, _, _, w3, w4, w5, _⟩ := snapshot_snow hs
  rw [w5, w2, w1, w4]
  exact this (by rw [← w3]; exact hl)

end

end Pysnobal
