import Verif.Lemmas.Fresh
import Verif.Props.Water

/-! # C26, C29: liquid water retention and the density limit -/

namespace Pysnobal

noncomputable section

/-! ## C26 -/

/-- C26, run step: after every run step (of a simulation with admissible data) through which the snow
cover lasts, the retained water lies between zero and the retention capacity, the saturation is the
filled fraction of that capacity, water runs off only from an exactly saturated pack, and retained water
plus runoff is all the liquid water there is. -/
theorem C26_retention_step (g : Config) (hg : g.Tiled) (ha : g.AdmissibleStart) (rows : List Rec)
    (hr : ∀ r ∈ rows, r.Admissible) (ls : List (List (RStep Phys))) (m : Model)
    (h : RunTrace g rows ls m) : ∀ l ∈ ls, ∀ x ∈ l, x.post.snow.snowcover = true →
      (0 ≤ x.post.snow.h2o ∧ x.post.snow.h2o ≤ x.post.snow.h2o_max) ∧
      (0 ≤ x.post.snow.h2o_sat ∧ x.post.snow.h2o_sat ≤ 1) ∧
      x.post.snow.h2o = x.post.snow.h2o_sat * x.post.snow.h2o_max ∧
      x.post.snow.h2o_vol = x.post.snow.h2o_sat * g.max_h2o ∧
      (0 < x.post.snow.swi → x.post.snow.h2o_sat = 1 ∧ x.post.snow.h2o = x.post.snow.h2o_max) ∧
      x.post.snow.h2o + x.post.snow.swi = x.post.snow.h2o_total := by
  obtain ⟨c, ts, hc, hts, ho, ht, hx⟩ := trace_closed hg ha hr h
  have hv : c.max_h2o_vol = g.max_h2o := (mkEnv_ok hc).2.2.1
  intro l hl x hxl hs
  obtain ⟨d, ⟨h1, h1'⟩, h2, hf, h3, kc⟩ := hx l hl x hxl
  obtain ⟨s0, s1, s2, s3, s4, s5, s6, k⟩ := step_chain ho.max_z h1 h3
  obtain ⟨f6, f5, _⟩ := k.persist ho.max_z hs
  obtain ⟨_, _, d3, _, d5, d6, _, _, _, _, _, _, _, _, _, _, _, _, d9⟩ := k.drained ho.max_z f5
  have q1 := kc.h2o
  have q2 := kc.swi
  have qm : 0 ≤ x.post.snow.h2o_max := by
    rcases kc.max with h | h
    · exact h
    · rw [hs] at h; cases h
  have e : x.post.snow.h2o = s6.h2o ∧ x.post.snow.swi = s6.swi ∧ x.post.snow.h2o_max = s6.h2o_max ∧
      x.post.snow.h2o_sat = s6.h2o_sat ∧ x.post.snow.h2o_vol = s6.h2o_vol ∧
      x.post.snow.h2o_total = s6.h2o_total := by
    rw [k.frame7]; exact ⟨rfl, rfl, rfl, rfl, rfl, rfl⟩
  obtain ⟨e1, e2, e3, e4, e5, e6⟩ := e
  rw [e1] at q1
  rw [e2] at q2
  rw [e3] at qm
  rw [e1, e2, e3, e4, e5, e6, ← hv]
  rcases d9 with ⟨g1, g2, g3, g4, g5⟩ | ⟨g1, g2, g3, g4, g5, g6⟩
  · refine ⟨⟨q1, by rw [g3, d3]⟩, ⟨by rw [g4]; norm_num, by rw [g4]⟩, by rw [g4, g3, d3]; ring,
      by rw [g5, g4]; ring, fun _ => ⟨g4, by rw [g3, d3]⟩, by rw [d5, d6]⟩
  · have hne : s6.h2o_max ≠ 0 := by rw [d3]; exact g2
    have hpos : 0 < s6.h2o_max := lt_of_le_of_ne qm (Ne.symm hne)
    have hle : s6.h2o ≤ s6.h2o_max := by rw [g4, d3]; exact g1
    refine ⟨⟨q1, hle⟩, ⟨by rw [g5]; positivity, by rw [g5, div_le_one hpos]; exact hle⟩,
      by rw [g5]; field_simp, g6, fun h => ?_, by rw [d5, d6]⟩
    rw [g3] at h
    exact absurd h (lt_irrefl _)

/-- The liquid water of a pack is within its retention capacity, and the saturation is the filled
fraction. -/
def Retains (v : ℝ) (s : Snow) : Prop :=
  0 ≤ s.h2o ∧ s.h2o ≤ s.h2o_max ∧ 0 ≤ s.h2o_sat ∧ s.h2o_sat ≤ 1 ∧ s.h2o = s.h2o_sat * s.h2o_max ∧
    s.h2o_vol = s.h2o_sat * v

/-- Retention at the end of any run step that leaves layers. -/
theorem StepChain.retains {c : Env} {dt : ℝ} {dl : InputData} {p p' : Phys}
    {s0 s1 s2 s3 s4 s5 s6 : Snow} (hc : c.OK) (k : StepChain c dt dl p p' s0 s1 s2 s3 s4 s5 s6)
    (hh : 0 ≤ p.snow.h2o) (hf : p'.input1.precip_now = true → StepForcing p'.input1)
    (hl : 0 < p'.snow.layer_count) : Retains c.max_h2o_vol p'.snow := by
  have kc := k.closed hc hh hf
  cases hs : p'.snow.snowcover
  · rcases k.ended hc.max_z hs with h | ⟨hp, hm, t, ht, hlt, e⟩
    · omega
    · have F := hf hp
      rcases init_snow_out hc.max_z ht with h | h
      · obtain ⟨_, h2, d, _, h3, _, _, _, _, h5, h6, h7, h8, _⟩ := h
        have hd := F.dens hm
        have := fresh_h2o_nonneg hc (s := freshSnow p'.input1 s1) h2 hd.2.1 F.sat h3
        rw [e]
        have hsat : t.h2o_sat = p'.input1.h2o_sat_snow := h7
        have h6' : t.h2o = p'.input1.h2o_sat_snow * t.h2o_max := h6
        have hmx : 0 ≤ t.h2o_max := by rw [h5]; exact this.1
        refine ⟨?_, ?_, ?_, ?_, ?_, ?_⟩
        · show 0 ≤ t.h2o
          rw [h6']; exact mul_nonneg F.sat.1 hmx
        · show t.h2o ≤ t.h2o_max
          rw [h6']
          nlinarith [F.sat.2]
        · show 0 ≤ t.h2o_sat
          rw [hsat]; exact F.sat.1
        · show t.h2o_sat ≤ 1
          rw [hsat]; exact F.sat.2
        · show t.h2o = t.h2o_sat * t.h2o_max
          rw [hsat]; exact h6'
        · show t.h2o_vol = t.h2o_sat * c.max_h2o_vol
          rw [hsat]; exact h8
      · obtain ⟨_, _, _, _, hz0, hzl, _⟩ := h
        have : t.layer_count = 0 := lc_eq_zero.mpr ⟨hz0, hzl.le⟩
        omega
  · obtain ⟨f6, f5, _⟩ := k.persist hc.max_z hs
    obtain ⟨_, _, d3, _, d5, d6, _, _, _, _, _, _, _, _, _, _, _, _, d9⟩ := k.drained hc.max_z f5
    have q1 := kc.h2o
    have qm : 0 ≤ p'.snow.h2o_max := by
      rcases kc.max with h | h
      · exact h
      · rw [hs] at h; cases h
    have e : p'.snow.h2o = s6.h2o ∧ p'.snow.h2o_max = s6.h2o_max ∧
        p'.snow.h2o_sat = s6.h2o_sat ∧ p'.snow.h2o_vol = s6.h2o_vol := by
      rw [k.frame7]; exact ⟨rfl, rfl, rfl, rfl⟩
    obtain ⟨e1, e3, e4, e5⟩ := e
    unfold Retains
    rw [e1] at q1
    rw [e3] at qm
    rw [e1, e3, e4, e5]
    rcases d9 with ⟨g1, g2, g3, g4, g5⟩ | ⟨g1, g2, g3, g4, g5, g6⟩
    · exact ⟨q1, by rw [g3, d3], by rw [g4]; norm_num, by rw [g4], by rw [g4, g3, d3]; ring,
        by rw [g5, g4]; ring⟩
    · have hne : s6.h2o_max ≠ 0 := by rw [d3]; exact g2
      have hpos : 0 < s6.h2o_max := lt_of_le_of_ne qm (Ne.symm hne)
      have hle : s6.h2o ≤ s6.h2o_max := by rw [g4, d3]; exact g1
      exact ⟨q1, hle, by rw [g5]; positivity, by rw [g5, div_le_one hpos]; exact hle,
        by rw [g5]; field_simp, g6⟩

/-- C26, records: in every record of a simulation with admissible data that shows snow layers, retained
water lies between zero and the capacity, saturation is the filled fraction of the capacity, between 0
and 1, and the volumetric water content is that fraction of the configured maximum. -/
theorem C26_retention_records (g : Config) (hg : g.Tiled) (ha : g.AdmissibleStart) (rows : List Rec)
    (hr : ∀ r ∈ rows, r.Admissible) (m : Model) (h : simulate g rows = .ok m) :
    ∀ r ∈ m.output_list, 0 < r.layer_count →
      0 ≤ r.h2o ∧ r.h2o ≤ r.h2o_max ∧ 0 ≤ r.h2o_sat ∧ r.h2o_sat ≤ 1 ∧ r.h2o = r.h2o_sat * r.h2o_max ∧
        r.h2o_vol = r.h2o_sat * g.max_h2o := by
  obtain ⟨c, ts, hc, hts⟩ := simulate_parts h
  have ho := ha.toAdmissible.env hc
  have ht := parse_tile hg hts
  intro r hro hl
  obtain ⟨s, a, t, hO, hsn⟩ := (RunRule.simulate
    (O := fun s => 0 < s.layer_count → Retains c.max_h2o_vol s) hc hts
    (forcingRule (S := WetInv c) ht fun lv d p p' ⟨hi, hh⟩ hf h => by
      obtain ⟨s0, s1, s2, s3, s4, s5, s6, k⟩ := step_chain ho.max_z hi h
      exact ⟨fun hl => k.retains ho hh hf hl, stepPhys_inv ho.max_z hi h, (k.closed ho hh hf).h2o⟩)
    (fun r i s hr hn hs => forcingRule_start hr hn (wet_start ha hc hs)) hr h).2 r hro
  obtain ⟨_, _, _, _, _, _, _, _, _, _, _, _, _, w1, w2, w3, w4, w5, w6⟩ := snapshot_snow hsn
  rw [w2] at hl
  have := hO hl
  unfold Retains at this
  rw [(mkEnv_ok hc).2.2.1] at this
  rw [w1, w3, w4, w5]
  exact this

/-! ## C29 -/

/-- C29, run step: every run step of every simulation through which the snow cover lasts ends with a
density of at most 600 kg/m3. -/
theorem C29_density_clipped_step (g : Config) (hmax : 0 < g.max_active) (rows : List Rec)
    (ls : List (List (RStep Phys))) (m : Model) (h : RunTrace g rows ls m) :
    ∀ l ∈ ls, ∀ x ∈ l, x.post.snow.snowcover = true → x.post.snow.rho ≤ 600 := by
  obtain ⟨c, ts, hc, hts, hm, hx⟩ := trace_step hmax h
  intro l hl x hxl hs
  obtain ⟨d, h1, h2, h3⟩ := hx l hl x hxl
  obtain ⟨s0, s1, s2, s3, s4, s5, s6, k⟩ := step_chain hm h1 h3
  obtain ⟨f6, f5, _⟩ := k.persist hm hs
  obtain ⟨_, d2, _⟩ := k.drained hm f5
  rw [k.frame7]
  exact d2

/-- C29, records: if no falling snow is denser than 600 kg/m3, no record of a simulation with admissible
data shows a density above 600 kg/m3, whatever the initial density. -/
theorem C29_density_clipped_records (g : Config) (hg : g.Tiled) (ha : g.AdmissibleStart) (rows : List Rec)
    (hr : ∀ r ∈ rows, r.Admissible) (hd : ∀ r ∈ rows, r.rho_snow ≤ 600) (m : Model)
    (h : simulate g rows = .ok m) : ∀ r ∈ m.output_list, r.rho ≤ 600 := by
  obtain ⟨c, ts, hc, hts⟩ := simulate_parts h
  have ho := ha.toAdmissible.env hc
  have ht := parse_tile hg hts
  intro r hro
  obtain ⟨s, a, t, hO, hsn⟩ := (RunRule.simulate
    (O := fun s => s.rho ≤ 600) hc hts
    (forcingRuleQ (S := Inv c) ht (fun i => i.rho_snow ≤ 600) fun lv d p p' i hi hq hag hf h => by
      obtain ⟨s0, s1, s2, s3, s4, s5, s6, k⟩ := step_chain ho.max_z hi h
      have hi' := stepPhys_inv ho.max_z hi h
      refine ⟨?_, hi'⟩
      cases hs : p'.snow.snowcover
      · rcases k.ended ho.max_z hs with h0 | ⟨hp, hm, t, ht, hlt, e⟩
        · have := (hi'.bare ((hi'.lc_zero_iff ho.max_z).mp h0)).2.2.1
          rw [this]; norm_num
        · rw [e]
          show t.rho ≤ 600
          rcases init_snow_out ho.max_z ht with h | h
          · obtain ⟨_, _, _, _, _, _, h, _⟩ := h
            rw [h]
            show p'.input1.rho_snow ≤ 600
            rw [hag.rho]; exact hq
          · obtain ⟨_, _, h, _⟩ := h
            rw [h]; norm_num
      · obtain ⟨f6, f5, _⟩ := k.persist ho.max_z hs
        obtain ⟨_, d2, _⟩ := k.drained ho.max_z f5
        rw [k.frame7]
        exact d2)
    (fun r i s hr hn hs => forcingRuleQ_start hr hn (init_snow_inv ho.max_z hs rfl))
    (fun r hr' => ⟨hr r hr', fun i hn => by
      obtain ⟨rfl, _⟩ := new_ok hn
      exact hd r hr'⟩) h).2 r hro
  rw [(snapshot_snow hsn).1]
  exact hO

end

end Pysnobal
