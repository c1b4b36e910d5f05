import Verif.Props.Cover
import Verif.Props.StepLedger
import Verif.Props.Surplus

/-! # C71: the runoff of the run step in which a pack disappears -/

namespace Pysnobal

noncomputable section

variable {c : Env} {dt : ℝ} {dl : InputData} {s0 s1 s2 s3 s4 s5 s6 : Snow}

/-! ## Specification -/

/-- The run step `x` of length `dt` ends the snow cover.  `M` is the mass of the pack with the precipitation of the step; of the
liquid water at hand (retained, arriving, melted) `r` refreezes and `w` is left (less than 1e-8 kg/m² is rounded away).  If at
least the mass of the pack melts, the runoff is `M` *and* the liquid water; otherwise the vapour exchange has
brought the pack to the smallest threshold, and the runoff is what it left of the mass and of the liquid water. -/
structure MeltOut (g : Config) (dt : ℝ) (x : RStep Phys) (M r w : ℝ) : Prop where
  mass : M = x.pre.snow.m_s + x.precip
  gone : x.post.snow.m_s = 0 ∧ x.post.snow.layer_count = 0 ∧ x.post.snow.h2o = 0
  refrozen : 0 ≤ r ∧ r ≤ x.pre.snow.h2o + waterIn g x + x.post.snow.melt
  why : r ≠ 0 → x.pre.snow.cc_s_0 + x.post.snow.en.delta_Q_0 * dt < 0 ∨ x.pre.snow.cc_s_l < 0 ∨
    x.pre.snow.t_s < FREEZE ∨ x.post.snow.en.G < x.post.snow.en.G_0
  left : w = if x.pre.snow.h2o + waterIn g x + x.post.snow.melt - r ≤ 1e-8 then 0
    else x.pre.snow.h2o + waterIn g x + x.post.snow.melt - r
  runoff : (M ≤ x.post.snow.melt ∧ x.post.snow.E_s = 0 ∧ x.post.snow.swi = M + w) ∨
    (x.post.snow.melt < M ∧ M + x.post.snow.E_s ≤ g.small_threshold ∧
      x.post.snow.swi = max (M + x.post.snow.E_s) 0 +
        afterVapour (afterVapour w (x.post.snow.E * dt)) (x.post.snow.E_s - x.post.snow.E * dt))

/-! ## Proof -/

/-- A pack above the smallest threshold lasts through compaction and precipitation. -/
theorem StepChain.heavy {p p' : Phys} (hc : c.OK) (hdt : 0 < dt) (k : StepChain c dt dl p p' s0 s1 s2 s3 s4 s5 s6)
    (hf : p'.input1.precip_now = true → StepForcing p'.input1) (hl : 0 < p.snow.layer_count)
    (hm : c.small_threshold < p.snow.m_s) : s1.snowcover = true ∧ s2.snowcover = true := by
  have f0 : s0.snowcover = true := by rw [k.flag0]; exact decide_eq_true hl
  have m0 : s0.m_s = p.snow.m_s := by rw [k.start]
  have f1 : s1.snowcover = true := time_compact_flag hdt hc k.i0 f0 (by rw [m0]; exact hm) k.tc
  have m1 : s1.m_s = p.snow.m_s := by rw [((k.flag1 hc.max_z f1).2).m_s, m0]
  have z1 := k.i1.flag f1
  refine ⟨f1, ?_⟩
  rcases precip_event_ok k.pe with ⟨_, e⟩ | ⟨hn, _, t, ht, e⟩ | ⟨_, hs, _⟩ | ⟨_, hs, _⟩
  · rw [e]; exact f1
  · rcases adj_snow_cases hc.max_z p'.input1.z_snow p'.input1.m_pp z1 with ⟨a, _⟩ | ⟨_, a, _⟩
    · rw [← ht] at a
      rw [e]
      show t.snowcover = true
      rw [a.snowcover]; exact f1
    · exfalso
      have h5 := hf hn
      rw [m1] at a
      rcases a with a | a
      · rw [h5.m_pp] at a
        linarith [h5.snow, h5.rain]
      · have := k.i1.z_pos z1
        linarith [h5.z]
  · rw [f1] at hs; cases hs
  · rw [f1] at hs; cases hs

/-- A pack that outlasts `snowmelt` was heavier than the melt. -/
theorem StepChain.melt_lt {p p' : Phys} (hc : c.OK) (k : StepChain c dt dl p p' s0 s1 s2 s3 s4 s5 s6)
    (hm : 0 < s2.m_s) (h : s3.snowcover = true) : s3.melt < s2.m_s := by
  have f2 := (k.flag3 hc.max_z h).1
  have z2 := k.i2.flag f2
  have hz2 := k.i2.z_pos z2
  have hr2 := (inv_rho_pos k.i2 z2 hm).1
  have hp2 : s2.m_s = s2.rho * s2.z_s := (k.i2.pack z2).1
  rcases snowmelt_ok k.sm with ⟨hs, _⟩ | ⟨_, t, r, a, ⟨b1, b2, e⟩ | ⟨b1, e⟩⟩
  · rw [f2] at hs; cases hs
  · have ft : t.z_s = s2.z_s ∧ t.rho = s2.rho ∧ t.z_s_0 = s2.z_s_0 := by
      rw [a.frame]; exact ⟨rfl, rfl, rfl⟩
    obtain ⟨t1, t2, t3⟩ := ft
    have hlt := (adj_snow_depth hc.max_z hc.small _ 0 (s := t) (by rw [t3]; exact z2) (by rw [t1]; exact hz2)
      (by rw [← e]; exact h)).2
    have hmelt : s3.melt = t.melt := by
      rcases adj_snow_cases hc.max_z ((-1) * t.melt / t.rho) 0 (s := t) (by rw [t3]; exact z2) with ⟨a, _⟩ | ⟨a, _⟩
      · rw [e]; exact a.melt
      · rw [e]; exact a.melt
    rw [hmelt, hp2]
    rw [t1, t2] at hlt
    have : s2.rho * (s2.z_s + -1 * t.melt / s2.rho) = s2.rho * s2.z_s - t.melt := by field_simp; ring
    have := mul_pos hr2 hlt
    linarith
  · rw [e]
    linarith

theorem StepChain.meltOut {g : Config} {x : RStep Phys} (hc : c.OK) (hv : c.max_h2o_vol = g.max_h2o)
    (hsm : c.small_threshold = g.small_threshold)
    (hdt : 0 < dt) (k : StepChain c dt dl x.pre x.post s0 s1 s2 s3 s4 s5 s6)
    (hh : 0 ≤ x.pre.snow.h2o) (hf : x.post.input1.precip_now = true → StepForcing x.post.input1)
    (hl : 0 < x.pre.snow.layer_count) (hm : c.small_threshold < x.pre.snow.m_s)
    (hs : x.post.snow.snowcover = false) : ∃ M r w, MeltOut g dt x M r w := by
  have hmax := hc.max_z
  obtain ⟨f1, f2⟩ := k.heavy hc hdt hf hl hm
  have lasts := (k.lasts hc hdt hf hl hm (M := x.pre.snow.m_s + x.precip) rfl).1
  have st1 := (k.flag1 hmax f1).2
  have rn := (k.flag2 hmax f2).2
  obtain ⟨u, ru, ru'⟩ := rn.stay
  have b2 := k.books2 hc hh hf
  have e0 : s0.m_s = x.pre.snow.m_s ∧ s0.h2o = x.pre.snow.h2o ∧ s0.h2o_total = 0 ∧
      s0.cc_s_0 = x.pre.snow.cc_s_0 ∧ s0.cc_s_l = x.pre.snow.cc_s_l ∧ s0.t_s = x.pre.snow.t_s := by
    rw [k.start]; exact ⟨rfl, rfl, rfl, rfl, rfl, rfl⟩
  have eu : s2.cc_s_0 = u.cc_s_0 ∧ s2.cc_s_l = u.cc_s_l ∧ s2.t_s = u.t_s := by
    rw [ru']; exact ⟨rfl, rfl, rfl⟩
  have h02 := k.i2.flag f2
  have hz2 := k.i2.z_pos h02
  have hcc2 : s2.cc_s_0 = x.pre.snow.cc_s_0 := by rw [eu.1, ru.cc0, st1.cc0, e0.2.2.2.1]
  have hwat : s2.h2o_total = x.pre.snow.h2o + waterIn g x := by
    rw [rn.water, st1.h2o_total, e0.2.2.1, st1.h2o, e0.2.1]
    unfold waterIn
    by_cases hp : x.post.input1.precip_now = true
    · rw [if_pos hp, if_pos hp, wetWater_pore (hf hp), hv]; ring
    · rw [if_neg hp, if_neg hp]; ring
  have hmass : s2.m_s = x.pre.snow.m_s + x.precip := by
    rw [rn.mass, st1.m_s, e0.1]; rfl
  have hMp : 0 < s2.m_s := by
    rw [rn.mass, st1.m_s, e0.1]
    have := hc.small
    split
    · rename_i hn
      have := hf hn
      rw [this.m_pp]
      linarith [this.snow, this.rain]
    · linarith
  have hM0 := hMp.le
  have hlf : (0:ℝ) < lh_fus FREEZE := by rw [lf_eq]; norm_num
  have hratio : 0 ≤ s2.z_s_l / s2.z_s := div_nonneg k.i2.zl hz2.le
  obtain ⟨t, r, hmr, hz, h3⟩ : ∃ t r, MeltRes dt s2 t r ∧ 0 < t.z_s_0 ∧
      ((Stay c t s2.m_s s3 ∧ (s3 = t ∨ s3.rho ≤ 600)) ∨ Gone t s2.m_s s3) := by
    rcases snowmelt_out hmax k.i2 k.sm with ⟨h1, _⟩ | ⟨_, t, r, a, b, d⟩
    · rw [f2] at h1; cases h1
    · exact ⟨t, r, a, b, d⟩
  have hrb := hmr.refrozen hmax k.i2 h02 b2.total
  have htot : 0 ≤ s2.h2o_total + t.melt := add_nonneg b2.total hmr.melt_nonneg
  have hten : t.en = s2.en ∧ t.E = s2.E := by rw [hmr.frame]; exact ⟨rfl, rfl⟩
  -- what does not depend on where the pack vanishes
  have main : ∀ (hmelt : x.post.snow.melt = t.melt) (hen : x.post.snow.en = s2.en)
      (hg : x.post.snow.m_s = 0 ∧ x.post.snow.layer_count = 0 ∧ x.post.snow.h2o = 0)
      (hro : (x.pre.snow.m_s + x.precip ≤ x.post.snow.melt ∧ x.post.snow.E_s = 0 ∧
          x.post.snow.swi = x.pre.snow.m_s + x.precip + t.h2o_total) ∨
        (x.post.snow.melt < x.pre.snow.m_s + x.precip ∧ x.pre.snow.m_s + x.precip + x.post.snow.E_s ≤ g.small_threshold ∧
      x.post.snow.swi = max (x.pre.snow.m_s + x.precip + x.post.snow.E_s) 0 +
        afterVapour (afterVapour t.h2o_total (x.post.snow.E * dt)) (x.post.snow.E_s - x.post.snow.E * dt))),
      ∃ M r w, MeltOut g dt x M r w := by
    intro hmelt hen hg hro
    refine ⟨_, r, t.h2o_total, rfl, hg, ?_, ?_, ?_, hro⟩
    · rw [hmelt, ← hwat]
      exact hrb
    · intro hne
      by_contra hn
      push Not at hn
      obtain ⟨n0, n1, n2, n3⟩ := hn
      have q1 := st1.ripe (by rw [e0.2.2.2.2.1]; exact n1) (by rw [e0.2.2.2.2.2]; exact n2)
      have q2 := ru.ripe q1.1 q1.2
      have hq0 : 0 ≤ meltQ0 dt s2 := by
        have : meltQ0 dt s2 = s2.en.delta_Q_0 * dt + s2.cc_s_0 := rfl
        rw [this, hcc2, ← hen]
        linarith
      have hc0 : t.cc_s_0 = 0 := by
        rcases hmr.surf with e | ⟨f, _, _, hq, _⟩
        · rw [e, min_eq_left hq0]
        · linarith
      have hen' := hmr.energy
      rw [hc0, min_eq_left hq0] at hen'
      have : lh_fus FREEZE * r = 0 := by
        rw [hen']
        split
        · rename_i h2
          have hql : 0 ≤ meltQl dt s2 := by
            unfold meltQl
            rw [if_pos h2, eu.2.1]
            rw [hen] at n3
            have : 0 ≤ (s2.en.G - s2.en.G_0) * dt := mul_nonneg (by linarith) hdt.le
            linarith [q2.1]
          have a1 := hmr.ccl_ge hratio htot h2
          have a2 := hmr.ccl h2
          rw [min_eq_left hql] at a1 ⊢
          linarith
        · ring
      rcases mul_eq_zero.mp this with h | h
      · exact hlf.ne' h
      · exact hne h
    · rw [hmelt, ← hwat, hmr.water, abs_of_nonneg (by linarith [hrb.2])]
  rcases h3 with ⟨st3, _⟩ | hg3
  · -- the pack outlasts the melt
    have f3 : s3.snowcover = true := by rw [st3.snowcover, hmr.frame]; exact f2
    rcases evap_cond_out hmax k.i3 k.ec with ⟨h1, _⟩ | ⟨_, el, w, _, hw, _, hE, h6 | hg4⟩
    · rw [f3] at h1; cases h1
    · obtain ⟨st4, _, _⟩ := h6
      have f4 : s4.snowcover = true := by rw [st4.snowcover]; exact f3
      rcases h2o_compact_out hmax k.i4 k.hc with ⟨h1, _⟩ | ⟨_, h7 | hg5⟩
      · rw [f4] at h1; cases h1
      · exfalso
        have f5 : s5.snowcover = true := by rw [h7.1.snowcover]; exact f4
        have hd := (k.drained hmax f5).1
        have : x.post.snow.snowcover = s6.snowcover := by rw [k.frame7]
        rw [this, hd] at hs
        cases hs
      · have e := k.dead5 hg5.snowcover
        have hmelt : x.post.snow.melt = t.melt := by
          rw [e]
          show s5.melt = _
          rw [hg5.melt, st4.melt]
          exact st3.melt
        have hEs : x.post.snow.E_s = s3.E * dt + el := by
          rw [e]
          show s5.E_s = _
          rw [hg5.E_s, hE]
        have hEE : x.post.snow.E = s3.E := by
          rw [e]
          show s5.E = _
          rw [hg5.E, st4.E]
        have hen : x.post.snow.en = s2.en := by
          rw [e]
          show s5.en = _
          rw [hg5.en, st4.en]
          exact st3.en.trans hten.1
        have hlt : x.post.snow.melt < x.pre.snow.m_s + x.precip := by
          rw [hmelt, ← hmass, ← st3.melt]
          exact k.melt_lt hc hMp f3
        refine main hmelt hen ⟨?_, ?_, ?_⟩ (.inr ⟨hlt, ?_, ?_⟩)
        · rw [e]; exact hg5.m_s
        · rw [e]; exact hg5.lc
        · rw [e]; exact hg5.h2o
        · by_contra hgt
          have := lasts hlt (by rw [hsm]; exact not_le.mp hgt)
          rw [hs] at this
          cases this
        · rw [hEs, hEE, add_sub_cancel_left, ← evapH2o_spec, ← evapH2o_spec, e]
          show s5.h2o_total = _
          rw [hg5.h2o_total, st4.h2o_total, st4.m_s, st3.m_s, hmass]
          show w + _ = _
          rw [hw, st3.h2o_total]
          ring
    · have e := k.dead4 hg4.snowcover
      have hmelt : x.post.snow.melt = t.melt := by
        rw [e]
        show s4.melt = _
        rw [hg4.melt]
        exact st3.melt
      have hEs : x.post.snow.E_s = s3.E * dt + el := by
        rw [e]
        exact hE
      have hEE : x.post.snow.E = s3.E := by
        rw [e]
        show s4.E = _
        rw [hg4.E]
      have hen : x.post.snow.en = s2.en := by
        rw [e]
        show s4.en = _
        rw [hg4.en]
        exact st3.en.trans hten.1
      have hlt : x.post.snow.melt < x.pre.snow.m_s + x.precip := by
        rw [hmelt, ← hmass, ← st3.melt]
        exact k.melt_lt hc hMp f3
      refine main hmelt hen ⟨?_, ?_, ?_⟩ (.inr ⟨hlt, ?_, ?_⟩)
      · rw [e]; exact hg4.m_s
      · rw [e]; exact hg4.lc
      · rw [e]; exact hg4.h2o
      · by_contra hgt
        have := lasts hlt (by rw [hsm]; exact not_le.mp hgt)
        rw [hs] at this
        cases this
      · rw [hEs, hEE, add_sub_cancel_left, ← evapH2o_spec, ← evapH2o_spec, e]
        show s4.h2o_total = _
        rw [hg4.h2o_total, st3.m_s, hmass]
        show w + _ = _
        rw [hw, st3.h2o_total]
        ring
  · -- it melts
    have e := k.dead3 hg3.snowcover
    have hmelt : x.post.snow.melt = t.melt := by
      rw [e]; exact hg3.melt
    have hen : x.post.snow.en = s2.en := by
      rw [e]; exact hg3.en.trans hten.1
    have hEs : x.post.snow.E_s = 0 := by rw [e]
    refine main hmelt hen ⟨?_, ?_, ?_⟩ (.inl ⟨?_, hEs, ?_⟩)
    · rw [e]; exact hg3.m_s
    · rw [e]; exact hg3.lc
    · rw [e]; exact hg3.h2o
    · by_contra hlt
      have h9 : c.small_threshold < x.pre.snow.m_s + x.precip + x.post.snow.E_s := by
        rw [hEs, add_zero, ← hmass, rn.mass, st1.m_s, e0.1]
        split
        · rename_i hn
          have := hf hn
          rw [this.m_pp]
          linarith [this.snow, this.rain]
        · linarith
      have := lasts (not_le.mp hlt) h9
      rw [hs] at this
      cases this
    · rw [e]
      show s3.h2o_total = _
      rw [hg3.h2o_total, hmass, max_eq_left (by rw [← hmass]; exact hM0)]
      ring

/-- C71, run step: with admissible data, in every run step that starts with a pack heavier than the smallest threshold and ends
without snow cover, the reported runoff is the mass of the pack with the precipitation of the step (after vapour exchange)
plus all the liquid water at hand, although that water (retained, rain, melt) is already part of that mass. -/
theorem C71_runoff_of_last_step (g : Config) (hg : g.Tiled) (ha : g.AdmissibleStart) (rows : List Rec)
    (hr : ∀ r ∈ rows, r.Admissible) (ls : List (List (RStep Phys))) (m : Model) (h : RunTrace g rows ls m) :
    ∃ ts, parse_time_steps g = .ok ts ∧ ∀ l ∈ ls, ∀ x ∈ l, 0 < x.pre.snow.layer_count →
      g.small_threshold < x.pre.snow.m_s → x.post.snow.snowcover = false →
        ∃ M r w, MeltOut g (ts x.lv).time_step x M r w := by
  obtain ⟨c, ts, hc, hts, ho, ht, hx⟩ := trace_closed hg ha hr h
  have hsm := (mkEnv_ok hc).2.1
  refine ⟨ts, hts, fun l hl x hxl hlc hm hs => ?_⟩
  obtain ⟨d, ⟨h1, h1'⟩, _, hf, h3, _⟩ := hx l hl x hxl
  obtain ⟨s0, s1, s2, s3, s4, s5, s6, k⟩ := step_chain ho.max_z h1 h3
  exact k.meltOut ho (mkEnv_ok hc).2.2.1 hsm (ht.step_pos x.lv) h1' hf hlc (by rw [hsm]; exact hm) hs

/-- C71, surplus: if moreover at least the mass of the pack melts, the runoff of the step exceeds the water there was by the whole
liquid water; if no layer is cold (nothing refreezes), it is at least twice the mass. -/
theorem C71_counted_twice (g : Config) (hg : g.Tiled) (ha : g.AdmissibleStart) (rows : List Rec)
    (hr : ∀ r ∈ rows, r.Admissible) (ls : List (List (RStep Phys))) (m : Model) (h : RunTrace g rows ls m) :
    ∃ ts, parse_time_steps g = .ok ts ∧ ∀ l ∈ ls, ∀ x ∈ l, 0 < x.pre.snow.layer_count →
      g.small_threshold < x.pre.snow.m_s → 1e-8 < x.pre.snow.m_s → x.pre.snow.m_s + x.precip ≤ x.post.snow.melt →
      0 ≤ x.pre.snow.cc_s_0 + x.post.snow.en.delta_Q_0 * (ts x.lv).time_step → 0 ≤ x.pre.snow.cc_s_l →
      FREEZE ≤ x.pre.snow.t_s → x.post.snow.en.G_0 ≤ x.post.snow.en.G →
        x.post.snow.m_s = 0 ∧ x.post.snow.E_s = 0 ∧
        x.post.snow.swi = x.pre.snow.m_s + x.precip + (x.pre.snow.h2o + waterIn g x + x.post.snow.melt) ∧
        2 * (x.pre.snow.m_s + x.precip) ≤ x.post.snow.swi := by
  obtain ⟨ts, hts, h1⟩ := C71_runoff_of_last_step g hg ha rows hr ls m h
  obtain ⟨ts', hts', h2⟩ := C62_cover_lasts_step g hg ha rows hr ls m h
  obtain ⟨c, ts'', hc, hts'', ho, ht, hx⟩ := trace_closed hg ha hr h
  rw [hts] at hts' hts''
  cases hts'
  cases hts''
  refine ⟨ts, hts, fun l hl x hxl hlc hm hm' hme n0 n1 n2 n3 => ?_⟩
  obtain ⟨d, ⟨i1, i1'⟩, _, hf, h3, _⟩ := hx l hl x hxl
  have hs : x.post.snow.snowcover = false := by
    by_contra hn
    have := ((h2 l hl x hxl hlc).2.1 hm (by simpa using hn)).1
    linarith
  obtain ⟨M, r, w, hM⟩ := h1 l hl x hxl hlc hm hs
  have hr0 : r = 0 := by
    by_contra hne
    rcases hM.why hne with a | a | a | a <;> linarith
  have hpre : 0 ≤ x.precip ∧ 0 ≤ waterIn g x := by
    unfold RStep.precip waterIn
    split
    · rename_i hn
      have := hf hn
      refine ⟨by rw [this.m_pp]; linarith [this.snow, this.rain], ?_⟩
      have hw : 0 ≤ wetWater c x.post.input1 := wet_nonneg ho.vol this
      rw [wetWater_pore this, (mkEnv_ok hc).2.2.1] at hw
      linarith [this.rain]
    · exact ⟨le_refl _, le_refl _⟩
  have i1' : 0 ≤ x.pre.snow.h2o := i1'
  have hw := hM.left
  rw [hr0, if_neg (by linarith), sub_zero] at hw
  rcases hM.runoff with ⟨_, a, b⟩ | ⟨a, _⟩
  · rw [hM.mass, hw] at b
    exact ⟨hM.gone.1, a, b, by linarith⟩
  · rw [hM.mass] at a
    linarith

/-- C71, witness: 100 kg/m² of snow, a dry hour without vapour exchange that has the energy to melt `μ`, at least as much: the run completes,
the ground is bare and the one record shows `100 + μ` of runoff. -/
theorem meltOut_run {μ : ℝ} (hμ : 100 ≤ μ) : ∃ x m, RunTrace stormCfg [calmRec (μ * 333600 / 3600) 0 1 300, quietRec] [[x]] m ∧
    x.pre.snow.layer_count = 1 ∧ x.pre.snow.m_s = 100 ∧ x.pre.snow.h2o = 0 ∧ x.precip = 0 ∧
    x.post.snow.snowcover = false ∧ x.post.snow.melt = μ ∧ x.post.snow.m_s = 0 ∧
    x.pre.snow.cc_s_0 = 0 ∧ x.pre.snow.cc_s_l = 0 ∧ x.pre.snow.t_s = FREEZE ∧
    x.post.snow.en.G = 0 ∧ x.post.snow.en.G_0 = 0 ∧ 0 ≤ x.post.snow.en.delta_Q_0 ∧
    ∃ o, m.output_list = [o] ∧ o.swi_sum = 100 + μ ∧ o.E_s_sum = 0 ∧ o.m_s = 0 ∧ o.melt_sum = μ := by
  have hinit := init_calm (thr := 60) (vol := 0.01) (z := 1 / 6) (rho := 600) (sat := 0) (d := 600)
    (by norm_num) (by norm_num) (by norm_num) (by norm_num) (by norm_num)
  obtain ⟨s0, hs0, f1, f2, f3, f5⟩ : ∃ s0, init_snow (calmEnv 0.01) (recordSnow stormCfg) = .ok s0 ∧
      RipeSnow s0 ∧ s0.rho = 600 ∧ s0.m_s = 100 ∧ s0.h2o = 0 := by
    refine ⟨_, hinit, ⟨?_, rfl, rfl, ?_, ?_, rfl, rfl, rfl, rfl, rfl, rfl, rfl⟩, rfl, ?_, ?_⟩ <;> norm_num
  have hc : mkEnv stormCfg = .ok (calmEnv 0.01) := calmCfg_env _ _ _ _ _
  have hg : stormCfg.Tiled := calmCfg_tiled _ _ _ _ _
  obtain ⟨S, hS⟩ : ∃ S, S = μ * 333600 / 3600 := ⟨_, rfl⟩
  have hSμ : S * 3600 = 333600 * μ := by rw [hS]; ring
  rw [← hS]
  have f4 : s0.z_s = 1 / 6 := by
    have h1 := f1.z
    have h2 := f1.m
    rw [f3, f2] at h2
    rw [h1]; linarith
  obtain ⟨q, hq⟩ : ∃ q : Snow, q = { radiated S s0 with h2o_total := 0 } := ⟨_, rfl⟩
  have hr0 : RipeSnow q := by
    rw [hq]
    exact ⟨f1.z0, f1.zl, f1.z, f1.z_le, f1.rho, f1.t0, f1.t, f1.cc0, f1.ccl, f1.m, f1.m0, f1.ml⟩
  have hpe : precip_event (calmEnv 0.01) (calmRec S 0 1 300).toInput (radiated S s0) = .ok q := by
    unfold precip_event
    rw [if_neg (by rw [calm_not_now (lt_irrefl _)]; simp), hq]
    simp [radiated, f5]
  have hqc : q.snowcover = true := by rw [hq]; rfl
  have hsm := snowmelt_adj (c := calmEnv 0.01) (dt := 3600) (s := q) hr0 hqc
    (by rw [hq]) (μ := μ) (by rw [hq]; exact hSμ) (by linarith)
  have hq0 : q.h2o_total = 0 := by rw [hq]
  have hqr : q.rho = 600 := by rw [hq]; exact f2
  rw [hq0, zero_add] at hsm
  obtain ⟨t, ht⟩ : ∃ t, t = adj_snow (calmEnv 0.01) (-1 * μ / q.rho) 0 { q with melt := μ, h2o_total := μ } := ⟨_, rfl⟩
  rw [← ht] at hsm
  have hmax : 0 < (calmEnv 0.01).max_z_s_0 := by norm_num [calmEnv]
  have hgone : Gone ({ q with melt := μ, h2o_total := μ } : Snow) (100 + 0) t := by
    have hd := adj_snow_depth (c := calmEnv 0.01) hmax (by norm_num [calmEnv]) (-1 * μ / q.rho) 0
      (s := { q with melt := μ, h2o_total := μ }) (by rw [hq]; exact f1.z0) (by show 0 < q.z_s; rw [hq]; show 0 < s0.z_s; rw [f4]; norm_num)
    have hqz : q.z_s = 1 / 6 := by rw [hq]; exact f4
    have hqm : q.m_s = 100 := by rw [hq]; exact f3
    rcases adj_snow_cases hmax (-1 * μ / q.rho) 0 (s := { q with melt := μ, h2o_total := μ }) hr0.z0 with ⟨a, _⟩ | ⟨a, _⟩
    · exfalso
      have h1 := (hd (by rw [a.snowcover]; exact hqc)).2
      change 0 < q.z_s + -1 * μ / q.rho at h1
      rw [hqz, hqr] at h1
      linarith
    · rw [← ht] at a
      have e : (100:ℝ) + 0 = q.m_s + 0 := by rw [hqm]
      rw [e]
      exact a
  have hcov := hgone.snowcover
  have haf : afterPrecip (calmEnv 0.01) (calmRec S 0 1 300).toInput 3600 q = .ok { t with E_s := 0, swi := t.h2o_total } := by
    unfold afterPrecip
    rw [hsm, bind_ok]
    simp [evap_cond, h2o_compact, runoff, hcov]
  have hst := stepPhys_calm (vol := 0.01) (dt := 3600)
    (dl := (deltaRec (calmRec S 0 1 300).toInput quietRec.toInput 1).toInput)
    (i := (calmRec S 0 1 300).toInput) (p := ⟨s0, (calmRec S 0 1 300).toInput, none, none⟩) f1 (calm_update _)
    (calmRec_calm _ _ _ _) (by show 550 ≤ s0.rho; rw [f2]; norm_num) (calmRec_net _ _ _ _ f1.t0 quietRec.toInput).1
    (.inl ⟨rfl, rfl⟩) (by unfold advec; rw [if_neg (by rw [calm_not_now (lt_irrefl _)]; simp)])
    (by rw [hpe, bind_ok]; exact haf)
  have e36 : ((stormCfg.norm_time_step * 60 : ℤ) : ℝ) = 3600 := by norm_num [stormCfg, calmCfg, defaultSteps]
  obtain ⟨ls, m, w1, w0, w2⟩ := first_trace (g := stormCfg) hg hc hs0 (r1 := calmRec S 0 1 300) (r2 := quietRec) (rs := [])
      (calmRec_new (by norm_num)) (calmRec_new (by norm_num)) (by
        unfold below_thold
        rw [if_neg (by rw [f1.lc]; norm_num), if_pos f1.lc, f3]
        show decide ((100:ℝ) < 60) = false
        norm_num) (by rw [e36]; exact hst)
      (P := fun ls m => ls = [] ∧ m.output_list = [recordOf { t with E_s := 0, swi := t.h2o_total } (stormCfg.start_date + stormCfg.norm_time_step)])
      (fun ts m1 _ _ _ h => ⟨[], m1, .nil _ _, rfl, h⟩)
  rw [w0] at w1
  have hen : t.en = (radiated S s0).en := by rw [hgone.en, hq]
  refine ⟨_, m, w1, f1.lc, f3, f5, ?_, hcov, hgone.melt, hgone.m_s, f1.cc0, f1.ccl, f1.t, ?_, ?_, ?_, _, w2, ?_, rfl, hgone.m_s, hgone.melt⟩
  · show (if (calmRec S 0 1 300).toInput.precip_now then (0:ℝ) else 0) = 0
    split <;> rfl
  · show t.en.G = 0
    rw [hen]; rfl
  · show t.en.G_0 = 0
    rw [hen]; rfl
  · show 0 ≤ t.en.delta_Q_0
    rw [hen]
    show 0 ≤ S
    rw [hS]; positivity
  · show t.h2o_total = 100 + μ
    rw [hgone.h2o_total, max_eq_left (by norm_num)]
    show μ + (100 + 0) = _
    ring

/-- C71, unbounded: for every bound there are admissible data with 100 kg/m² of snow and no precipitation or vapour exchange
for which the simulation completes and reports more runoff than that bound. -/
theorem C71_unbounded (B : ℝ) : ∃ g r1 r2 m o, g.Tiled ∧ g.AdmissibleStart ∧ Rec.Admissible r1 ∧ Rec.Admissible r2 ∧
    g.init_rho * g.init_z_s = 100 ∧ r1.m_pp = 0 ∧ r2.m_pp = 0 ∧ simulate g [r1, r2] = .ok m ∧ m.output_list = [o] ∧
    o.E_s_sum = 0 ∧ o.m_s = 0 ∧ B ≤ o.swi_sum := by
  obtain ⟨x, m, h1, _, _, _, _, _, _, _, _, _, _, _, _, _, o, h2, h3, h4, h5, _⟩ := meltOut_run (le_max_left 100 B)
  refine ⟨_, _, _, m, o, calmCfg_tiled _ _ _ _ _, ?_, ?_, ?_, ?_, rfl, rfl, h1.simulate, h2, h4, h5, ?_⟩
  · refine ⟨⟨?_, ?_, ?_, ?_⟩, ?_, ?_, ?_⟩ <;> norm_num [calmCfg, defaultSteps, RHO_W0, RHO_ICE]
  · exact fun h => absurd h (lt_irrefl _)
  · exact fun h => absurd h (lt_irrefl _)
  · norm_num [calmCfg]
  · rw [h3]; linarith [le_max_right 100 B]

/-- The hypotheses of `C71_runoff_of_last_step` and `C71_counted_twice` are met in a completed run. -/
example : ∃ rows ls m, stormCfg.Tiled ∧ stormCfg.AdmissibleStart ∧ (∀ r ∈ rows, Rec.Admissible r) ∧ RunTrace stormCfg rows ls m ∧
    ∃ l ∈ ls, ∃ x ∈ l, 0 < x.pre.snow.layer_count ∧ stormCfg.small_threshold < x.pre.snow.m_s ∧ 1e-8 < x.pre.snow.m_s ∧
      x.post.snow.snowcover = false ∧ x.pre.snow.m_s + x.precip ≤ x.post.snow.melt ∧
      (∀ dt : ℝ, 0 ≤ dt → 0 ≤ x.pre.snow.cc_s_0 + x.post.snow.en.delta_Q_0 * dt) ∧ 0 ≤ x.pre.snow.cc_s_l ∧
      FREEZE ≤ x.pre.snow.t_s ∧ x.post.snow.en.G_0 ≤ x.post.snow.en.G := by
  obtain ⟨x, m, h1, a1, a2, a3, a4, a5, a6, a7, a8, a9, b1, b2, b3, b4, _⟩ := meltOut_run (μ := 150) (by norm_num)
  refine ⟨_, _, m, calmCfg_tiled _ _ _ _ _, ?_, ?_, h1, _, List.mem_singleton_self _, x, List.mem_singleton_self _,
    by rw [a1]; norm_num, ?_, by rw [a2]; norm_num, a5, by rw [a2, a4, a6]; norm_num, ?_, a9.ge, b1.ge, by rw [b2, b3]⟩
  · refine ⟨⟨?_, ?_, ?_, ?_⟩, ?_, ?_, ?_⟩ <;> norm_num [stormCfg, calmCfg, defaultSteps, RHO_W0, RHO_ICE]
  · intro r hr
    rcases List.mem_cons.mp hr with rfl | hr
    · exact fun h => absurd h (lt_irrefl _)
    · rw [List.mem_singleton.mp hr]
      exact fun h => absurd h (lt_irrefl _)
  · rw [a2]; norm_num [stormCfg, calmCfg, defaultSteps]
  · intro dt hdt
    rw [a8, zero_add]
    exact mul_nonneg b4 hdt

end

end Pysnobal
