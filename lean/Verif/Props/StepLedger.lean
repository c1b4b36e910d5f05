import Verif.Props.NonNeg
import Verif.Props.Capacity
import Verif.Lemmas.Flux

/-! # C54, C55: liquid water and depth over a run step -/

namespace Pysnobal

noncomputable section

/-! ## Specification -/

/-- Liquid water after a vapour exchange of `e` kg/m² (condensation positive): the water takes the share of
the exchange given by the ratio of the latent heats of vaporisation and sublimation, and cannot become
negative; dry snow stays dry. -/
def afterVapour (w e : ℝ) : ℝ := if 0 < w then max 0 (w + e * (2.501 / 2.835)) else w

/-- Liquid water that arrives in a run step: rain, and the water in the pores of new snow (a fraction
`h2o_sat_snow` of what they can hold). -/
def waterIn (g : Config) (x : RStep Phys) : ℝ :=
  if x.post.input1.precip_now then x.post.input1.m_rain +
    poreWater (x.post.input1.h2o_sat_snow * g.max_h2o) x.post.input1.z_snow x.post.input1.m_snow
  else 0

/-- The liquid water of a run step of length `dt`: of the water at hand (retained, arriving, melted) `r0`
refreezes in the surface layer and `rl` in the lower layer, `w` is left (less than 1e-8 kg/m² is rounded
away), and what the vapour exchange at the surface (`E`) and at the soil (the rest of `E_s`) leaves is
retained or runs off. -/
structure WaterBooks (g : Config) (dt : ℝ) (x : RStep Phys) (r0 rl w : ℝ) : Prop where
  /-- refreezing in the surface layer is what reduces its cold content -/
  surface : lh_fus FREEZE * r0 = x.post.snow.cc_s_0 -
    min 0 (x.pre.snow.cc_s_0 + x.post.snow.en.delta_Q_0 * dt)
  surface_nonneg : 0 ≤ r0
  lower_nonneg : 0 ≤ rl
  /-- water refreezes in the lower layer only if that is cold or loses energy -/
  lower : rl ≠ 0 → x.pre.snow.cc_s_l < 0 ∨ x.pre.snow.t_s < FREEZE ∨ x.post.snow.en.G < x.post.snow.en.G_0
  bound : r0 + rl ≤ x.pre.snow.h2o + waterIn g x + x.post.snow.melt
  left : w = if x.pre.snow.h2o + waterIn g x + x.post.snow.melt - (r0 + rl) ≤ 1e-8 then 0
    else x.pre.snow.h2o + waterIn g x + x.post.snow.melt - (r0 + rl)
  out : x.post.snow.h2o + x.post.snow.swi =
    afterVapour (afterVapour w (x.post.snow.E * dt)) (x.post.snow.E_s - x.post.snow.E * dt)

/-- The depth `z` of a pack of mass `m`, enlarged if the density would exceed 600 kg/m³. -/
def clipDepth (z m : ℝ) : ℝ := max z (m / 600)

/-- The depth of the pack through a run step: `z1` after gravity compaction, `z2` after precipitation,
`z3` after melt, `z4` after vapour exchange; then compaction by liquid water.  `w` is the liquid water
before the vapour exchange, `dt` the length of the step. -/
structure DepthBooks (dt : ℝ) (x : RStep Phys) (w z1 z2 z3 z4 : ℝ) : Prop where
  pos : 0 < z1 ∧ 0 < z2 ∧ 0 < z3 ∧ 0 < z4
  compact : (550 ≤ x.pre.snow.rho → z1 = x.pre.snow.z_s) ∧
    (x.pre.snow.rho < 550 → 0 < x.pre.snow.m_s → z1 < x.pre.snow.z_s ∧
      z1 = x.pre.snow.m_s / gravityDensity (dt / 3600) x.pre.snow.rho x.pre.snow.t_s x.pre.snow.m_s)
  precip : z2 = if x.post.input1.precip_now then
    clipDepth (z1 + x.post.input1.z_snow) (x.pre.snow.m_s + x.precip) else z1
  melt : z3 = if 0 < x.post.snow.melt then
    clipDepth (z2 - x.post.snow.melt / ((x.pre.snow.m_s + x.precip) / z2)) (x.pre.snow.m_s + x.precip) else z2
  /-- sublimation and condensation change the depth by half the volume of the ice they remove or add -/
  vapour : z4 = clipDepth (z3 + (x.post.snow.E_s - (x.post.snow.h2o + x.post.snow.swi - w)) /
    ((x.pre.snow.m_s + x.precip) / z3) / 2) (x.pre.snow.m_s + x.precip + x.post.snow.E_s)
  wet : ∀ m4, m4 = x.pre.snow.m_s + x.precip + x.post.snow.E_s → 0 < m4 →
    ((x.post.snow.melt + if x.post.input1.precip_now then x.post.input1.m_rain else 0) / m4 ≤ 0.000001 ∨
      550 ≤ m4 / z4 → x.post.snow.z_s = z4) ∧
    (0.000001 < (x.post.snow.melt + if x.post.input1.precip_now then x.post.input1.m_rain else 0) / m4 →
      m4 / z4 < 550 → x.post.snow.z_s < z4 ∧ x.post.snow.z_s = m4 / wetDensity (m4 / z4)
        ((x.post.snow.melt + if x.post.input1.precip_now then x.post.input1.m_rain else 0) / m4))

/-! ## Proofs -/

variable {c : Env} {dt : ℝ} {dl : InputData} {p p' : Phys} {s0 s1 s2 s3 s4 s5 s6 : Snow}

theorem evapH2o_spec (w e : ℝ) : evapH2o w e = afterVapour w e := by
  unfold evapH2o afterVapour VAP_SUB
  by_cases h : w > 0
  · rw [if_pos h, if_pos h]
    dsimp only
    split
    · rename_i h1; rw [max_eq_left h1]
    · rename_i h1; rw [max_eq_right (not_le.mp h1).le]
  · rw [if_neg h, if_neg h]

theorem wetWater_pore {i : InputData} (hf : StepForcing i) :
    wetWater c i = poreWater (i.h2o_sat_snow * c.max_h2o_vol) i.z_snow i.m_snow := by
  unfold wetWater
  by_cases hz : i.z_snow = 0
  · have : i.m_snow = 0 := by rw [← hf.depth, hz, zero_mul]
    rw [hz, this]
    unfold h2o_left poreWater
    simp
  · rw [← h2o_left_pore hz]
    congr 1
    rw [← hf.depth]; field_simp

/-- The depth `adj_snow` leaves when the pack stays. -/
theorem adj_snow_depth (hmax : 0 < c.max_z_s_0) (hsm : 0 ≤ c.small_threshold) (dz dm : ℝ) {s : Snow}
    (h0 : 0 < s.z_s_0) (hz : 0 < s.z_s) (h : (adj_snow c dz dm s).snowcover = true) :
    (adj_snow c dz dm s).z_s = clipDepth (s.z_s + dz) (s.m_s + dm) ∧ 0 < s.z_s + dz := by
  unfold clipDepth
  by_cases hr : adjRho dz dm s > 600
  · rw [adj_snow_clip hr] at h ⊢
    rcases adj_layers_cases hmax { s with z_s := (s.m_s + dm) / 600, m_s := s.m_s + dm, rho := 600 }
      with ⟨a, h1, h2, h3, h4⟩ | ⟨a, h1⟩
    · rw [h4]
      have hm : 0 < s.m_s + dm := lt_of_le_of_lt hsm h1
      unfold adjRho at hr
      have hzz : 0 < s.z_s + dz := by
        by_contra hn
        rcases (not_lt.mp hn).lt_or_eq with h5 | h5
        · rw [if_pos h5.ne] at hr
          have := div_neg_of_pos_of_neg hm h5
          linarith
        · rw [if_neg (by rw [h5]; simp)] at hr
          linarith
      refine ⟨?_, hzz⟩
      rw [if_pos hzz.ne', gt_iff_lt, lt_div_iff₀ hzz] at hr
      show (s.m_s + dm) / 600 = _
      rw [max_eq_right]
      rw [le_div_iff₀ (by norm_num)]
      linarith
    · rw [a.snowcover] at h; cases h
  · have hle : 0 < s.z_s + dz → (s.m_s + dm) / 600 ≤ s.z_s + dz := by
      intro hzz
      unfold adjRho at hr
      rw [if_pos hzz.ne', gt_iff_lt, not_lt, div_le_iff₀ hzz] at hr
      rw [div_le_iff₀ (by norm_num)]
      linarith
    by_cases hd : dz = 0
    · subst hd
      rw [adj_snow_still hr]
      have hzz : 0 < s.z_s + 0 := by rw [add_zero]; exact hz
      refine ⟨?_, hzz⟩
      rw [max_eq_left (hle hzz)]
      exact (add_zero _).symm
    · rw [adj_snow_move hr hd] at h ⊢
      rcases adj_layers_cases hmax { s with z_s := s.z_s + dz, m_s := s.m_s + dm, rho := adjRho dz dm s }
        with ⟨a, h1, h2, h3, h4⟩ | ⟨a, h1⟩
      · have hzz : 0 < s.z_s + dz := h2
        rw [h4, max_eq_left (hle hzz)]
        exact ⟨rfl, hzz⟩
      · rw [a.snowcover] at h; cases h

theorem Inv.dens {s : Snow} (h : Inv c s) (h0 : 0 < s.z_s_0) : s.rho = s.m_s / s.z_s := by
  have := h.z_pos h0
  rw [(h.pack h0).1]; field_simp

/-- The lower layer is neither cold nor below freezing unless the pack before was. -/
theorem Stay.ripe {m : ℝ} {s s' : Snow} (a : Stay c s m s') (h1 : 0 ≤ s.cc_s_l) (h2 : FREEZE ≤ s.t_s) :
    0 ≤ s'.cc_s_l ∧ FREEZE ≤ s'.t_s := by
  refine ⟨?_, by rw [a.t_s]; exact h2⟩
  rcases a.lower with h | h | h
  · rw [h.2]; exact h1
  · rw [h.2.2.2]
  · rw [h.2.2.2.1]
    unfold cold_content
    rw [if_neg (not_lt.mpr h2)]

/-- Both ledgers along the routines of a step through which the cover lasts. -/
theorem StepChain.ledgers {g : Config} {x : RStep Phys} (hc : c.OK) (hv : c.max_h2o_vol = g.max_h2o)
    (hdt : 0 < dt) (k : StepChain c dt dl x.pre x.post s0 s1 s2 s3 s4 s5 s6)
    (hh : 0 ≤ x.pre.snow.h2o) (hf : x.post.input1.precip_now = true → StepForcing x.post.input1)
    (hs : x.post.snow.snowcover = true) :
    ∃ r0 rl w, WaterBooks g dt x r0 rl w ∧ DepthBooks dt x w s1.z_s s2.z_s s3.z_s s4.z_s ∧
      ∃ t, MeltRes dt s2 t (r0 + rl) ∧ Stay c t s2.m_s s3 ∧
        lh_fus FREEZE * rl = if s2.layer_count = 2 then t.cc_s_l - min 0 (meltQl dt s2) else 0 := by
  have hmax := hc.max_z
  obtain ⟨f6, f5, f4, f3, f2, f1, f0, hl⟩ := k.persist hmax hs
  obtain ⟨x1, x2, x3⟩ := k.fluxE hmax f5
  have b2 := k.books2 hc hh hf
  have st1 := (k.flag1 hmax f1).2
  have rn := (k.flag2 hmax f2).2
  obtain ⟨u, ru, ru'⟩ := rn.stay
  obtain ⟨_, t, r, hm, st3⟩ := k.flag3 hmax f3
  obtain ⟨_, _, el, w, _, hw, hE, st4, _⟩ := k.flag4 hmax f4
  obtain ⟨_, st5, _⟩ := k.flag5 hmax f5
  obtain ⟨_, _, _, d4, d5, d6, _, _, _, den, dcc, _, _, _, _, _, _, dz, _⟩ := k.drained hmax f5
  have e0 : s0.m_s = x.pre.snow.m_s ∧ s0.h2o = x.pre.snow.h2o ∧ s0.h2o_total = 0 ∧
      s0.cc_s_0 = x.pre.snow.cc_s_0 ∧ s0.cc_s_l = x.pre.snow.cc_s_l ∧ s0.t_s = x.pre.snow.t_s ∧
      s0.rho = x.pre.snow.rho ∧ s0.z_s = x.pre.snow.z_s := by
    rw [k.start]; exact ⟨rfl, rfl, rfl, rfl, rfl, rfl, rfl, rfl⟩
  have e7 : x.post.snow.m_s = s6.m_s ∧ x.post.snow.h2o = s6.h2o ∧ x.post.snow.swi = s6.swi ∧
      x.post.snow.cc_s_0 = s6.cc_s_0 ∧ x.post.snow.en = s6.en ∧ x.post.snow.z_s = s6.z_s := by
    rw [k.frame7]; exact ⟨rfl, rfl, rfl, rfl, rfl, rfl⟩
  have eu : s2.cc_s_0 = u.cc_s_0 ∧ s2.cc_s_l = u.cc_s_l ∧ s2.en = u.en ∧ s2.t_s = u.t_s := by
    rw [ru']; exact ⟨rfl, rfl, rfl, rfl⟩
  have et : t.en = s2.en ∧ t.z_s = s2.z_s ∧ t.z_s_0 = s2.z_s_0 ∧ t.m_s = s2.m_s ∧ t.rho = s2.rho ∧
      t.snowcover = s2.snowcover := by
    rw [hm.frame]; exact ⟨rfl, rfl, rfl, rfl, rfl, rfl⟩
  have h02 := k.i2.flag f2
  have hz2 := k.i2.z_pos h02
  have h03 := k.i3.flag f3
  have hz3 := k.i3.z_pos h03
  have h04 := k.i4.flag f4
  have hz4 := k.i4.z_pos h04
  have h01 := k.i1.flag f1
  have hz1 := k.i1.z_pos h01
  have h00 := k.i0.flag f0
  have hz0 := k.i0.z_pos h00
  -- quantities of the water ledger
  have hen : x.post.snow.en = s2.en := by
    rw [e7.2.2.2.2.1, den, st5.en, st4.en]; exact st3.en.trans et.1
  have hcc2 : s2.cc_s_0 = x.pre.snow.cc_s_0 := by rw [eu.1, ru.cc0, st1.cc0, e0.2.2.2.1]
  have hcc : x.post.snow.cc_s_0 = t.cc_s_0 := by
    rw [e7.2.2.2.1, dcc, st5.cc0, st4.cc0]; exact st3.cc0
  have hmelt : x.post.snow.melt = t.melt := by rw [x3]; exact st3.melt
  have hQ : meltQ0 dt s2 = x.pre.snow.cc_s_0 + x.post.snow.en.delta_Q_0 * dt := by
    unfold meltQ0; rw [hcc2, hen]; ring
  have hwat : s2.h2o_total = x.pre.snow.h2o + waterIn g x := by
    rw [rn.water, st1.h2o_total, e0.2.2.1, st1.h2o, e0.2.1]
    unfold waterIn
    by_cases hp : x.post.input1.precip_now = true
    · rw [if_pos hp, if_pos hp, wetWater_pore (hf hp), hv]; ring
    · rw [if_neg hp, if_neg hp]; ring
  have hmass : s2.m_s = x.pre.snow.m_s + x.precip := by
    rw [rn.mass, st1.m_s, e0.1]; rfl
  have hrb := hm.refrozen hmax k.i2 h02 b2.total
  have hlf : (0:ℝ) < lh_fus FREEZE := by rw [lf_eq]; norm_num
  have htot : 0 ≤ s2.h2o_total + t.melt := add_nonneg b2.total hm.melt_nonneg
  have hratio : 0 ≤ s2.z_s_l / s2.z_s := div_nonneg k.i2.zl hz2.le
  have hw3 : s3.h2o_total = t.h2o_total := st3.h2o_total
  have hout : x.post.snow.h2o + x.post.snow.swi = w := by
    rw [e7.2.1, e7.2.2.1, d5, st5.h2o_total, st4.h2o_total]
  have hel : el = x.post.snow.E_s - x.post.snow.E * dt := by rw [x2, x1, hE]; ring
  have hsurf : min 0 (meltQ0 dt s2) ≤ t.cc_s_0 := by
    rcases hm.surf with e | ⟨f, _, hff, hq, hwp, e⟩
    · rw [e]
    · rw [e]
      refine min_le_min (le_refl _) ?_
      have : 0 ≤ (s2.h2o_total + t.melt) * f * lh_fus FREEZE := by
        rw [hff]; positivity
      linarith
  obtain ⟨r0, hr0⟩ : ∃ r0, r0 = (t.cc_s_0 - min 0 (meltQ0 dt s2)) / lh_fus FREEZE := ⟨_, rfl⟩
  have hr0' : lh_fus FREEZE * r0 = t.cc_s_0 - min 0 (meltQ0 dt s2) := by rw [hr0]; field_simp
  have hrl' : lh_fus FREEZE * (r - r0) =
      if s2.layer_count = 2 then t.cc_s_l - min 0 (meltQl dt s2) else 0 := by
    rw [mul_sub, hm.energy, hr0']; ring
  refine ⟨r0, r - r0, t.h2o_total, ⟨?_, ?_, ?_, ?_, ?_, ?_, ?_⟩, ?_, t, by rw [add_sub_cancel]; exact hm, st3, hrl'⟩
  · rw [hr0', hcc, hQ]
  · rw [hr0]; exact div_nonneg (by linarith) hlf.le
  · by_contra hn
    have h1 : lh_fus FREEZE * (r - r0) < 0 := mul_neg_of_pos_of_neg hlf (not_le.mp hn)
    rw [hrl'] at h1
    split at h1
    · rename_i h2
      have := hm.ccl_ge hratio htot h2
      linarith
    · exact lt_irrefl _ h1
  · intro hne
    by_contra hn
    push Not at hn
    obtain ⟨n1, n2, n3⟩ := hn
    have q1 := st1.ripe (by rw [e0.2.2.2.2.1]; exact n1) (by rw [e0.2.2.2.2.2.1]; exact n2)
    have q2 := ru.ripe q1.1 q1.2
    have hne' : lh_fus FREEZE * (r - r0) ≠ 0 := mul_ne_zero hlf.ne' hne
    rw [hrl'] at hne'
    split at hne'
    · rename_i h2
      have hql : 0 ≤ meltQl dt s2 := by
        unfold meltQl
        rw [if_pos h2, eu.2.1]
        rw [hen] at n3
        have : 0 ≤ (s2.en.G - s2.en.G_0) * dt := mul_nonneg (by linarith) hdt.le
        linarith [q2.1]
      have a1 := hm.ccl_ge hratio htot h2
      have a2 := hm.ccl h2
      rw [min_eq_left hql] at a1 hne'
      exact hne' (by linarith)
    · exact hne' rfl
  · rw [hmelt, ← hwat]; linarith [hrb.2]
  · rw [hmelt, ← hwat]
    have : r0 + (r - r0) = r := by ring
    rw [this, hm.water, abs_of_nonneg (by linarith [hrb.2])]
  · rw [hout, hw, evapH2o_spec, evapH2o_spec, hw3, hel, x1]
  -- depth
  · have m3 : s3.m_s = s2.m_s := st3.m_s
    have hm4 : s4.m_s = x.pre.snow.m_s + x.precip + x.post.snow.E_s := by
      rw [st4.m_s, m3, hmass, x2]
    refine ⟨⟨hz1, hz2, hz3, hz4⟩, ⟨fun h => ?_, fun h hm0 => ?_⟩, ?_, ?_, ?_, ?_⟩
    · rcases time_compact_ok k.tc with ⟨_, e⟩ | ⟨_, hr, _⟩
      · rw [e, e0.2.2.2.2.2.2.2]
      · rw [e0.2.2.2.2.2.2.1] at hr; linarith
    · have hr0 : 0 < s0.rho := by
        rw [k.i0.dens h00, e0.1]; exact div_pos hm0 hz0
      obtain ⟨s', hs', _, q2, q3⟩ := C27_gravity_compaction c hmax dt hdt s0
        ⟨f0, hr0, hz0, (k.i0.pack h00).1⟩
      rw [k.tc] at hs'; cases hs'
      have hr : s0.rho < 550 := by rw [e0.2.2.2.2.2.2.1]; exact h
      by_cases ht : c.small_threshold < s0.m_s
      · obtain ⟨q2, q2'⟩ := q2 hr ht
        have := q2.depth
        rw [e0.2.2.2.2.2.2.2] at this
        refine ⟨this, ?_⟩
        rw [e0.2.2.2.2.2.2.1, e0.2.2.2.2.2.1, e0.1] at q2'
        rw [← q2', ← e0.1, ← q2.mass, q2.ground.mass]
        have := q2.ground.rho
        field_simp
      · have := (q3 hr (not_lt.mp ht)).cover
        rw [f1] at this; cases this
    · rcases precip_event_ok k.pe with ⟨hp, e⟩ | ⟨hp, _, t', ht', e⟩ | ⟨_, hs', _⟩ | ⟨_, hs', _⟩
      · rw [hp, if_neg (by simp), e]
      · rw [if_pos hp]
        have hcov : t'.snowcover = true := by rw [e] at f2; exact f2
        have hz : s2.z_s = t'.z_s := by rw [e]
        rw [ht'] at hcov
        have hpr : x.precip = x.post.input1.m_pp := if_pos hp
        rw [hz, ht', (adj_snow_depth hmax hc.small _ _ h01 hz1 hcov).1, st1.m_s, e0.1, hpr]
      · rw [f1] at hs'; cases hs'
      · rw [f1] at hs'; cases hs'
    · rcases snowmelt_ok k.sm with ⟨hs', _⟩ | ⟨_, t', r', hm', h⟩
      · rw [f2] at hs'; cases hs'
      · have et' : t'.z_s = s2.z_s ∧ t'.z_s_0 = s2.z_s_0 ∧ t'.m_s = s2.m_s ∧ t'.rho = s2.rho := by
          rw [hm'.frame]; exact ⟨rfl, rfl, rfl, rfl⟩
        rcases h with ⟨h1, _, e⟩ | ⟨h1, e⟩
        · have hme : x.post.snow.melt = t'.melt := by rw [x3, e]; exact (adj_snow_flux c _ _ _).melt
          rw [e] at f3
          rw [hme, if_pos h1, e, (adj_snow_depth hmax hc.small _ _ (by rw [et'.2.1]; exact h02)
            (by rw [et'.1]; exact hz2) f3).1, et'.1, et'.2.2.1, et'.2.2.2, hmass, add_zero,
            k.i2.dens h02, hmass]
          congr 1
          ring
        · have hme : x.post.snow.melt = t'.melt := by rw [x3, e]
          rw [hme, if_neg h1, e, et'.1]
    · rcases evap_cond_ok k.ec with ⟨hs', _⟩ | ⟨_, h0, _⟩ | ⟨_, _, el', w', h1, h2, _, e⟩
      · rw [f3] at hs'; cases hs'
      · have := (k.i3.lc_pos_iff hmax).mpr h03
        omega
      · have hE' : s4.E_s = s3.E * dt + el' := by rw [e]; exact (adj_snow_flux c _ _ _).E_s
        have ee : el' = el := by linarith
        rw [ee, ← hw] at h2
        rw [e] at f4
        rw [ee, h2] at f4 e
        obtain ⟨y, hy⟩ : ∃ y : Snow, y = { s3 with h2o_total := w, E_s := s3.E * dt + el } := ⟨_, rfl⟩
        have ey : y.z_s = s3.z_s ∧ y.z_s_0 = s3.z_s_0 ∧ y.m_s = s3.m_s := by rw [hy]; exact ⟨rfl, rfl, rfl⟩
        rw [← hy] at e f4
        rw [e, (adj_snow_depth hmax hc.small _ _ (by rw [ey.2.1]; exact h03) (by rw [ey.1]; exact hz3) f4).1,
          ey.1, ey.2.2]
        show clipDepth (s3.z_s + (s3.E * dt + el + s3.h2o_total - w) / s3.rho / 2) (s3.m_s + (s3.E * dt + el)) = _
        rw [k.i3.dens h03, m3, hmass, hout, ← hE, ← x2, hw3]
        congr 3
        ring
    · intro m4 hm4' hpos
      have hm4e : s4.m_s = m4 := by rw [hm4, hm4']
      have hdn : s4.rho = m4 / s4.z_s := by rw [k.i4.dens h04, hm4e]
      have hme4 : s4.melt = x.post.snow.melt := by rw [x3]; exact st4.melt
      obtain ⟨s', hs', q1, q2, q3, q4⟩ := C28_water_compaction c hmax x.post.input1 s4
        ⟨f4, by rw [hdn]; exact div_pos hpos hz4, hz4, (k.i4.pack h04).1⟩
      rw [k.hc] at hs'; cases hs'
      unfold addedWater at q1 q2 q3
      rw [hme4, hm4e] at q1 q2 q3
      rw [hdn] at q1 q2 q3 q4
      rw [hm4e] at q4
      have hz5 : x.post.snow.z_s = s5.z_s := by rw [e7.2.2.2.2.2, dz]
      rw [hz5]
      constructor
      · intro hor
        rcases hor with h | h
        · rw [q1 (.inl h)]
        · rcases h.lt_or_eq with h | h
          · rw [q1 (.inr h)]
          · by_cases hst : c.small_threshold < m4
            · exact (q4 h.symm hst).2.1
            · rcases h2o_compact_ok k.hc with ⟨_, e⟩ | ⟨_, _, w5, _, ⟨_, e⟩ | ⟨_, r5, hr5, _, e⟩⟩
              · rw [e]
              · rw [e]
              · exfalso
                rw [e] at f5
                rcases adj_layers_cases hmax { s4 with rho := r5, z_s := s4.m_s / r5 } with ⟨_, b, _⟩ | ⟨a, _⟩
                · exact hst (by rw [← hm4e]; exact b)
                · rw [a.snowcover] at f5; cases f5
      · intro h1 h2
        by_cases hst : c.small_threshold < m4
        · obtain ⟨q2, _, q2'⟩ := q2 h1 h2 (by exact hst)
          refine ⟨q2.depth, ?_⟩
          rw [← q2', ← hm4e, ← q2.mass, q2.ground.mass]
          have := q2.ground.rho
          field_simp
        · have := (q3 h1 h2 (not_lt.mp hst)).cover
          rw [f5] at this; cases this

/-- C54, run step: with admissible data, in every run step through which the snow cover lasts the liquid
water is accounted for: what was retained, what rain and wet snow bring and what melts, minus what
refreezes, minus its share of the vapour exchange, is what is retained and what runs off. -/
theorem C54_liquid_water_step (g : Config) (hg : g.Tiled) (ha : g.AdmissibleStart) (rows : List Rec)
    (hr : ∀ r ∈ rows, r.Admissible) (ls : List (List (RStep Phys))) (m : Model)
    (h : RunTrace g rows ls m) : ∃ ts, parse_time_steps g = .ok ts ∧
      ∀ l ∈ ls, ∀ x ∈ l, x.post.snow.snowcover = true →
        ∃ r0 rl w, WaterBooks g (ts x.lv).time_step x r0 rl w := by
  obtain ⟨c, ts, hc, hts, ho, ht, hx⟩ := trace_closed hg ha hr h
  refine ⟨ts, hts, fun l hl x hxl hs => ?_⟩
  obtain ⟨d, ⟨h1, h1'⟩, _, hf, h3, _⟩ := hx l hl x hxl
  obtain ⟨s0, s1, s2, s3, s4, s5, s6, k⟩ := step_chain ho.max_z h1 h3
  obtain ⟨r0, rl, w, hb, _⟩ := k.ledgers (g := g) ho (mkEnv_ok hc).2.2.1 (ht.step_pos x.lv) h1' hf hs
  exact ⟨r0, rl, w, hb⟩

/-- C55, run step: with admissible data, in every run step through which the snow cover lasts the depth
follows from compaction, precipitation, melt and vapour exchange as the ledger `DepthBooks` says. -/
theorem C55_depth_step (g : Config) (hg : g.Tiled) (ha : g.AdmissibleStart) (rows : List Rec)
    (hr : ∀ r ∈ rows, r.Admissible) (ls : List (List (RStep Phys))) (m : Model)
    (h : RunTrace g rows ls m) : ∃ ts, parse_time_steps g = .ok ts ∧
      ∀ l ∈ ls, ∀ x ∈ l, x.post.snow.snowcover = true →
        ∃ r0 rl w, WaterBooks g (ts x.lv).time_step x r0 rl w ∧
          ∃ z1 z2 z3 z4, DepthBooks (ts x.lv).time_step x w z1 z2 z3 z4 := by
  obtain ⟨c, ts, hc, hts, ho, ht, hx⟩ := trace_closed hg ha hr h
  refine ⟨ts, hts, fun l hl x hxl hs => ?_⟩
  obtain ⟨d, ⟨h1, h1'⟩, _, hf, h3, _⟩ := hx l hl x hxl
  obtain ⟨s0, s1, s2, s3, s4, s5, s6, k⟩ := step_chain ho.max_z h1 h3
  obtain ⟨r0, rl, w, hb, hd, _⟩ := k.ledgers (g := g) ho (mkEnv_ok hc).2.2.1 (ht.step_pos x.lv) h1' hf hs
  exact ⟨r0, rl, w, hb, _, _, _, _, hd⟩

end

end Pysnobal
