import Verif.Props.Cold
import Verif.Props.Compaction

/-! # C23: snow mass and depth -/

namespace Pysnobal

noncomputable section

variable {c : Env} {dt : ℝ} {dl : InputData} {p p' : Phys} {s0 s1 s2 s3 s4 s5 s6 : Snow}

/-- Ice in the pack: its mass without the liquid water it holds. -/
def Snow.ice (s : Snow) : ℝ := s.m_s - s.h2o

/-- Ice that falls on the pack during a run step: the snowfall without the liquid water it brings (wet
snow arrives saturated). -/
def iceIn (c : Env) (x : RStep Phys) : ℝ :=
  if x.post.input1.precip_now then
    x.post.input1.m_snow -
      h2o_left x.post.input1.z_snow x.post.input1.rho_snow (x.post.input1.h2o_sat_snow * c.max_h2o_vol)
  else 0

/-- Mass lost as vapour in a run step of length `dt`: at the surface (the flux `E`) and at the soil (the
rest of the reported exchange `E_s`). -/
def vapourLoss (dt : ℝ) (s : Snow) : ℝ := max 0 (-(s.E * dt)) + max 0 (-(s.E_s - s.E * dt))

/-- Liquid water gives at most the vapour it loses, and takes at most what condenses. -/
theorem evapH2o_diff (w e : ℝ) (hw : 0 ≤ w) : -(max 0 (-e)) ≤ e - (evapH2o w e - w) := by
  unfold evapH2o VAP_SUB
  split
  · dsimp only
    split
    · rename_i h1 h2
      rcases le_total 0 e with h | h
      · rw [max_eq_left (by linarith)]; nlinarith
      · rw [max_eq_right (by linarith)]; linarith
    · rename_i h1 h2
      rcases le_total 0 e with h | h
      · rw [max_eq_left (by linarith)]; nlinarith
      · rw [max_eq_right (by linarith)]; nlinarith
  · rcases le_total 0 e with h | h
    · rw [max_eq_left (by linarith)]; linarith
    · rw [max_eq_right (by linarith)]; linarith

theorem StepChain.fluxE (hmax : 0 < c.max_z_s_0) (k : StepChain c dt dl p p' s0 s1 s2 s3 s4 s5 s6)
    (h5 : s5.snowcover = true) : p'.snow.E = s3.E ∧ p'.snow.E_s = s4.E_s ∧ p'.snow.melt = s3.melt := by
  obtain ⟨f4, st5, _⟩ := k.flag5 hmax h5
  obtain ⟨_, _, el, w, _, _, _, st4, _⟩ := k.flag4 hmax f4
  obtain ⟨_, _, _, _, _, _, d1, d2, d3, _⟩ := k.drained hmax h5
  have e : p'.snow.E = s6.E ∧ p'.snow.E_s = s6.E_s ∧ p'.snow.melt = s6.melt := by
    rw [k.frame7]; exact ⟨rfl, rfl, rfl⟩
  have e4 : s4.E = s3.E ∧ s4.melt = s3.melt := ⟨st4.E, st4.melt⟩
  exact ⟨by rw [e.1, d3, st5.E, e4.1], by rw [e.2.1, d2, st5.E_s], by rw [e.2.2, d1, st5.melt, e4.2]⟩

/-- The ice budget of a step through which the cover lasts. -/
theorem StepChain.ice (hc : c.OK) (k : StepChain c dt dl p p' s0 s1 s2 s3 s4 s5 s6)
    (hh : 0 ≤ p.snow.h2o) (hf : p'.input1.precip_now = true → StepForcing p'.input1)
    (hs : p'.snow.snowcover = true) :
    p.snow.ice + (if p'.input1.precip_now then p'.input1.m_snow - wetWater c p'.input1 else 0) -
      p'.snow.melt - vapourLoss dt p'.snow ≤ p'.snow.ice := by
  obtain ⟨f6, f5, f4, f3, f2, f1, f0, hl⟩ := k.persist hc.max_z hs
  obtain ⟨x1, x2, x3⟩ := k.fluxE hc.max_z f5
  have b2 := k.books2 hc hh hf
  have st1 := (k.flag1 hc.max_z f1).2
  have rn := (k.flag2 hc.max_z f2).2
  obtain ⟨_, t, r, hm, st3⟩ := k.flag3 hc.max_z f3
  obtain ⟨_, _, el, w, _, hw, hE, st4, _⟩ := k.flag4 hc.max_z f4
  obtain ⟨_, st5, _⟩ := k.flag5 hc.max_z f5
  obtain ⟨_, _, _, d4, d5, _⟩ := k.drained hc.max_z f5
  have e0 : s0.m_s = p.snow.m_s ∧ s0.h2o = p.snow.h2o ∧ s0.h2o_total = 0 := by
    rw [k.start]; exact ⟨rfl, rfl, rfl⟩
  have e7 : p'.snow.m_s = s6.m_s ∧ p'.snow.h2o = s6.h2o := by rw [k.frame7]; exact ⟨rfl, rfl⟩
  -- liquid water before and after melt
  have hr := hm.refrozen hc.max_z k.i2 (k.i2.flag f2) b2.total
  have w3 : s3.h2o_total ≤ s2.h2o_total + t.melt := by
    rw [st3.h2o_total, hm.water]
    split
    · linarith [hm.melt_nonneg, b2.total]
    · linarith [hr.1]
  have w3n : 0 ≤ s3.h2o_total := by
    rw [st3.h2o_total]; exact hm.total_nonneg hc.max_z k.i2 (k.i2.flag f2) b2.total
  have m3 : s3.melt = t.melt := st3.melt
  -- evaporation
  have v1 := evapH2o_diff s3.h2o_total (s3.E * dt) w3n
  have v2 := evapH2o_diff (evapH2o s3.h2o_total (s3.E * dt)) el (evapH2o_nonneg w3n)
  have hel : el = s4.E_s - s3.E * dt := by rw [hE]; ring
  rw [← hw] at v2
  have w4 : s4.h2o_total = w := st4.h2o_total
  have m4 : s4.m_s = s3.m_s + s4.E_s := st4.m_s
  have hmass := rn.mass
  have hwat := rn.water
  have s1m : s1.m_s = p.snow.m_s := by rw [st1.m_s, e0.1]
  have s1w : s1.h2o_total = 0 := by rw [st1.h2o_total, e0.2.2]
  have s1h : s1.h2o = p.snow.h2o := by rw [st1.h2o, e0.2.1]
  have s3m : s3.m_s = s2.m_s := st3.m_s
  unfold Snow.ice vapourLoss
  rw [x1, x2, x3, e7.1, e7.2, d4]
  have s5m : s5.m_s = s4.m_s := st5.m_s
  have s5w : s5.h2o_total = s4.h2o_total := st5.h2o_total
  rw [hel] at v2
  by_cases hp : p'.input1.precip_now = true
  · have F := hf hp
    simp only [hp, if_true] at hmass hwat ⊢
    rw [F.m_pp] at hmass
    linarith
  · have hp' : p'.input1.precip_now = false := by simpa using hp
    simp only [hp', Bool.false_eq_true, if_false] at hmass hwat ⊢
    linarith

/-- C23, the ice budget: in every run step through which the snow cover lasts, the pack loses at most its
melt and its vapour loss of ice. -/
theorem C23_ice_budget_step (g : Config) (hg : g.Tiled) (ha : g.AdmissibleStart) (rows : List Rec)
    (hr : ∀ r ∈ rows, r.Admissible) (ls : List (List (RStep Phys))) (m : Model)
    (h : RunTrace g rows ls m) (c : Env) (ts : Tsteps) (hc : mkEnv g = .ok c)
    (hts : parse_time_steps g = .ok ts) : ∀ l ∈ ls, ∀ x ∈ l, x.post.snow.snowcover = true →
      x.pre.snow.ice + iceIn c x - x.post.snow.melt - vapourLoss (ts x.lv).time_step x.post.snow ≤
        x.post.snow.ice := by
  obtain ⟨c', ts', hc', hts', ho, ht, hx⟩ := trace_closed hg ha hr h
  rw [hc] at hc'; cases hc'
  rw [hts] at hts'; cases hts'
  intro l hl x hxl hs
  obtain ⟨d, ⟨h1, h1'⟩, h2, hf, h3, _⟩ := hx l hl x hxl
  obtain ⟨s0, s1, s2, s3, s4, s5, s6, k⟩ := step_chain ho.max_z h1 h3
  exact k.ice ho h1' hf hs

/-! ## Depth -/

theorem adj_layers_z (hmax : 0 < c.max_z_s_0) {s : Snow} (h : s.m_s ≤ c.small_threshold ∨ 0 ≤ s.z_s) :
    0 ≤ (adj_layers c s).z_s := by
  have e : (adj_layers c s).z_s = (s.calc_layers c).z_s := by
    by_cases h0 : (s.calc_layers c).layer_count = 0
    · unfold adj_layers
      simp only [h0, if_true]
      split <;> rfl
    · unfold adj_layers
      simp only [h0, if_false]
      split
      · rfl
      · split <;> rfl
  rw [e]
  rcases calc_cases c hmax s with h1 | h1 | h1 | h1
  · rw [h1.2.1]
  · rcases h with h | h
    · exact absurd h (not_le.mpr h1.1)
    · rw [h1.2.2.1]; exact h
  · rw [h1.2.2.2.1]; exact h1.2.1.le
  · rw [h1.2.2.2.1]; linarith [h1.2.1]

theorem adj_snow_z (hmax : 0 < c.max_z_s_0) {s : Snow} (dz dm : ℝ) (hz : 0 ≤ s.z_s + dz)
    (hz0 : 0 ≤ s.z_s) : 0 ≤ (adj_snow c dz dm s).z_s := by
  by_cases hr : adjRho dz dm s > 600
  · rw [adj_snow_clip hr]
    refine adj_layers_z hmax (.inr ?_)
    show 0 ≤ (s.m_s + dm) / 600
    unfold adjRho at hr
    by_cases hne : s.z_s + dz ≠ 0
    · rw [if_pos hne] at hr
      have hpos : 0 < s.z_s + dz := lt_of_le_of_ne hz (Ne.symm hne)
      have : 0 ≤ s.m_s + dm := by
        rw [gt_iff_lt, lt_div_iff₀ hpos] at hr
        nlinarith
      positivity
    · rw [if_neg hne] at hr; norm_num at hr
  · by_cases h0 : dz = 0
    · subst h0
      rw [adj_snow_still hr]
      exact hz0
    · rw [adj_snow_move hr h0]
      exact adj_layers_z hmax (.inr hz)

theorem init_snow_z (hmax : 0 < c.max_z_s_0) {s s' : Snow} (hz : 0 ≤ s.z_s)
    (h : init_snow c s = .ok s') : 0 ≤ s'.z_s := by
  unfold init_snow initLayers at h
  have hc := calc_cases c hmax { s with m_s := s.rho * s.z_s }
  have e : s'.z_s = (Snow.calc_layers c { s with m_s := s.rho * s.z_s }).z_s := by
    generalize Snow.calc_layers c { s with m_s := s.rho * s.z_s } = s1 at h
    by_cases h0 : s1.layer_count = 0
    · rw [if_pos h0] at h
      simp only [Except.ok.injEq] at h
      rw [← h]; rfl
    · rw [if_neg h0] at h
      obtain ⟨d, _, _, e⟩ := initWater_ok h
      rw [e]; rfl
  rw [e]
  rcases hc with h1 | h1 | h1 | h1
  · rw [h1.2.1]
  · rw [h1.2.2.1]; exact hz
  · rw [h1.2.2.2.1]; exact h1.2.1.le
  · rw [h1.2.2.2.1]
    have : c.max_z_s_0 < s.z_s := h1.2.1
    show 0 ≤ s.z_s
    exact hz

/-- The snow-depth of a step: non-negative if the melt and the vapour loss are within the mass. -/
theorem StepChain.depth (hc : c.OK) (hdt : 0 < dt) (k : StepChain c dt dl p p' s0 s1 s2 s3 s4 s5 s6)
    (hh : 0 ≤ p.snow.h2o) (hf : p'.input1.precip_now = true → StepForcing p'.input1)
    (hz : 0 ≤ p.snow.z_s) (hm0 : 0 ≤ p.snow.m_s)
    (hmelt : p'.snow.melt ≤ p.snow.m_s + stepPrecip p')
    (hvap : vapourLoss dt p'.snow ≤ p.snow.m_s + stepPrecip p') : 0 ≤ p'.snow.z_s := by
  have hmax := hc.max_z
  have b2 := k.books2 hc hh hf
  obtain ⟨b3, _⟩ := k.books3 hc b2
  have pp : 0 ≤ stepPrecip p' := by
    unfold stepPrecip
    split
    · rename_i hp
      have F := hf hp
      rw [F.m_pp]; linarith [F.snow, F.rain]
    · exact le_refl _
  have e0 : s0.m_s = p.snow.m_s ∧ s0.z_s = p.snow.z_s ∧ s0.rho = p.snow.rho := by
    rw [k.start]; exact ⟨rfl, rfl, rfl⟩
  -- after compaction
  have z1 : 0 ≤ s1.z_s := by
    rcases time_compact_ok k.tc with ⟨_, e⟩ | ⟨hs, _, rate, d1, d2, hrate, _, hd1, hd2, hr, e⟩
    · rw [e, e0.2.1]; exact hz
    · rw [e]
      refine adj_layers_z hmax ?_
      show s0.m_s ≤ _ ∨ 0 ≤ s0.m_s / (s0.rho + (d1 + d2) * s0.rho)
      right
      have z0 := k.i0.flag hs
      have hpk := (k.i0.pack z0).1
      have hzp := k.i0.z_pos z0
      have hrho : 0 ≤ s0.rho := by
        have : 0 ≤ s0.rho * s0.z_s := by rw [← hpk, e0.1]; exact hm0
        exact nonneg_of_mul_nonneg_left this hzp
      obtain ⟨rate', hr', hpos, _⟩ := compactRate_pos hdt s0
      rw [hrate] at hr'
      cases hr'
      have hmn : 0 ≤ s0.m_s := by rw [e0.1]; exact hm0
      have n1 : 0 ≤ d1 := by
        rw [hd1]
        have : (0 : ℝ) ≤ if s0.rho < 100 then 1 else Real.exp (-0.046 * (s0.rho - 100)) := by
          split
          · exact zero_le_one
          · exact (Real.exp_pos _).le
        positivity
      have n2 : 0 ≤ d2 := by rw [hd2]; positivity
      positivity
  -- after precipitation
  have z2 : 0 ≤ s2.z_s := by
    rcases precip_event_ok k.pe with ⟨_, e⟩ | ⟨hp, hs, t, ht, e⟩ | ⟨hp, hs, hm, t, ht, e⟩ | ⟨_, hs, _, e⟩
    · rw [e]; exact z1
    · rw [e, ht]
      have F := hf hp
      exact adj_snow_z hmax _ _ (by linarith [F.z]) z1
    · rw [e]
      have F := hf hp
      show 0 ≤ t.z_s
      exact init_snow_z hmax (s := freshSnow p'.input1 s1) F.z ht
    · rw [e]; exact z1
  cases f2 : s2.snowcover
  · rw [k.dead2 f2]; exact z2
  have zz2 := k.i2.flag f2
  have hm2 : s2.m_s = p.snow.m_s + stepPrecip p' := b2.alive f2
  have hpk2 := (k.i2.pack zz2).1
  have hzp2 := k.i2.z_pos zz2
  have hrho2 : 0 ≤ s2.rho := by
    have : 0 ≤ s2.rho * s2.z_s := by rw [← hpk2, hm2]; linarith
    exact nonneg_of_mul_nonneg_left this hzp2
  -- the melt reported at the end is the melt of this step
  have hmeltR : p'.snow.melt = s3.melt := by
    cases f3 : s3.snowcover
    · rw [k.dead3 f3]
    cases f4 : s4.snowcover
    · rw [k.dead4 f4]; exact (k.books4 hc b3).2
    cases f5 : s5.snowcover
    · rw [k.dead5 f5]
      show s5.melt = s3.melt
      rw [(k.books5 hc (k.books4 hc b3).1).2.1, (k.books4 hc b3).2]
    exact (k.fluxE hmax f5).2.2
  have z3 : 0 ≤ s3.z_s := by
    rcases snowmelt_ok k.sm with ⟨_, e⟩ | ⟨_, t, r, hmr, ⟨hpos, hne, e⟩ | ⟨_, e⟩⟩
    · rw [e]; exact z2
    · have et : t.z_s = s2.z_s ∧ t.rho = s2.rho ∧ t.m_s = s2.m_s := by
        rw [hmr.frame]; exact ⟨rfl, rfl, rfl⟩
      have hmt : s3.melt = t.melt := by
        rw [e]
        have z0t : 0 < t.z_s_0 := by rw [hmr.frame]; exact zz2
        rcases adj_snow_cases hmax ((-1) * t.melt / t.rho) 0 z0t with ⟨a, _⟩ | ⟨a, _⟩
        · exact a.melt
        · exact a.melt
      rw [e]
      refine adj_snow_z hmax _ _ ?_ (by rw [et.1]; exact z2)
      have hrp : 0 < t.rho := by
        rw [et.2.1] at hne ⊢
        exact lt_of_le_of_ne hrho2 (Ne.symm hne)
      rw [et.1]
      have : s2.z_s + (-1) * t.melt / t.rho = (s2.m_s - t.melt) / t.rho := by
        rw [hpk2, ← et.2.1]; field_simp
        ring
      rw [this]
      have hle : t.melt ≤ s2.m_s := by rw [← hmt, ← hmeltR, hm2]; exact hmelt
      exact div_nonneg (by linarith) hrp.le
    · rw [e, hmr.frame]; exact z2
  cases f3 : s3.snowcover
  · rw [k.dead3 f3]; exact z3
  have zz3 := k.i3.flag f3
  have hm3 : s3.m_s = p.snow.m_s + stepPrecip p' := b3.alive f3
  have hpk3 := (k.i3.pack zz3).1
  have hzp3 := k.i3.z_pos zz3
  have hrho3 : 0 ≤ s3.rho := by
    have : 0 ≤ s3.rho * s3.z_s := by rw [← hpk3, hm3]; linarith
    exact nonneg_of_mul_nonneg_left this hzp3
  have z4 : 0 ≤ s4.z_s := by
    rcases evap_cond_ok k.ec with ⟨_, e⟩ | ⟨_, _, e⟩ | ⟨_, _, el, w, hsoil, hw, hne, e⟩
    · rw [e]; exact z3
    · rw [e]; exact z3
    · have hrp : 0 < s3.rho := lt_of_le_of_ne hrho3 (Ne.symm hne)
      rw [e]
      refine adj_snow_z hmax _ _ ?_ z3
      show 0 ≤ s3.z_s + (s3.E * dt + el + s3.h2o_total - w) / s3.rho / 2
      -- reported vapour exchange
      have hEs4 : s4.E_s = s3.E * dt + el ∧ s4.E = s3.E := by
        rw [e]
        rcases adj_snow_cases hmax ((s3.E * dt + el + s3.h2o_total - w) / s3.rho / 2) (s3.E * dt + el)
          (s := { s3 with h2o_total := w, E_s := s3.E * dt + el }) zz3 with ⟨a, _⟩ | ⟨a, _⟩
        · exact ⟨a.E_s, a.E⟩
        · exact ⟨a.E_s, a.E⟩
      have hEs : p'.snow.E_s = s4.E_s ∧ p'.snow.E = s4.E := by
        cases f4 : s4.snowcover
        · rw [k.dead4 f4]; exact ⟨rfl, rfl⟩
        cases f5 : s5.snowcover
        · rw [k.dead5 f5]
          show s5.E_s = s4.E_s ∧ s5.E = s4.E
          rcases h2o_compact_out hmax k.i4 k.hc with ⟨_, e⟩ | ⟨_, ⟨a, _⟩ | a⟩
          · rw [e]; exact ⟨rfl, rfl⟩
          · exact ⟨a.E_s, a.E⟩
          · exact ⟨a.E_s, a.E⟩
        · have q := k.fluxE hmax f5
          exact ⟨q.2.1, q.1.trans hEs4.2.symm⟩
      have v1 := evapH2o_diff s3.h2o_total (s3.E * dt) b3.total
      have v2 := evapH2o_diff (evapH2o s3.h2o_total (s3.E * dt)) el (evapH2o_nonneg b3.total)
      rw [← hw] at v2
      have key : -(s3.m_s) ≤ s3.E * dt + el + s3.h2o_total - w := by
        have hv := hvap
        unfold vapourLoss at hv
        rw [hEs.1, hEs.2, hEs4.1, hEs4.2] at hv
        have e1 : -(s3.E * dt + el - s3.E * dt) = -el := by ring
        rw [e1] at hv
        rw [hm3]
        linarith
      have e2 : s3.z_s + (s3.E * dt + el + s3.h2o_total - w) / s3.rho / 2 =
          (2 * s3.m_s + (s3.E * dt + el + s3.h2o_total - w)) / (2 * s3.rho) := by
        rw [hpk3]; field_simp
      rw [e2]
      refine div_nonneg ?_ (by positivity)
      have : 0 ≤ s3.m_s := by rw [hm3]; linarith
      linarith
  have z5 : 0 ≤ s5.z_s := by
    rcases h2o_compact_ok k.hc with ⟨_, e⟩ | ⟨hs, hr, w, _, ⟨_, e⟩ | ⟨hw, r, hr', hne, e⟩⟩
    · rw [e]; exact z4
    · rw [e]; exact z4
    · rw [e]
      refine adj_layers_z hmax ?_
      show s4.m_s ≤ _ ∨ 0 ≤ s4.m_s / r
      by_cases hth : s4.m_s ≤ c.small_threshold
      · exact .inl hth
      · right
        have hmp : 0 < s4.m_s := lt_of_le_of_lt hc.small (not_le.mp hth)
        have zz4 := k.i4.flag hs
        have hpk4 := (k.i4.pack zz4).1
        have : 0 < s4.rho := by
          rw [hpk4] at hmp
          exact pos_of_mul_pos_left hmp (k.i4.z_pos zz4).le
        have hw0 : 0 < w := lt_trans (by norm_num) hw
        have hb : 0 < 1 + 0.4 / w := by positivity
        have : 0 ≤ (550 - s4.rho) / (1 + 0.4 / w) := div_nonneg (by linarith) hb.le
        have : 0 < r := by rw [hr']; linarith
        positivity
  cases f5 : s5.snowcover
  · rw [k.dead5 f5]; exact z5
  · rw [k.frame7]
    show 0 ≤ s6.z_s
    obtain ⟨_, _, _, _, _, _, _, _, _, _, _, _, _, _, _, _, _, e, _⟩ := k.drained hmax f5
    rw [e]; exact z5

/-! ## C23 -/

/-- C23, mass: with admissible data, if in every run step through which the snow cover lasts the melt and
the vapour loss are within the ice at hand (the ice of the pack and the ice that falls), then after every
run step the snow mass is non-negative, a pack with lasting cover weighs at least the liquid water it
holds, and ground without snow layers has mass 0. -/
theorem C23_mass_step (g : Config) (hg : g.Tiled) (ha : g.AdmissibleStart) (rows : List Rec)
    (hr : ∀ r ∈ rows, r.Admissible) (ls : List (List (RStep Phys))) (m : Model)
    (h : RunTrace g rows ls m) (c : Env) (ts : Tsteps) (hc : mkEnv g = .ok c)
    (hts : parse_time_steps g = .ok ts) (hm0 : ∀ l ∈ ls, ∀ x ∈ l, x.post.snow.snowcover = true →
      x.post.snow.melt + vapourLoss (ts x.lv).time_step x.post.snow ≤ x.pre.snow.ice + iceIn c x) :
    ∀ l ∈ ls, ∀ x ∈ l, 0 ≤ x.post.snow.m_s ∧
      (x.post.snow.snowcover = true → 0 ≤ x.post.snow.h2o ∧ x.post.snow.h2o ≤ x.post.snow.m_s) ∧
      (x.post.snow.layer_count = 0 → x.post.snow.m_s = 0) := by
  have hb := C23_ice_budget_step g hg ha rows hr ls m h c ts hc hts
  obtain ⟨c', ts', hc', hts', ho, ht, hx⟩ := trace_closed hg ha hr h
  rw [hc] at hc'; cases hc'
  intro l hl x hxl
  obtain ⟨d, ⟨h1, h1'⟩, ⟨h2, h2'⟩, hf, h3, _⟩ := hx l hl x hxl
  have bare : x.post.snow.layer_count = 0 → x.post.snow.m_s = 0 := fun h0 =>
    (h2.bare ((h2.lc_zero_iff ho.max_z).mp h0)).1
  have wet : x.post.snow.snowcover = true → 0 ≤ x.post.snow.h2o ∧ x.post.snow.h2o ≤ x.post.snow.m_s := by
    intro hs
    have b1 := hb l hl x hxl hs
    have b2 := hm0 l hl x hxl hs
    have : 0 ≤ x.post.snow.ice := by linarith
    unfold Snow.ice at this
    exact ⟨h2', by linarith⟩
  refine ⟨?_, wet, bare⟩
  cases hs : x.post.snow.snowcover
  · obtain ⟨s0, s1, s2, s3, s4, s5, s6, k⟩ := step_chain ho.max_z h1 h3
    rcases k.ended ho.max_z hs with h0 | ⟨_, _, t, hti, htl, e⟩
    · rw [bare h0]
    · rw [e]
      show 0 ≤ t.m_s
      rcases init_snow_out ho.max_z hti with q | q
      · obtain ⟨q1, q2, _, _, _, q3, _⟩ := q
        rw [q3]
        exact ho.small.trans q1.le
      · obtain ⟨_, q, _⟩ := q
        rw [q]
  · exact (wet hs).1.trans (wet hs).2

/-- C23, depth: a pack with snow layers always has positive depth, positive surface depth and
non-negative lower depth. -/
theorem C23_depth_of_layers_step (g : Config) (hg : g.Tiled) (ha : g.AdmissibleStart) (rows : List Rec)
    (hr : ∀ r ∈ rows, r.Admissible) (ls : List (List (RStep Phys))) (m : Model)
    (h : RunTrace g rows ls m) : ∀ l ∈ ls, ∀ x ∈ l, 0 < x.post.snow.layer_count →
      0 < x.post.snow.z_s ∧ 0 < x.post.snow.z_s_0 ∧ 0 ≤ x.post.snow.z_s_l := by
  obtain ⟨c, ts, hc, hts, ho, ht, hx⟩ := trace_closed hg ha hr h
  intro l hl x hxl h0
  obtain ⟨d, _, ⟨h2, _⟩, _⟩ := hx l hl x hxl
  have hz : 0 < x.post.snow.z_s_0 := by
    by_contra hn
    have := (h2.lc_zero_iff ho.max_z).mpr (not_lt.mp hn)
    omega
  have hp := h2.z_pos hz
  exact ⟨hp, hz, h2.zl⟩

/-- C23, mass and depth: with admissible data and a non-negative initial depth, if in every run step the
melt and the vapour loss are within the mass at hand (pack and precipitation), and within the ice at hand
while the snow cover lasts, then mass and depth are non-negative after every run step. -/
theorem C23_depth_step (g : Config) (hg : g.Tiled) (ha : g.AdmissibleStart) (hz : 0 ≤ g.init_z_s)
    (rows : List Rec) (hr : ∀ r ∈ rows, r.Admissible) (ls : List (List (RStep Phys))) (m : Model)
    (h : RunTrace g rows ls m) (c : Env) (ts : Tsteps) (hc : mkEnv g = .ok c)
    (hts : parse_time_steps g = .ok ts)
    (hm0 : ∀ l ∈ ls, ∀ x ∈ l, x.post.snow.snowcover = true →
      x.post.snow.melt + vapourLoss (ts x.lv).time_step x.post.snow ≤ x.pre.snow.ice + iceIn c x)
    (hm1 : ∀ l ∈ ls, ∀ x ∈ l, x.post.snow.melt ≤ x.pre.snow.m_s + x.precip ∧
      vapourLoss (ts x.lv).time_step x.post.snow ≤ x.pre.snow.m_s + x.precip) :
    ∀ l ∈ ls, ∀ x ∈ l, 0 ≤ x.post.snow.m_s ∧ 0 ≤ x.post.snow.z_s := by
  have hmass := C23_mass_step g hg ha rows hr ls m h c ts hc hts hm0
  obtain ⟨c', ts', hc', hts', ho, ht, hx⟩ := trace_closed hg ha hr h
  rw [hc] at hc'; cases hc'
  rw [hts] at hts'; cases hts'
  have := (h.induct (P := fun s => 0 ≤ s.m_s ∧ 0 ≤ s.z_s)
    (fun c' s hc' hs => by
      rw [hc] at hc'; cases hc'
      refine ⟨?_, init_snow_z ho.max_z hz hs⟩
      rcases init_snow_out ho.max_z hs with q | q
      · obtain ⟨q1, q2, _, _, _, q3, _⟩ := q
        rw [q3]
        exact ho.small.trans q1.le
      · obtain ⟨_, q, _⟩ := q
        rw [q])
    (fun l hl x hxl ⟨p1, p2⟩ => by
      obtain ⟨d, ⟨h1, h1'⟩, _, hf, h3, _⟩ := hx l hl x hxl
      obtain ⟨s0, s1, s2, s3, s4, s5, s6, k⟩ := step_chain ho.max_z h1 h3
      obtain ⟨v1, v2⟩ := hm1 l hl x hxl
      exact ⟨(hmass l hl x hxl).1, k.depth ho (ht.step_pos x.lv) h1' hf p2 p1 v1 v2⟩)).2
  exact fun l hl x hxl => (this l hl x hxl).2

/-- C23, records: under the same conditions every record shows non-negative mass and depth. -/
theorem C23_mass_depth_records (g : Config) (hg : g.Tiled) (ha : g.AdmissibleStart) (hz : 0 ≤ g.init_z_s)
    (rows : List Rec) (hr : ∀ r ∈ rows, r.Admissible) (ls : List (List (RStep Phys))) (m : Model)
    (h : RunTrace g rows ls m) (c : Env) (ts : Tsteps) (hc : mkEnv g = .ok c)
    (hts : parse_time_steps g = .ok ts)
    (hm0 : ∀ l ∈ ls, ∀ x ∈ l, x.post.snow.snowcover = true →
      x.post.snow.melt + vapourLoss (ts x.lv).time_step x.post.snow ≤ x.pre.snow.ice + iceIn c x)
    (hm1 : ∀ l ∈ ls, ∀ x ∈ l, x.post.snow.melt ≤ x.pre.snow.m_s + x.precip ∧
      vapourLoss (ts x.lv).time_step x.post.snow ≤ x.pre.snow.m_s + x.precip) :
    ∀ r ∈ m.output_list, 0 ≤ r.m_s ∧ 0 ≤ r.z_s := by
  intro r hro
  obtain ⟨l, hl, x, hx, a, t, hsn⟩ := h.shown hg r hro
  obtain ⟨_, _, _, _, _, _, _, w1, _, _, w2, _⟩ := snapshot_snow hsn
  rw [w1, w2]
  exact C23_depth_step g hg ha hz rows hr ls m h c ts hc hts hm0 hm1 l hl x hx

end

end Pysnobal
