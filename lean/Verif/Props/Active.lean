import Verif.Lemmas.ActiveStep
import Verif.Props.Compaction

/-! # C92: the maximal depth of the surface layer only matters to deeper packs -/

namespace Pysnobal

noncomputable section

/-! ## Specification -/

/-- Depth of the snow that falls in a run step. -/
def RStep.newDepth (x : RStep Phys) : ℝ := if x.post.input1.precip_now then x.post.input1.z_snow else 0

/-- What a run step of length `dt` seconds deposits as rime or frost: condensation at the surface and condensation at the soil. -/
def RStep.frost (dt : ℝ) (x : RStep Phys) : ℝ := max 0 (x.post.snow.E * dt) + max 0 (x.post.snow.E_s - x.post.snow.E * dt)

/-- A run step in which the pack is nowhere deeper than `D`: the pack before, with the snow that falls on it and with half the volume
of the frost, is at most `D` deep, and its mass with precipitation and frost fits into `D` at the largest density, 600 kg/m³. -/
structure NotDeeper (D dt : ℝ) (x : RStep Phys) : Prop where
  mass : 0 < x.pre.snow.layer_count → 0 < x.pre.snow.m_s
  fresh : x.newDepth ≤ D
  depth : 0 < x.pre.snow.layer_count →
    (x.pre.snow.z_s + x.newDepth) * (1 + x.frost dt / (2 * (x.pre.snow.m_s + x.precip))) ≤ D
  dense : 0 < x.pre.snow.layer_count → x.pre.snow.m_s + x.precip + x.frost dt ≤ 600 * D

/-! ## Proof -/

variable {c : Env} {v D dt : ℝ} {dl : InputData} {x : RStep Phys} {s0 s1 s2 s3 s4 s5 s6 : Snow}

theorem evapH2o_gain {h : ℝ} (hh : 0 ≤ h) (e : ℝ) : e + h - evapH2o h e ≤ max 0 e ∧ 0 ≤ evapH2o h e := by
  rw [evapH2o_spec]
  unfold afterVapour
  split
  · refine ⟨?_, le_max_left _ _⟩
    have h1 := le_max_right 0 (h + e * (2.501 / 2.835))
    rcases le_total 0 e with he | he
    · rw [max_eq_right he]
      have : 0 ≤ e * (2.501 / 2.835) := by positivity
      linarith
    · have h2 : e ≤ e * (2.501 / 2.835) := by
        norm_num
        linarith
      have := le_max_left 0 e
      linarith
  · exact ⟨by linarith [le_max_right 0 e], hh⟩

theorem frost_nonneg (dt : ℝ) (x : RStep Phys) : 0 ≤ x.frost dt := add_nonneg (le_max_left _ _) (le_max_left _ _)

theorem StepChain.layers (k : StepChain c dt dl x.pre x.post s0 s1 s2 s3 s4 s5 s6)
    (h0 : s0.snowcover = true) : 0 < x.pre.snow.layer_count := by
  have := k.flag0
  rw [h0] at this
  exact of_decide_eq_true this.symm

/-- The pack of a shallow step is at most `D` deep after each routine. -/
theorem StepChain.depths (hc : c.OK) (hD : 0 < D) (hdt : 0 < dt) (hw : WetInv c x.pre.snow)
    (hf : x.post.input1.precip_now = true → StepForcing x.post.input1) (h : NotDeeper D dt x)
    (k : StepChain c dt dl x.pre x.post s0 s1 s2 s3 s4 s5 s6) :
    (s1.snowcover = true → s1.z_s ≤ D) ∧ (s2.snowcover = true → s2.z_s ≤ D) ∧ (s3.snowcover = true → s3.z_s ≤ D) ∧
    (s4.snowcover = true → s4.z_s ≤ D) ∧ (s5.snowcover = true → s5.z_s ≤ D) := by
  have hmax := hc.max_z
  have e0 : s0.m_s = x.pre.snow.m_s ∧ s0.z_s = x.pre.snow.z_s := by rw [k.start]; exact ⟨rfl, rfl⟩
  have hg := frost_nonneg dt x
  have hpr : 0 ≤ x.precip := by
    unfold RStep.precip
    split
    · rename_i hp
      have F := hf hp
      rw [F.m_pp]
      linarith [F.snow, F.rain]
    · exact le_refl _
  have hnz : 0 ≤ x.newDepth := by
    unfold RStep.newDepth
    split
    · rename_i hp
      exact (hf hp).z
    · exact le_refl _
  -- the bounds on a pack that is there
  have base : s0.snowcover = true → 0 < x.pre.snow.m_s ∧ 0 < x.pre.snow.z_s ∧ x.pre.snow.z_s + x.newDepth ≤ D ∧
      (x.pre.snow.z_s + x.newDepth) * (1 + x.frost dt / (2 * (x.pre.snow.m_s + x.precip))) ≤ D ∧
      x.pre.snow.m_s + x.precip + x.frost dt ≤ 600 * D := by
    intro f0
    have hl := k.layers f0
    have hm := h.mass hl
    have hz := k.i0.z_pos (k.i0.flag f0)
    rw [e0.2] at hz
    have hd := h.depth hl
    refine ⟨hm, hz, ?_, hd, h.dense hl⟩
    have h1 : 0 ≤ x.frost dt / (2 * (x.pre.snow.m_s + x.precip)) := by positivity
    have h2 : 0 ≤ x.pre.snow.z_s + x.newDepth := by linarith
    nlinarith
  have d1 : s1.snowcover = true → s1.z_s ≤ x.pre.snow.z_s := by
    intro f1
    obtain ⟨f0, _⟩ := k.flag1 hmax f1
    obtain ⟨hm, hz, _⟩ := base f0
    rcases time_compact_ok k.tc with ⟨_, e⟩ | ⟨_, hr, _⟩
    · rw [e, e0.2]
    · have h00 := k.i0.flag f0
      have hz0 : 0 < s0.z_s := by rw [e0.2]; exact hz
      have hr0 : 0 < s0.rho := by rw [k.i0.dens h00, e0.1]; exact div_pos hm hz0
      obtain ⟨s', hs', _, q2, q3⟩ := C27_gravity_compaction c hmax dt hdt s0 ⟨f0, hr0, hz0, (k.i0.pack h00).1⟩
      rw [k.tc] at hs'; cases hs'
      by_cases ht : c.small_threshold < s0.m_s
      · have := (q2 hr ht).1.depth
        rw [e0.2] at this
        exact this.le
      · have := (q3 hr (not_lt.mp ht)).cover
        rw [f1] at this; cases this
  have d2 : s2.snowcover = true → s2.m_s = x.pre.snow.m_s + x.precip ∧
      s2.z_s ≤ max (x.pre.snow.z_s + x.newDepth) ((x.pre.snow.m_s + x.precip) / 600) := by
    intro f2
    obtain ⟨f1, rn⟩ := k.flag2 hmax f2
    have st1 := (k.flag1 hmax f1).2
    have hm2 : s2.m_s = x.pre.snow.m_s + x.precip := by rw [rn.mass, st1.m_s, e0.1]; rfl
    refine ⟨hm2, ?_⟩
    have h1 := d1 f1
    have h01 := k.i1.flag f1
    rcases precip_event_ok k.pe with ⟨hp, e⟩ | ⟨hp, _, t, ht, e⟩ | ⟨_, hs', _⟩ | ⟨_, hs', _⟩
    · rw [e]
      exact le_max_of_le_left (by show s1.z_s ≤ _; linarith)
    · have hcov : t.snowcover = true := by rw [e] at f2; exact f2
      rw [ht] at hcov
      have hz := (adj_snow_depth hmax hc.small _ _ h01 (k.i1.z_pos h01) hcov).1
      rw [show s2.z_s = t.z_s from by rw [e], ht, hz]
      unfold clipDepth RStep.newDepth RStep.precip
      rw [if_pos hp, if_pos hp, st1.m_s, e0.1]
      exact max_le_max (by linarith) (le_refl _)
    · rw [f1] at hs'; cases hs'
    · rw [f1] at hs'; cases hs'
  have d3 : s3.snowcover = true → s3.m_s = x.pre.snow.m_s + x.precip ∧
      s3.z_s ≤ max (x.pre.snow.z_s + x.newDepth) ((x.pre.snow.m_s + x.precip) / 600) := by
    intro f3
    obtain ⟨f2, t0, r0, _, st3⟩ := k.flag3 hmax f3
    obtain ⟨hm2, hz2⟩ := d2 f2
    have h02 := k.i2.flag f2
    have hzp := k.i2.z_pos h02
    obtain ⟨hm, _⟩ := base (k.flag1 hmax (k.flag2 hmax f2).1).1
    refine ⟨by rw [← hm2]; exact st3.m_s, ?_⟩
    rcases snowmelt_ok k.sm with ⟨hs', _⟩ | ⟨_, t, r, hm', hk⟩
    · rw [f2] at hs'; cases hs'
    · have et : t.z_s = s2.z_s ∧ t.z_s_0 = s2.z_s_0 ∧ t.m_s = s2.m_s ∧ t.rho = s2.rho := by
        rw [hm'.frame]; exact ⟨rfl, rfl, rfl, rfl⟩
      rcases hk with ⟨q1, _, e⟩ | ⟨_, e⟩
      · rw [e] at f3
        rw [e, (adj_snow_depth hmax hc.small _ _ (by rw [et.2.1]; exact h02) (by rw [et.1]; exact hzp) f3).1,
          et.1, et.2.2.1, et.2.2.2, hm2, add_zero]
        have hrho : 0 < s2.rho := by rw [k.i2.dens h02, hm2]; exact div_pos (by linarith) hzp
        have : (-1) * t.melt / s2.rho ≤ 0 := div_nonpos_of_nonpos_of_nonneg (by linarith) hrho.le
        exact max_le (by linarith) (le_max_right _ _)
      · rw [e, et.1]
        exact hz2
  have d4 : s4.snowcover = true → s4.z_s ≤ D := by
    intro f4
    obtain ⟨f3, _, el, w, _, hww, hE, st4, _⟩ := k.flag4 hmax f4
    obtain ⟨hm3, hz3⟩ := d3 f3
    obtain ⟨hm, hzp, hA, hB, hC⟩ := base (k.flag1 hmax (k.flag2 hmax (k.flag3 hmax f3).1).1).1
    have h03 := k.i3.flag f3
    have hz3p := k.i3.z_pos h03
    have b3 := (k.books3 hc (k.books2 hc hw.2 hf)).1
    have hfl : x.post.snow.E = s3.E ∧ x.post.snow.E_s = s4.E_s := by
      cases h5 : s5.snowcover
      · have e := k.dead5 h5
        rcases h2o_compact_out hmax k.i4 k.hc with ⟨_, e5⟩ | ⟨_, ⟨a, _⟩ | a⟩
        · rw [e, e5]; exact ⟨st4.E, rfl⟩
        · rw [e]; exact ⟨a.E.trans st4.E, a.E_s⟩
        · rw [e]; exact ⟨a.E.trans st4.E, a.E_s⟩
      · have := k.fluxE hmax h5
        exact ⟨this.1, this.2.1⟩
    have hfr : x.frost dt = max 0 (s3.E * dt) + max 0 el := by
      unfold RStep.frost
      rw [hfl.1, hfl.2, hE]
      congr 2
      ring
    have hEg : s3.E * dt + el ≤ x.frost dt := by
      rw [hfr]
      linarith [le_max_right 0 (s3.E * dt), le_max_right 0 el]
    have hq : s3.E * dt + el + s3.h2o_total - w ≤ x.frost dt := by
      obtain ⟨g1, g2⟩ := evapH2o_gain b3.total (s3.E * dt)
      obtain ⟨g3, _⟩ := evapH2o_gain g2 el
      rw [hfr, hww]
      linarith
    rcases evap_cond_ok k.ec with ⟨hs', _⟩ | ⟨_, hl, _⟩ | ⟨_, _, el', w', a1, a2, _, e⟩
    · rw [f3] at hs'; cases hs'
    · have := (k.i3.lc_pos_iff hmax).mpr h03
      omega
    · have hE' : s4.E_s = s3.E * dt + el' := by rw [e]; exact (adj_snow_flux c _ _ _).E_s
      have ee : el' = el := by linarith
      subst ee
      rw [← hww] at a2
      subst a2
      rw [e] at f4
      rw [e, (adj_snow_depth hmax hc.small _ _ (by exact h03) (by exact hz3p) f4).1]
      show max (s3.z_s + (s3.E * dt + el' + s3.h2o_total - w') / s3.rho / 2) ((s3.m_s + (s3.E * dt + el')) / 600) ≤ D
      have hM : 0 < x.pre.snow.m_s + x.precip := by linarith
      have hdiv : (s3.E * dt + el' + s3.h2o_total - w') / s3.rho / 2 ≤ s3.z_s * (x.frost dt / (2 * (x.pre.snow.m_s + x.precip))) := by
        rw [k.i3.dens h03, hm3]
        have : (s3.E * dt + el' + s3.h2o_total - w') / ((x.pre.snow.m_s + x.precip) / s3.z_s) / 2 =
            s3.z_s * ((s3.E * dt + el' + s3.h2o_total - w') / (2 * (x.pre.snow.m_s + x.precip))) := by
          field_simp
        rw [this]
        exact mul_le_mul_of_nonneg_left (div_le_div_of_nonneg_right hq (by linarith)) hz3p.le
      refine max_le ?_ ?_
      · have h1 : s3.z_s + s3.z_s * (x.frost dt / (2 * (x.pre.snow.m_s + x.precip))) ≤ D := by
          have hfac : 0 ≤ 1 + x.frost dt / (2 * (x.pre.snow.m_s + x.precip)) := by positivity
          rcases le_max_iff.mp hz3 with hh | hh
          · have := mul_le_mul_of_nonneg_right hh hfac
            linarith
          · have h2 := mul_le_mul_of_nonneg_right hh hfac
            have h3 : (x.pre.snow.m_s + x.precip) / 600 * (1 + x.frost dt / (2 * (x.pre.snow.m_s + x.precip))) =
                (x.pre.snow.m_s + x.precip + x.frost dt / 2) / 600 := by
              field_simp
            rw [h3] at h2
            have h4 : (x.pre.snow.m_s + x.precip + x.frost dt / 2) / 600 ≤ D := by
              rw [div_le_iff₀ (by norm_num)]
              linarith
            linarith
        linarith
      · rw [hm3, div_le_iff₀ (by norm_num)]
        linarith
  refine ⟨fun f1 => ?_, fun f2 => ?_, fun f3 => ?_, d4, fun f5 => ?_⟩
  · obtain ⟨_, _, hA, _⟩ := base (k.flag1 hmax f1).1
    linarith [d1 f1]
  · obtain ⟨_, _, hA, _, hC⟩ := base (k.flag1 hmax (k.flag2 hmax f2).1).1
    refine (d2 f2).2.trans (max_le hA ?_)
    rw [div_le_iff₀ (by norm_num)]
    linarith
  · obtain ⟨_, _, hA, _, hC⟩ := base (k.flag1 hmax (k.flag2 hmax (k.flag3 hmax f3).1).1).1
    refine (d3 f3).2.trans (max_le hA ?_)
    rw [div_le_iff₀ (by norm_num)]
    linarith
  · obtain ⟨f4, st5, _⟩ := k.flag5 hmax f5
    have hz4 := d4 f4
    have h04 := k.i4.flag f4
    have hz4p := k.i4.z_pos h04
    rcases h2o_compact_ok k.hc with ⟨_, e⟩ | ⟨_, hr, w, _, ⟨_, e⟩ | ⟨hw0, r, hr', _, e⟩⟩
    · rw [e]; exact hz4
    · rw [e]; exact hz4
    · rw [e] at f5
      rcases adj_layers_cases hmax { s4 with rho := r, z_s := s4.m_s / r } with ⟨_, b1, _, _, b4⟩ | ⟨a, _⟩
      · rw [e, b4]
        have hm4 : 0 < s4.m_s := lt_of_le_of_lt hc.small b1
        have hrho : 0 < s4.rho := by rw [k.i4.dens h04]; exact div_pos hm4 hz4p
        have hle : s4.rho ≤ r := by
          rw [hr']
          have hw1 : (0:ℝ) < w := by linarith [show (0 : ℝ) < 0.000001 by norm_num]
          have : 0 ≤ (550 - s4.rho) / (1 + 0.4 / w) := div_nonneg (by linarith) (by positivity)
          linarith
        have : s4.z_s = s4.m_s / s4.rho := by rw [(k.i4.pack h04).1]; field_simp
        refine le_trans ?_ hz4
        rw [this]
        exact div_le_div_of_nonneg_left hm4.le hrho hle
      · rw [a.snowcover] at f5; cases f5

theorem energy_active (dt : ℝ) (p : Phys) : energy_balance (c.active v) dt p = energy_balance c dt p := rfl

/-- A run step of a shallow pack does not depend on the maximal depth of the surface layer. -/
theorem step_active (hc : c.OK) (hD : 0 < D) (h1 : D ≤ c.max_z_s_0) (h2 : D ≤ v) (hdt : 0 < dt) (hw : WetInv c x.pre.snow)
    (hf : x.post.input1.precip_now = true → StepForcing x.post.input1) (h : NotDeeper D dt x)
    (hp : stepPhys c dt dl x.pre = .ok x.post) : stepPhys (c.active v) dt dl x.pre = .ok x.post := by
  obtain ⟨s0, s1, s2, s3, s4, s5, s6, k⟩ := step_chain hc.max_z hw.1 hp
  obtain ⟨z1, z2, z3, z4, z5⟩ := k.depths hc hD hdt hw hf h
  have hm := hc.max_z
  have z6 : s5.snowcover = true → s6.snowcover = true → s6.z_s ≤ D := fun f5 _ => by
    obtain ⟨_, _, _, _, _, _, _, _, _, _, _, _, _, _, _, _, _, dz, _⟩ := k.drained hm f5
    rw [dz]
    exact z5 f5
  have e1 := time_compact_active hm hD.le h1 h2 k.tc z1
  have e2 := precip_event_active hm hD.le h1 h2 k.pe (fun _ => z2) (fun hpp => by
    have := h.fresh
    unfold RStep.newDepth at this
    rwa [if_pos hpp] at this)
  have e3 := snowmelt_active hm hD.le h1 h2 k.sm z3
  have e4 := evap_cond_active hm hD.le h1 h2 k.ec z4
  have e5 := h2o_compact_active hm hD.le h1 h2 k.hc z5
  have e6 := runoff_active hm hD.le h1 h2 k.ro z6
  have e0 : energy_balance c dt (stepStart dl x.pre) = .ok { x.post with snow := s0 } := k.eb
  rw [stepPhys_eq, energy_active, e0, bind_ok]
  have e7 : mass_balance (c.active v) x.post.input1 dt s0 = .ok x.post.snow := by
    unfold mass_balance
    rw [e1, bind_ok, e2, bind_ok, e3, bind_ok, e4, bind_ok, e5, bind_ok, e6, bind_ok]
    rcases k.fin with ⟨q1, q2⟩ | ⟨q1, q2⟩
    · rw [q1, if_pos rfl]; exact q2
    · rw [q1, if_neg (by simp), q2]; rfl
  dsimp only
  rw [e7]
  rfl

theorem active_follows (hc : c.OK) (ts : Tsteps) (ht : TileOK ts) (hD : 0 < D) (h1 : D ≤ c.max_z_s_0) (h2 : D ≤ v) (all : Bool)
    (dl : Level → InputData) :
    (snobalSim c ts all dl).Follows (snobalSim (c.active v) ts all dl) (· = ·) (· = ·) (· = ·) (· = ·) fun x =>
      WetInv c x.pre.snow ∧ (x.post.input1.precip_now = true → StepForcing x.post.input1) ∧ NotDeeper D (ts x.lv).time_step x where
  intervals := rfl
  timedelta := rfl
  divided := rfl
  below lv p q h := by rw [h]; rfl
  enter p q h := by rw [h]; rfl
  phys lv p q p' h hp hg := by
    subst h
    obtain ⟨hw, hf, hs⟩ := hg
    refine ⟨p', ?_, rfl⟩
    rw [← hp]
    have := step_active (x := ⟨lv, p, p'⟩) (dl := dl lv) hc hD h1 h2 (ht.step_pos lv) hw hf hs hp
    exact this.trans hp.symm
  accum lv p q a b a' h hab ha := by
    subst h hab
    exact ⟨a', ha, rfl⟩
  finish lv p q h := by rw [h]; rfl
  snap p q a b t r h hab hs := by
    have h : p = q := h.elim id id
    subst h hab
    exact ⟨r, hs, rfl⟩
  reset a b h := by rw [h]; rfl

/-- C92: if the pack of a run never becomes deeper than `D`, the run is the same for every maximal depth of the surface layer of at
least `D`: same records, same snow, same clock. -/
theorem C92_active_depth_unused (g : Config) (hg : g.Tiled) (ha : g.AdmissibleStart) (D v : ℝ) (hD : 0 < D) (h1 : D ≤ g.max_active)
    (h2 : D ≤ v) (h0 : g.init_z_s ≤ D) (rows : List Rec) (hr : ∀ r ∈ rows, r.Admissible) (ls : List (List (RStep Phys))) (m : Model)
    (h : RunTrace g rows ls m) (ts : Tsteps) (hts : parse_time_steps g = .ok ts)
    (hs : ∀ l ∈ ls, ∀ x ∈ l, NotDeeper D (ts x.lv).time_step x) :
    ∃ m', simulate { g with max_active := v } rows = .ok m' ∧ m'.output_list = m.output_list ∧ m'.phys = m.phys ∧
      m'.current_datetime = m.current_datetime := by
  have htr := h
  obtain ⟨c0, ts0, k1, k2, ho, ht, hx⟩ := trace_closed hg ha hr htr
  obtain ⟨c, ts', i1, m0, r, rs, rfl, e1, e2, e3, e4, e5⟩ := h
  obtain rfl : c = c0 := by rw [e2] at k1; exact Except.ok.inj k1
  obtain rfl : ts' = ts := by rw [e1] at hts; exact Except.ok.inj hts
  obtain rfl : ts' = ts0 := by rw [e1] at k2; exact Except.ok.inj k2
  have hcm : D ≤ c.max_z_s_0 := by rw [(mkEnv_ok e2).1]; exact h1
  have hc' : mkEnv { g with max_active := v } = .ok (c.active v) := by
    unfold mkEnv at e2 ⊢
    obtain ⟨P, e, e2⟩ := bind_eq_ok.mp e2
    cases e2
    dsimp only
    rw [e]
    rfl
  have hm' : mkModel { g with max_active := v } (c.active v) i1 = .ok m0 := by
    rw [← e4]
    unfold mkModel
    rw [show init_snow (c.active v) (recordSnow { g with max_active := v }) = init_snow c (recordSnow g) from init_snow_active hcm h2 h0]
  obtain ⟨m', q1, q2, q3, q4⟩ := follow_steps (fun dl => active_follows ho ts' ht hD hcm h2 g.output_all dl)
    (fun p q i h => by rw [h]) e5 (fun l hl y hy => by
      obtain ⟨d, w1, _, w3, _⟩ := hx l hl y hy
      exact ⟨w1, w3, hs l hl y hy⟩) m0 rfl rfl rfl (List.forall₂_refl _)
  refine ⟨m', ?_, (by rw [List.forall₂_eq_eq_eq] at q4; exact q4.symm), q2.symm, q3⟩
  unfold simulate
  dsimp only
  rw [show parse_time_steps { g with max_active := v } = parse_time_steps g from rfl, e1, bind_ok, e3, bind_ok, hc', bind_ok, hm', bind_ok]
  exact q1

end

end Pysnobal
