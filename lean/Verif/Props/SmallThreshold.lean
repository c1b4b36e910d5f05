import Verif.Lemmas.TholdStep
import Verif.Props.Active

/-! # C93: the small mass threshold only matters to light packs -/

namespace Pysnobal

noncomputable section

/-! ## Specification -/

/-- A run step in which no pack and no lower layer comes near a mass between `a` and `b`: a pack that is there weighs more than `b`
before the step and after it, and snow that falls on bare ground weighs at most `a` or more than `b`. -/
structure OutOfReach (a b : ℝ) (x : RStep Phys) : Prop where
  before : 0 < x.pre.snow.layer_count → b < x.pre.snow.m_s
  after : 0 < x.pre.snow.layer_count → b < x.post.snow.m_s
  fresh : x.pre.snow.layer_count = 0 → x.post.input1.precip_now = true → x.post.input1.m_snow ≤ a ∨ b < x.post.input1.m_snow

/-- A run step of length `dt` seconds of a pack that is nowhere denser than 600 kg/m³, before it and after it has settled under its own
weight, and so heavy that below `A` metres of snow of this density there is room for a lower layer of at least `b`. -/
structure ThickLower (A b dt : ℝ) (x : RStep Phys) : Prop where
  pack : 0 < x.pre.snow.layer_count
  rho : x.pre.snow.rho ≤ 600
  settled : x.pre.snow.rho < 550 → gravityDensity (dt / 3600) x.pre.snow.rho x.pre.snow.t_s x.pre.snow.m_s ≤ 600
  before : 600 * A + b ≤ x.pre.snow.m_s
  after : 600 * A + b ≤ x.post.snow.m_s

/-! ## Proof -/

section sim

variable {π α ρ : Type}

/-- Subdivision never asks for the threshold of the smallest steps. -/
theorem data_tstep_below (K : Sim π α ρ) (f : Level → π → Bool) (h : ∀ p, f .normal p = K.below .normal p)
    (h' : ∀ p, f .medium p = K.below .medium p) (st : SimSt π α ρ) :
    Sim.data_tstep { K with below := f } st = K.data_tstep st := by
  have e1 : ∀ s, Sim.smallBlock { K with below := f } s = K.smallBlock s := fun _ => rfl
  have e2 : ∀ s, Sim.mediumBlock { K with below := f } s = K.mediumBlock s := by
    intro s
    unfold Sim.mediumBlock
    dsimp only
    congr 1
    funext s
    cases hb : K.below .medium s.phys <;> simp only [h', hb, Bool.false_eq_true, if_false, if_true] <;> rfl
  rw [data_tstep_eq, data_tstep_eq]
  have e3 : ∀ s, Sim.normalBlock { K with below := f } s = K.normalBlock s := by
    intro s
    unfold Sim.normalBlock
    dsimp only
    congr 1
    funext s
    cases hb : K.below .normal s.phys <;> simp only [h, hb, Bool.false_eq_true, if_false, if_true, e2]
    rfl
  rw [e3]
  rfl

end sim

variable {c : Env} {v a b dt : ℝ} {dl : InputData} {x : RStep Phys} {s0 s1 s2 s3 s4 s5 s6 : Snow}

/-- A pack that weighs something after the step has been there all along. -/
theorem StepChain.stays (hc : c.OK) (hdt : 0 < dt) (k : StepChain c dt dl x.pre x.post s0 s1 s2 s3 s4 s5 s6)
    (hs : s0.snowcover = true) (hb : c.small_threshold < x.pre.snow.m_s) (h : 0 < x.post.snow.m_s) : s5.snowcover = true := by
  have hmax := hc.max_z
  have e0 : s0.m_s = x.pre.snow.m_s := by rw [k.start]
  have hm0 : 0 < s0.m_s := by rw [e0]; exact lt_of_le_of_lt hc.small hb
  have f1 : s1.snowcover = true := by
    rcases time_compact_out hmax k.i0 k.tc with ⟨h1, h2⟩ | ⟨h1, h2, _⟩ | ⟨h1, h2⟩
    · rw [hs] at h1; cases h1
    · rw [h2.snowcover]; exact hs
    · exfalso
      have h00 := k.i0.flag hs
      have hz := k.i0.z_pos h00
      have hr : 0 < s0.rho := by rw [k.i0.dens h00]; exact div_pos hm0 hz
      obtain ⟨s', q, q1, q2, _⟩ := C27_gravity_compaction c hmax dt hdt s0 ⟨hs, hr, hz, (k.i0.pack h00).1⟩
      rw [k.tc] at q; cases q
      rcases le_or_gt 550 s0.rho with h5 | h5
      · rw [q1 h5] at h2
        have := h2.snowcover
        rw [hs] at this; cases this
      · have := (q2 h5 (by rw [e0]; exact hb)).1.ground.cover
        rw [h2.snowcover] at this; cases this
  by_contra hd
  have hd : s5.snowcover = false := by simpa using hd
  have e := k.dead5 hd
  have em : x.post.snow.m_s = s5.m_s := by rw [e]
  have m1 : s2.snowcover = false → s2.m_s = 0 := by
    intro f2
    rcases precip_event_ok k.pe with ⟨_, q⟩ | ⟨_, _, t, ht, q⟩ | ⟨_, q, _⟩ | ⟨_, q, _⟩
    · rw [q] at f2
      have f2 : s1.snowcover = false := f2
      rw [f1] at f2; cases f2
    · rcases adj_snow_cases hmax x.post.input1.z_snow x.post.input1.m_pp (k.i1.flag f1) with ⟨w, _⟩ | ⟨w, _⟩
      · rw [← ht] at w
        rw [q] at f2
        have f2 : t.snowcover = false := f2
        rw [w.snowcover, f1] at f2; cases f2
      · rw [← ht] at w
        rw [q]; exact w.m_s
    · rw [f1] at q; cases q
    · rw [f1] at q; cases q
  have m2 : s3.snowcover = false → s3.m_s = 0 := by
    intro f3
    rcases snowmelt_out hmax k.i2 k.sm with ⟨q1, q2⟩ | ⟨q, t, r, hm, _, q3 | q3⟩
    · rw [q2]; exact m1 q1
    · rw [q3.1.snowcover, hm.frame] at f3
      have f3 : s2.snowcover = false := f3
      rw [q] at f3; cases f3
    · exact q3.m_s
  have m3 : s4.snowcover = false → s4.m_s = 0 := by
    intro f4
    rcases evap_cond_out hmax k.i3 k.ec with ⟨q1, q2⟩ | ⟨q, el, w, _, _, _, _, q3 | q3⟩
    · rw [q2]; exact m2 q1
    · rw [q3.1.snowcover] at f4
      have f4 : s3.snowcover = false := f4
      rw [q] at f4; cases f4
    · exact q3.m_s
  rcases h2o_compact_out hmax k.i4 k.hc with ⟨q1, q2⟩ | ⟨q, q3 | q3⟩
  · rw [em, q2, m3 q1] at h; exact absurd h (lt_irrefl _)
  · rw [q3.1.snowcover, q] at hd; cases hd
  · rw [em, q3.m_s] at h; exact absurd h (lt_irrefl _)

/-- The pack of such a run step is firm after each routine. -/
theorem StepChain.firm (hc : c.OK) (h1 : c.small_threshold ≤ b) (hdt : 0 < dt) (hw : WetInv c x.pre.snow)
    (hf : x.post.input1.precip_now = true → StepForcing x.post.input1) (h : OutOfReach a b x)
    (hA : NotDeeper c.max_z_s_0 dt x ∨ ThickLower c.max_z_s_0 b dt x)
    (k : StepChain c dt dl x.pre x.post s0 s1 s2 s3 s4 s5 s6) (hs : s0.snowcover = true) :
    (s1.snowcover = true ∧ Firm c b s1) ∧ (s2.snowcover = true ∧ Firm c b s2) ∧ (s3.snowcover = true ∧ Firm c b s3) ∧
    (s4.snowcover = true ∧ Firm c b s4) ∧ (s5.snowcover = true ∧ Firm c b s5) ∧ (s6.snowcover = true ∧ Firm c b s6) := by
  have hmax := hc.max_z
  have hl := k.layers hs
  have hb0 : 0 ≤ b := hc.small.trans h1
  have f5 := k.stays hc hdt hs (lt_of_le_of_lt h1 (h.before hl)) (lt_of_le_of_lt hb0 (h.after hl))
  obtain ⟨f4, t5, r5⟩ := k.flag5 hmax f5
  obtain ⟨f3, r4, _⟩ := k.flag4 hmax f4
  obtain ⟨f2, t, r, hm, t3⟩ := k.flag3 hmax f3
  obtain ⟨f1, t2⟩ := k.flag2 hmax f2
  obtain ⟨_, t1⟩ := k.flag1 hmax f1
  obtain ⟨f6, r6, _, m6, _, _, _, _, _, _, _, _, _, _, _, d1, _, d6, hsw⟩ := k.drained hmax f5
  have e0 : s0.m_s = x.pre.snow.m_s := by rw [k.start]
  have hpr : 0 ≤ (if x.post.input1.precip_now then x.post.input1.m_pp else 0) := by
    split
    · rename_i hp
      have F := hf hp
      rw [F.m_pp]
      linarith [F.snow, F.rain]
    · exact le_refl _
  have hswi : 0 ≤ s6.swi := by
    rcases hsw with ⟨q1, q2, _⟩ | ⟨_, _, q, _⟩
    · rw [q2]; linarith
    · rw [q]
  have w1 : s1.m_s = x.pre.snow.m_s := t1.m_s.trans e0
  have w2 : x.pre.snow.m_s ≤ s2.m_s := by rw [t2.mass, w1]; linarith
  have w3 : x.pre.snow.m_s ≤ s3.m_s := by rw [t3.m_s]; exact w2
  have w6 : s6.m_s = x.post.snow.m_s := by rw [k.frame7]
  have w5 : x.post.snow.m_s ≤ s5.m_s := by rw [← w6, m6]; linarith
  have w4 : x.post.snow.m_s ≤ s4.m_s := by rw [← t5.m_s]; exact w5
  have p0 := h.before hl
  have p1 := h.after hl
  rcases hA with hA | hA
  · obtain ⟨z1, z2, z3, z4, z5⟩ := k.depths hc hmax hdt hw hf hA
    exact ⟨⟨f1, by rw [w1]; exact p0, .inl (z1 f1)⟩, ⟨f2, by linarith, .inl (z2 f2)⟩, ⟨f3, by linarith, .inl (z3 f3)⟩,
      ⟨f4, by linarith, .inl (z4 f4)⟩, ⟨f5, by linarith, .inl (z5 f5)⟩, ⟨f6, by linarith, .inl (by rw [d6]; exact z5 f5)⟩⟩
  · have deep : ∀ s : Snow, Inv c s → s.snowcover = true → s.rho ≤ 600 → 600 * c.max_z_s_0 + b ≤ s.m_s →
        b ≤ (s.z_s - c.max_z_s_0) * s.rho := by
      intro s hi hcov hr hm
      have := (hi.pack (hi.flag hcov)).1
      have h2 := mul_le_mul_of_nonneg_right hr hmax.le
      linarith
    have g1 : s1.rho ≤ 600 := by
      rcases time_compact_ok k.tc with ⟨_, q⟩ | ⟨_, q, _⟩
      · rw [q, k.start]; exact hA.rho
      · have h00 := k.i0.flag hs
        have hz := k.i0.z_pos h00
        have hm0 : 0 < s0.m_s := by rw [e0]; linarith
        have hr : 0 < s0.rho := by rw [k.i0.dens h00]; exact div_pos hm0 hz
        obtain ⟨s', q', _, q2, _⟩ := C27_gravity_compaction c hmax dt hdt s0 ⟨hs, hr, hz, (k.i0.pack h00).1⟩
        rw [k.tc] at q'; cases q'
        have hd := (q2 q (by rw [e0]; linarith)).2
        rw [hd, show s0.rho = x.pre.snow.rho from by rw [k.start], show s0.t_s = x.pre.snow.t_s from by rw [k.start], e0]
        exact hA.settled (by rw [k.start] at q; exact q)
    have g2 : s2.rho ≤ 600 := by
      rcases precip_event_ok k.pe with ⟨_, q⟩ | ⟨_, _, t, ht, q⟩ | ⟨_, q, _⟩ | ⟨_, q, _⟩
      · rw [q]; exact g1
      · rcases adj_snow_cases hmax x.post.input1.z_snow x.post.input1.m_pp (k.i1.flag f1) with ⟨_, w, _⟩ | ⟨w, _⟩
        · rw [q, ht]; exact w
        · rw [q] at f2
          have f2 : t.snowcover = true := f2
          rw [ht, w.snowcover] at f2; cases f2
      · rw [f1] at q; cases q
      · rw [f1] at q; cases q
    have g3 : s3.rho ≤ 600 := by
      rcases snowmelt_out hmax k.i2 k.sm with ⟨q1, _⟩ | ⟨_, t, r, hm, _, ⟨_, q | q⟩ | q3⟩
      · rw [f2] at q1; cases q1
      · rw [q, hm.frame]; exact g2
      · exact q
      · rw [q3.snowcover] at f3; cases f3
    have q0 := hA.before
    have q1 := hA.after
    exact ⟨⟨f1, by rw [w1]; exact p0, .inr (deep s1 k.i1 f1 g1 (by rw [w1]; exact q0))⟩,
      ⟨f2, by linarith, .inr (deep s2 k.i2 f2 g2 (by linarith))⟩, ⟨f3, by linarith, .inr (deep s3 k.i3 f3 g3 (by linarith))⟩,
      ⟨f4, by linarith, .inr (deep s4 k.i4 f4 r4 (by linarith))⟩, ⟨f5, by linarith, .inr (deep s5 k.i5 f5 r5 (by linarith))⟩,
      ⟨f6, by linarith, .inr (deep s6 k.i6 f6 r6 (by linarith))⟩⟩

/-- A run step out of reach of the threshold does not depend on it. -/
theorem step_thold (hc : c.OK) (ha : a ≤ c.small_threshold) (ha' : a ≤ v) (h1 : c.small_threshold ≤ b) (h2 : v ≤ b) (hdt : 0 < dt)
    (hw : WetInv c x.pre.snow) (hf : x.post.input1.precip_now = true → StepForcing x.post.input1) (h : OutOfReach a b x)
    (hA : NotDeeper c.max_z_s_0 dt x ∨ ThickLower c.max_z_s_0 b dt x)
    (hp : stepPhys c dt dl x.pre = .ok x.post) : stepPhys (c.thold v) dt dl x.pre = .ok x.post := by
  obtain ⟨s0, s1, s2, s3, s4, s5, s6, k⟩ := step_chain hc.max_z hw.1 hp
  have hm := hc.max_z
  have F := k.firm hc h1 hdt hw hf h hA
  have dead : s0.snowcover = false → s5.snowcover = false ∧ s4.snowcover = false ∧ s3.snowcover = false ∧ s2.snowcover = false ∧
      s1.snowcover = false := by
    intro h0
    have n1 : s1.snowcover = false := by
      cases e : s1.snowcover
      · rfl
      · rw [(k.flag1 hm e).1] at h0; cases h0
    have n2 : s2.snowcover = false := by
      cases e : s2.snowcover
      · rfl
      · rw [(k.flag2 hm e).1] at n1; cases n1
    have n3 : s3.snowcover = false := by
      cases e : s3.snowcover
      · rfl
      · rw [(k.flag3 hm e).1] at n2; cases n2
    have n4 : s4.snowcover = false := by
      cases e : s4.snowcover
      · rfl
      · rw [(k.flag4 hm e).1] at n3; cases n3
    refine ⟨?_, n4, n3, n2, n1⟩
    cases e : s5.snowcover
    · rfl
    · rw [(k.flag5 hm e).1] at n4; cases n4
  have up : ∀ {s : Snow}, (s0.snowcover = false → s.snowcover = false) → s.snowcover = true → s0.snowcover = true := by
    intro s hn ht
    cases e : s0.snowcover
    · rw [hn e] at ht; cases ht
    · rfl
  have e1 := time_compact_thold hm h1 h2 k.tc (fun f => (F f).1)
  have e2 := precip_event_thold hm ha ha' h1 h2 k.pe (fun f => (F (up (fun h => (dead h).2.2.2.2) f)).2.1) (fun hpp hs hsn => by
    have G := hf hpp
    have hs0 : s0.snowcover = false := by
      cases e : s0.snowcover
      · rfl
      · rw [(F e).1.1] at hs; cases hs
    have hl : x.pre.snow.layer_count = 0 := by
      have := k.flag0
      rw [hs0] at this
      have := of_decide_eq_false this.symm
      omega
    have hd : x.post.input1.rho_snow * x.post.input1.z_snow = x.post.input1.m_snow := by rw [mul_comm]; exact G.depth
    rw [hd]
    rcases h.fresh hl hpp with q | q
    · exact .inl q
    · refine .inr ⟨q, .inl ?_⟩
      rcases hA with hA | hA
      · have := hA.fresh
        unfold RStep.newDepth at this
        rwa [if_pos hpp] at this
      · have := hA.pack
        omega)
  have e3 := snowmelt_thold hm h1 h2 k.sm (fun f => (F (up (fun h => (dead h).2.2.2.1) f)).2.2.1)
  have e4 := evap_cond_thold hm h1 h2 k.ec (fun f => (F (up (fun h => (dead h).2.2.1) f)).2.2.2.1)
  have e5 := h2o_compact_thold hm h1 h2 k.hc (fun f => (F (up (fun h => (dead h).2.1) f)).2.2.2.2.1)
  have e6 := runoff_thold hm h1 h2 k.ro (fun f => (F (up (fun h => (dead h).1) f)).2.2.2.2.2)
  have e0 : energy_balance c dt (stepStart dl x.pre) = .ok { x.post with snow := s0 } := k.eb
  rw [stepPhys_eq, show energy_balance (c.thold v) dt (stepStart dl x.pre) = energy_balance c dt (stepStart dl x.pre) from rfl, e0, bind_ok]
  have e7 : mass_balance (c.thold v) x.post.input1 dt s0 = .ok x.post.snow := by
    unfold mass_balance
    rw [e1, bind_ok, e2, bind_ok, e3, bind_ok, e4, bind_ok, e5, bind_ok, e6, bind_ok]
    rcases k.fin with ⟨q1, q2⟩ | ⟨q1, q2⟩
    · rw [q1, if_pos rfl]; exact q2
    · rw [q1, if_neg (by simp), q2]; rfl
  dsimp only
  rw [e7]
  rfl

theorem thold_follows (hc : c.OK) (ts : Tsteps) (ht : TileOK ts) (ha : a ≤ c.small_threshold) (ha' : a ≤ v) (h1 : c.small_threshold ≤ b)
    (h2 : v ≤ b) (all : Bool) (dl : Level → InputData) :
    (snobalSim c ts all dl).Follows (snobalSim (c.thold v) ts all dl) (· = ·) (· = ·) (· = ·) (· = ·) fun x =>
      WetInv c x.pre.snow ∧ (x.post.input1.precip_now = true → StepForcing x.post.input1) ∧ OutOfReach a b x ∧
      (NotDeeper c.max_z_s_0 (ts x.lv).time_step x ∨ ThickLower c.max_z_s_0 b (ts x.lv).time_step x) where
  intervals := rfl
  timedelta := rfl
  divided := rfl
  below lv p q h := by rw [h]; rfl
  enter p q h := by rw [h]; rfl
  phys lv p q p' h hp hg := by
    subst h
    obtain ⟨hw, hf, hs, hA⟩ := hg
    refine ⟨p', ?_, rfl⟩
    rw [← hp]
    have := step_thold (x := ⟨lv, p, p'⟩) (dl := dl lv) hc ha ha' h1 h2 (ht.step_pos lv) hw hf hs hA hp
    exact this.trans hp.symm
  accum lv p q a b a' h hab ha := by
    subst h hab
    exact ⟨a', ha, rfl⟩
  finish lv p q h := by rw [h]; rfl
  snap p q a b t r h hab hs := by
    have h : p = q := h.elim id id
    subst h hab
    exact ⟨r, hs, rfl⟩
  reset a b h := by rw [h]; rfl

/-- The table of time steps with another small mass threshold. -/
def smallThold (v : ℝ) (ts : Tsteps) : Tsteps := fun lv => match lv with
  | .normal => ts .normal
  | .medium => ts .medium
  | .small => { ts .small with threshold := v }

theorem parse_small {g : Config} {ts : Tsteps} (v : ℝ) (h : parse_time_steps g = .ok ts) :
    parse_time_steps { g with small_threshold := v } = .ok (smallThold v ts) := by
  unfold parse_time_steps at h ⊢
  obtain ⟨m, e1, h⟩ := bind_eq_ok.mp h
  obtain ⟨s, e2, h⟩ := bind_eq_ok.mp h
  obtain ⟨w, e3, h⟩ := bind_eq_ok.mp h
  cases h
  dsimp only
  rw [e1, bind_ok, e2, bind_ok, e3, bind_ok]
  refine congrArg Except.ok ?_
  funext lv
  cases lv <;> rfl

/-- The threshold of the smallest steps is never asked for. -/
theorem data_small (c : Env) (ts : Tsteps) (all : Bool) (v : ℝ) (i1 i2 : InputData) (m : Model) :
    do_data_tstep c (smallThold v ts) all i1 i2 m = do_data_tstep c ts all i1 i2 m := by
  unfold do_data_tstep
  have e : inputDeltas (smallThold v ts) i1 i2 = inputDeltas ts i1 i2 := rfl
  rw [e]
  congr 1
  funext dl
  rw [← data_tstep_below (snobalSim c ts all dl) (fun lv p => below_thold (smallThold v ts lv).threshold p.snow) (fun _ => rfl) (fun _ => rfl)]
  congr 1
  unfold snobalSim
  congr 1 <;> (funext lv; cases lv <;> rfl)

theorem run_small (c : Env) (ts : Tsteps) (all : Bool) (v : ℝ) (rs : List Rec) : ∀ (i1 : InputData) (m : Model),
    runSteps c (smallThold v ts) all i1 rs m = runSteps c ts all i1 rs m := by
  induction rs with
  | nil => exact fun _ _ => rfl
  | cons r rs ih =>
    intro i1 m
    unfold runSteps
    simp only [data_small, ih]

/-- C93: if between `a` and `b` no pack, no lower layer and no fresh snow on bare ground ever comes to lie, the run is the same for all
small mass thresholds from `a` to `b`: same records, same snow, same clock. -/
theorem C93_small_threshold_unused (g : Config) (hg : g.Tiled) (ha : g.AdmissibleStart) (a b v : ℝ) (h1 : a ≤ g.small_threshold)
    (h2 : g.small_threshold ≤ b) (h3 : a ≤ v) (h4 : v ≤ b)
    (h0 : g.init_rho * g.init_z_s ≤ a ∨ (b < g.init_rho * g.init_z_s ∧
      (g.init_z_s ≤ g.max_active ∨ b ≤ (g.init_z_s - g.max_active) * g.init_rho)))
    (rows : List Rec) (hr : ∀ r ∈ rows, r.Admissible) (ls : List (List (RStep Phys))) (m : Model)
    (h : RunTrace g rows ls m) (ts : Tsteps) (hts : parse_time_steps g = .ok ts)
    (hs : ∀ l ∈ ls, ∀ x ∈ l, OutOfReach a b x)
    (hd : ∀ l ∈ ls, ∀ x ∈ l, NotDeeper g.max_active (ts x.lv).time_step x ∨ ThickLower g.max_active b (ts x.lv).time_step x) :
    ∃ m', simulate { g with small_threshold := v } rows = .ok m' ∧ m'.output_list = m.output_list ∧ m'.phys = m.phys ∧
      m'.current_datetime = m.current_datetime := by
  have htr := h
  obtain ⟨c0, ts0, k1, k2, ho, ht, hx⟩ := trace_closed hg ha hr htr
  obtain ⟨c, ts', i1, m0, r, rs, rfl, e1, e2, e3, e4, e5⟩ := h
  obtain rfl : c = c0 := by rw [e2] at k1; exact Except.ok.inj k1
  obtain rfl : ts' = ts := by rw [e1] at hts; exact Except.ok.inj hts
  obtain rfl : ts' = ts0 := by rw [e1] at k2; exact Except.ok.inj k2
  have hcm : c.max_z_s_0 = g.max_active ∧ c.small_threshold = g.small_threshold := by
    unfold mkEnv at e2
    obtain ⟨P, _, e2⟩ := bind_eq_ok.mp e2
    cases e2
    exact ⟨rfl, rfl⟩
  rw [← hcm.1] at hd h0
  rw [← hcm.2] at h1 h2
  have hc' : mkEnv { g with small_threshold := v } = .ok (c.thold v) := by
    unfold mkEnv at e2 ⊢
    obtain ⟨P, e, e2⟩ := bind_eq_ok.mp e2
    cases e2
    dsimp only
    rw [e]
    rfl
  have hm' : mkModel { g with small_threshold := v } (c.thold v) i1 = .ok m0 := by
    rw [← e4]
    unfold mkModel
    rw [show init_snow (c.thold v) (recordSnow { g with small_threshold := v }) = init_snow c (recordSnow g) from
      init_snow_thold h1 h3 h2 h4 h0]
  obtain ⟨m', q1, q2, q3, q4⟩ := follow_steps (fun dl => thold_follows ho ts' ht h1 h3 h2 h4 g.output_all dl)
    (fun p q i h => by rw [h]) e5 (fun l hl y hy => by
      obtain ⟨d, w1, _, w3, _⟩ := hx l hl y hy
      exact ⟨w1, w3, hs l hl y hy, hd l hl y hy⟩) m0 rfl rfl rfl (List.forall₂_refl _)
  refine ⟨m', ?_, (by rw [List.forall₂_eq_eq_eq] at q4; exact q4.symm), q2.symm, q3⟩
  unfold simulate
  dsimp only
  rw [parse_small v e1, bind_ok, e3, bind_ok, hc', bind_ok, hm', bind_ok, run_small]
  exact q1

end

end Pysnobal
