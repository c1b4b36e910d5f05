import Verif.Props.StepLedger
import Verif.Props.Cover
import Verif.Props.Energy

/-! # C24 for a whole run step: the energy ledger of the pack -/

namespace Pysnobal

noncomputable section

variable {c : Env} {dt : ℝ} {dl : InputData} {p p' : Phys} {s0 s1 s2 s3 s4 s5 s6 : Snow}

/-! ## Specification -/

/-- What changing the number of layers does to the cold content `a` of the lower layer of a pack at mean temperature `t`:
nothing, or (merging) it is discarded, or (splitting) it becomes that of a lower layer of mass at least `thr` at the mean temperature. -/
def Relayered (thr t a b : ℝ) : Prop := b = a ∨ b = 0 ∨ ∃ m, thr ≤ m ∧ b = cold_content t m

/-- The energy ledger of the run step `x` of length `dt`.  `two` says whether the pack has two layers when it melts; the lower layer
goes into melting with cold content `a` and comes out with `b`; `r0` and `rl` refreeze in the two layers. -/
structure EnergyBooks (g : Config) (dt : ℝ) (x : RStep Phys) (r0 rl : ℝ) (two : Bool) (a b : ℝ) : Prop where
  ledger : (x.post.snow.en.delta_Q_0 + if two then x.post.snow.en.G - x.post.snow.en.G_0 else 0) * dt =
    (x.post.snow.cc_s_0 - x.pre.snow.cc_s_0) + (b - a) + lh_fus FREEZE * (x.post.snow.melt - (r0 + rl))
  melt : lh_fus FREEZE * x.post.snow.melt = max 0 (x.pre.snow.cc_s_0 + x.post.snow.en.delta_Q_0 * dt) +
    if two then max 0 (a + (x.post.snow.en.G - x.post.snow.en.G_0) * dt) else 0
  single : two = false → rl = 0 ∧ b = a
  before : Relayered g.small_threshold x.pre.snow.t_s x.pre.snow.cc_s_l a
  after : Relayered g.small_threshold x.pre.snow.t_s b x.post.snow.cc_s_l

/-- How much water refreezes in the run step `x`: each layer freezes as much of its share of the water at hand (retained, arriving,
melted) as its cold content allows, and no less.  Water is shared in proportion to depth: of a pack that melts with two layers and depth
`z` the surface layer has the depth `max_active`; `a` is the cold content of the lower layer before. -/
structure FreezeBooks (g : Config) (dt : ℝ) (x : RStep Phys) (z r0 rl : ℝ) (two : Bool) (a : ℝ) : Prop where
  deep : two = true → g.max_active < z
  surface : lh_fus FREEZE * r0 = min (max 0 (-(x.pre.snow.cc_s_0 + x.post.snow.en.delta_Q_0 * dt)))
    (lh_fus FREEZE * ((x.pre.snow.h2o + waterIn g x + x.post.snow.melt) * if two then g.max_active / z else 1))
  lower : two = true → lh_fus FREEZE * rl = min (max 0 (-(a + (x.post.snow.en.G - x.post.snow.en.G_0) * dt)))
    (lh_fus FREEZE * ((x.pre.snow.h2o + waterIn g x + x.post.snow.melt) * (1 - g.max_active / z)))

/-! ## Proof -/

theorem Relayered.trans {thr t a b d : ℝ} (h : Relayered thr t a b) (h' : Relayered thr t b d) : Relayered thr t a d := by
  rcases h' with rfl | rfl | h'
  · exact h
  · exact .inr (.inl rfl)
  · exact .inr (.inr h')

theorem Stay.relayered {s s' : Snow} {m t : ℝ} (h : Stay c s m s') (ht : s.t_s = t) :
    Relayered c.small_threshold t s.cc_s_l s'.cc_s_l := by
  rcases h.lower with ⟨_, e⟩ | ⟨_, _, _, e⟩ | ⟨_, _, _, e, hm⟩
  · exact .inl e
  · exact .inr (.inl e)
  · exact .inr (.inr ⟨_, hm, by rw [e, ht]⟩)

/-- A pack too shallow, or with too little mass below the surface layer, for a second layer. -/
def Shallow (c : Env) (z m : ℝ) : Prop := z ≤ c.max_z_s_0 ∨ m * (1 - c.max_z_s_0 / z) < c.small_threshold

theorem Shallow.mono {z m z' m' : ℝ} (hmax : 0 < c.max_z_s_0) (hsm : 0 ≤ c.small_threshold) (h : Shallow c z m)
    (hz : z' ≤ z) (hm : m' ≤ m) : Shallow c z' m' := by
  by_cases h1 : z' ≤ c.max_z_s_0
  · exact .inl h1
  right
  have h1 := not_le.mp h1
  by_cases hm' : m' < 0
  · have : c.max_z_s_0 / z' < 1 := (div_lt_one (hmax.trans h1)).mpr h1
    exact lt_of_lt_of_le (mul_neg_of_neg_of_pos hm' (by linarith)) hsm
  have hm' := not_lt.mp hm'
  rcases h with h | h
  · linarith
  refine lt_of_le_of_lt ?_ h
  have hz0 : 0 < z' := hmax.trans h1
  have e1 : c.max_z_s_0 / z ≤ c.max_z_s_0 / z' := div_le_div_of_nonneg_left hmax.le hz0 hz
  have e2 : c.max_z_s_0 / z' ≤ 1 := (div_le_one hz0).mpr h1.le
  exact mul_le_mul hm (by linarith) (by linarith) (hm'.trans hm)

theorem adj_layers_shallow (hmax : 0 < c.max_z_s_0) {s : Snow} (hm : s.m_s = s.rho * s.z_s)
    (h : (adj_layers c s).snowcover = true) :
    (adj_layers c s).z_s = s.z_s ∧ (adj_layers c s).m_s = s.m_s ∧
    ((adj_layers c s).layer_count = 1 ↔ Shallow c s.z_s s.m_s) := by
  have hz : ∀ hz : 0 < s.z_s, s.m_s * (1 - c.max_z_s_0 / s.z_s) = (s.z_s - c.max_z_s_0) * s.rho := by
    intro hz
    rw [hm]; field_simp
  have h0 : ∀ h0 : (s.calc_layers c).layer_count = 0, False := by
    intro h0
    rw [(adj_layers_zero h0).snowcover] at h
    cases h
  unfold Shallow
  rcases calc_cases c hmax s with q | q | q | q
  · exact (h0 q.2.2.2.2).elim
  · exact (h0 q.2.2.2.2.2).elim
  · have a := adj_layers_pos hmax (s := s) (by rw [q.2.2.2.2.2.2]; norm_num)
    refine ⟨a.z_s, a.m_s, ?_⟩
    rw [a.lc, q.2.2.2.2.2.2, hz q.2.1]
    exact ⟨fun _ => q.2.2.1, fun _ => rfl⟩
  · have a := adj_layers_pos hmax (s := s) (by rw [q.2.2.2.2.2.2]; norm_num)
    refine ⟨a.z_s, a.m_s, ?_⟩
    rw [a.lc, q.2.2.2.2.2.2, hz (hmax.trans q.2.1)]
    constructor
    · intro h; cases h
    · rintro (h | h)
      · linarith [q.2.1]
      · linarith [q.2.2.1]

theorem adj_snow_shallow (hmax : 0 < c.max_z_s_0) (hsm : 0 ≤ c.small_threshold) (dz dm : ℝ) {s : Snow}
    (h0 : 0 < s.z_s_0) (hz : 0 < s.z_s) (hm : s.m_s = s.rho * s.z_s) (hlc : s.layer_count = 1)
    (hs : Shallow c s.z_s s.m_s) (hdz : dz ≤ 0) (hdm : dm ≤ 0) (hr : s.rho ≤ 600)
    (h : (adj_snow c dz dm s).snowcover = true) :
    (adj_snow c dz dm s).layer_count = 1 ∧ Shallow c (adj_snow c dz dm s).z_s (adj_snow c dz dm s).m_s := by
  have hd := adj_snow_depth hmax hsm dz dm h0 hz h
  by_cases hrr : adjRho dz dm s > 600
  · rw [adj_snow_clip hrr] at h ⊢
    have hz' : (s.m_s + dm) / 600 ≤ s.z_s := by
      rw [div_le_iff₀ (by norm_num), mul_comm]
      have : s.rho * s.z_s ≤ 600 * s.z_s := mul_le_mul_of_nonneg_right hr hz.le
      linarith
    obtain ⟨a1, a2, a3⟩ := adj_layers_shallow hmax (s := { s with z_s := (s.m_s + dm) / 600, m_s := s.m_s + dm, rho := 600 })
      (by show s.m_s + dm = 600 * ((s.m_s + dm) / 600); ring) h
    have := hs.mono hmax hsm hz' (by linarith : s.m_s + dm ≤ s.m_s)
    rw [a1, a2]
    exact ⟨a3.mpr this, this⟩
  · by_cases hz0 : dz = 0
    · subst hz0
      rw [adj_snow_still hrr]
      exact ⟨hlc, hs.mono hmax hsm (le_refl _) (by show s.m_s + dm ≤ s.m_s; linarith)⟩
    · rw [adj_snow_move hrr hz0] at h ⊢
      have hne : s.z_s + dz ≠ 0 := hd.2.ne'
      obtain ⟨a1, a2, a3⟩ := adj_layers_shallow hmax
        (s := { s with z_s := s.z_s + dz, m_s := s.m_s + dm, rho := adjRho dz dm s })
        (by
          show s.m_s + dm = adjRho dz dm s * (s.z_s + dz)
          unfold adjRho
          rw [if_pos hne]; field_simp) h
      have := hs.mono hmax hsm (by linarith : s.z_s + dz ≤ s.z_s) (by linarith : s.m_s + dm ≤ s.m_s)
      rw [a1, a2]
      exact ⟨a3.mpr this, this⟩

/-- Two layers, or one for good reason. -/
def Layered (c : Env) (s : Snow) : Prop := s.layer_count = 2 ∨ (s.layer_count = 1 ∧ Shallow c s.z_s s.m_s)

theorem adj_layers_layered (hmax : 0 < c.max_z_s_0) {s : Snow} (hm : s.m_s = s.rho * s.z_s)
    (h : (adj_layers c s).snowcover = true) : Layered c (adj_layers c s) := by
  obtain ⟨a1, a2, a3⟩ := adj_layers_shallow hmax hm h
  rcases adj_layers_cases hmax s with ⟨a, _⟩ | ⟨a, _⟩
  · by_cases h2 : (adj_layers c s).layer_count = 2
    · exact .inl h2
    · right
      have h1 : (adj_layers c s).layer_count = 1 := by
        have h0 := lc_pos.mpr (.inl a.z0)
        have := lc_le_two (adj_layers c s)
        omega
      rw [a1, a2]
      exact ⟨h1, a3.mp h1⟩
  · rw [a.snowcover] at h; cases h

theorem adj_snow_layered (hmax : 0 < c.max_z_s_0) (hsm : 0 ≤ c.small_threshold) (dz dm : ℝ) {s : Snow}
    (h0 : 0 < s.z_s_0) (hz : 0 < s.z_s) (hlc : s.layer_count = 2)
    (h : (adj_snow c dz dm s).snowcover = true) : Layered c (adj_snow c dz dm s) := by
  have hd := adj_snow_depth hmax hsm dz dm h0 hz h
  by_cases hrr : adjRho dz dm s > 600
  · rw [adj_snow_clip hrr] at h ⊢
    exact adj_layers_layered hmax (s := { s with z_s := (s.m_s + dm) / 600, m_s := s.m_s + dm, rho := 600 })
      (by show s.m_s + dm = 600 * ((s.m_s + dm) / 600); ring) h
  · by_cases hz0 : dz = 0
    · subst hz0
      rw [adj_snow_still hrr]
      exact .inl hlc
    · rw [adj_snow_move hrr hz0] at h ⊢
      have hne : s.z_s + dz ≠ 0 := hd.2.ne'
      exact adj_layers_layered hmax
        (s := { s with z_s := s.z_s + dz, m_s := s.m_s + dm, rho := adjRho dz dm s })
        (by
          show s.m_s + dm = adjRho dz dm s * (s.z_s + dz)
          unfold adjRho
          rw [if_pos hne]; field_simp) h

theorem afterVapour_loss {w e : ℝ} (he : e ≤ 0) : w - afterVapour w e ≤ -e := by
  unfold afterVapour
  split
  · have := le_max_right 0 (w + e * (2.501 / 2.835))
    have h2 : e ≤ e * (2.501 / 2.835) := by nlinarith
    linarith
  · linarith

theorem h2o_compact_layered (hmax : 0 < c.max_z_s_0) (hsm : 0 ≤ c.small_threshold) {i : InputData} {s s' : Snow} (hi : Inv c s)
    (hm : 0 < s.m_s) (h : h2o_compact c i s = .ok s') (hs : s.snowcover = true) (hs' : s'.snowcover = true) (hl : Layered c s) :
    Layered c s' ∧ (s.layer_count = 1 → s'.layer_count = 1) := by
  have h0 := hi.flag hs
  have hz := hi.z_pos h0
  have hr := (inv_rho_pos hi h0 hm).1
  have hp : s.m_s = s.rho * s.z_s := (hi.pack h0).1
  rcases h2o_compact_ok h with ⟨_, e⟩ | ⟨_, h5, w, _, ⟨_, e⟩ | ⟨hw, r, hr', hr0, e⟩⟩
  · rw [e]; exact ⟨hl, fun h => h⟩
  · rw [e]; exact ⟨hl, fun h => h⟩
  · rw [e] at hs' ⊢
    have hm' : ({ s with rho := r, z_s := s.m_s / r } : Snow).m_s = ({ s with rho := r, z_s := s.m_s / r } : Snow).rho *
        ({ s with rho := r, z_s := s.m_s / r } : Snow).z_s := by
      show s.m_s = r * (s.m_s / r)
      field_simp
    refine ⟨adj_layers_layered hmax hm' hs', fun h1 => ?_⟩
    obtain ⟨_, _, a3⟩ := adj_layers_shallow hmax hm' hs'
    rw [a3]
    have hge : s.rho ≤ r := by
      rw [hr']
      have hw' : 0 < w := lt_trans (by norm_num) hw
      have : 0 ≤ (550 - s.rho) / (1 + 0.4 / w) := div_nonneg (by linarith) (by positivity)
      linarith
    rcases hl with hl | ⟨_, hl⟩
    · omega
    · refine hl.mono hmax hsm ?_ (le_refl _)
      show s.m_s / r ≤ s.z_s
      rw [div_le_iff₀ (lt_of_lt_of_le hr hge), hp, mul_comm]
      exact mul_le_mul_of_nonneg_left hge hz.le

/-- A dry step without condensation never splits a layer once the pack has been compacted to at most 600 kg/m³: if the pack has two
layers at the start and the end, it has two throughout. -/
theorem StepChain.stays_two (hc : c.OK) (k : StepChain c dt dl p p' s0 s1 s2 s3 s4 s5 s6)
    (hs : p'.snow.snowcover = true) (hd : p'.input1.precip_now = false) (hm : 0 < p.snow.m_s)
    (h2 : p.snow.layer_count = 2) (h2' : p'.snow.layer_count = 2) (hE : p'.snow.E * dt ≤ 0)
    (hEs : p'.snow.E_s ≤ p'.snow.E * dt) (hz : p.snow.m_s ≤ 600 * s1.z_s) :
    s1.layer_count = 2 ∧ s2.layer_count = 2 ∧ s3.layer_count = 2 ∧ s4.layer_count = 2 ∧ s5.layer_count = 2 := by
  have hmax := hc.max_z
  obtain ⟨f6, f5, f4, f3, f2, f1, f0, hl⟩ := k.persist hmax hs
  obtain ⟨x1, x2, x3⟩ := k.fluxE hmax f5
  have st1 := (k.flag1 hmax f1).2
  have st4 := k.flag4 hmax f4
  have e0 : s0.m_s = p.snow.m_s ∧ s0.layer_count = p.snow.layer_count ∧ s0.rho = p.snow.rho ∧ s0.z_s = p.snow.z_s := by
    rw [k.start]; exact ⟨rfl, rfl, rfl, rfl⟩
  have h01 := k.i1.flag f1
  have hz1 := k.i1.z_pos h01
  have m1 : s1.m_s = p.snow.m_s := by rw [st1.m_s, e0.1]
  have hr1 : 0 < s1.rho ∧ s1.rho ≤ 600 := by
    have h := (k.i1.pack h01).1
    rw [m1] at h
    refine ⟨(inv_rho_pos k.i1 h01 (by rw [m1]; exact hm)).1, ?_⟩
    by_contra hn
    have := mul_lt_mul_of_pos_right (not_le.mp hn) hz1
    linarith
  -- gravity compaction
  have l1 : Layered c s1 := by
    rcases time_compact_ok k.tc with ⟨_, e⟩ | ⟨_, _, rate, d1, d2, _, _, _, _, hr, e⟩
    · left; rw [e, e0.2.1]; exact h2
    · rw [e] at f1 ⊢
      refine adj_layers_layered hmax ?_ f1
      show s0.m_s = (s0.rho + (d1 + d2) * s0.rho) * (s0.m_s / (s0.rho + (d1 + d2) * s0.rho))
      rw [← mul_div_assoc, mul_div_cancel_left₀ _ hr]
  -- no precipitation
  have e2 : s2.layer_count = s1.layer_count ∧ s2.z_s = s1.z_s ∧ s2.m_s = s1.m_s ∧ s2.rho = s1.rho ∧ s2.z_s_0 = s1.z_s_0 := by
    rcases precip_event_ok k.pe with ⟨_, e⟩ | ⟨hn, _⟩ | ⟨hn, _⟩ | ⟨hn, _⟩
    · rw [e]; exact ⟨rfl, rfl, rfl, rfl, rfl⟩
    all_goals rw [hd] at hn; cases hn
  have l2 : Layered c s2 := by
    unfold Layered; rw [e2.1, e2.2.1, e2.2.2.1]; exact l1
  have h02 := k.i2.flag f2
  have hz2 := k.i2.z_pos h02
  -- melt
  obtain ⟨l3, k3, m3, r3⟩ : Layered c s3 ∧ (s2.layer_count = 1 → s3.layer_count = 1) ∧ s3.m_s = p.snow.m_s ∧ s3.rho ≤ 600 := by
    rcases snowmelt_ok k.sm with ⟨hs', _⟩ | ⟨_, t, r, a, ⟨b1, b2, e⟩ | ⟨b1, e⟩⟩
    · rw [f2] at hs'; cases hs'
    · have ft : t.z_s = s2.z_s ∧ t.rho = s2.rho ∧ t.z_s_0 = s2.z_s_0 ∧ t.m_s = s2.m_s ∧ t.layer_count = s2.layer_count := by
        rw [a.frame]; exact ⟨rfl, rfl, rfl, rfl, rfl⟩
      obtain ⟨t1, t2, t3, t4, t5⟩ := ft
      rw [e] at f3
      have hdz : (-1) * t.melt / t.rho ≤ 0 := by
        rw [t2, e2.2.2.2.1]
        exact div_nonpos_of_nonpos_of_nonneg (by linarith) hr1.1.le
      have key : Layered c s3 ∧ (s2.layer_count = 1 → s3.layer_count = 1) := by
        rw [e]
        rcases l2 with l2 | ⟨l2, l2'⟩
        · refine ⟨adj_snow_layered hmax hc.small _ _ (by rw [t3]; exact h02) (by rw [t1]; exact hz2) (by rw [t5]; exact l2) f3, ?_⟩
          intro h; omega
        · have := adj_snow_shallow hmax hc.small ((-1) * t.melt / t.rho) 0 (s := t) (by rw [t3]; exact h02) (by rw [t1]; exact hz2)
            (by rw [t4, t2, t1]; exact (k.i2.pack h02).1) (by rw [t5]; exact l2) (by rw [t1, t4]; exact l2') hdz (le_refl _)
            (by rw [t2, e2.2.2.2.1]; exact hr1.2) f3
          exact ⟨.inr this, fun _ => this.1⟩
      have hm3 : s3.m_s = p.snow.m_s ∧ s3.rho ≤ 600 := by
        obtain ⟨_, t', r', _, st3⟩ := k.flag3 hmax (by rw [e]; exact f3)
        refine ⟨by rw [st3.m_s, e2.2.2.1, m1], ?_⟩
        rcases snowmelt_out hmax k.i2 k.sm with ⟨q, _⟩ | ⟨_, t', r', a', _, ⟨_, q | q⟩ | q⟩
        · rw [f2] at q; cases q
        · rw [q, a'.frame]
          show s2.rho ≤ 600
          rw [e2.2.2.2.1]; exact hr1.2
        · exact q
        · have := q.snowcover
          rw [e, f3] at this; cases this
      exact ⟨key.1, key.2, hm3.1, hm3.2⟩
    · have ft : t.z_s = s2.z_s ∧ t.rho = s2.rho ∧ t.m_s = s2.m_s ∧ t.layer_count = s2.layer_count := by
        rw [a.frame]; exact ⟨rfl, rfl, rfl, rfl⟩
      obtain ⟨t1, t2, t4, t5⟩ := ft
      rw [e]
      refine ⟨?_, fun h => by rw [t5]; exact h, by rw [t4, e2.2.2.1, m1], by rw [t2, e2.2.2.2.1]; exact hr1.2⟩
      unfold Layered
      rw [t5, t1, t4]; exact l2
  have h03 := k.i3.flag f3
  have hz3 := k.i3.z_pos h03
  have hr3 := (inv_rho_pos k.i3 h03 (by rw [m3]; exact hm)).1
  -- vapour
  obtain ⟨l4, k4⟩ : Layered c s4 ∧ (s3.layer_count = 1 → s4.layer_count = 1) := by
    rcases evap_cond_ok k.ec with ⟨hs', _⟩ | ⟨_, h0, _⟩ | ⟨_, _, el, w, h1, hw, _, e⟩
    · rw [f3] at hs'; cases hs'
    · have := (k.i3.lc_pos_iff hmax).mpr h03
      omega
    · have hE4 : s4.E_s = s3.E * dt + el := by rw [e]; exact (adj_snow_flux c _ _ _).E_s
      have q1 : s3.E * dt ≤ 0 := by rw [← x1]; exact hE
      have q2 : el ≤ 0 := by rw [x2, x1, hE4] at hEs; linarith
      rw [e] at f4 ⊢
      obtain ⟨y, hy⟩ : ∃ y : Snow, y = { s3 with h2o_total := w, E_s := s3.E * dt + el } := ⟨_, rfl⟩
      have ey : y.z_s = s3.z_s ∧ y.z_s_0 = s3.z_s_0 ∧ y.m_s = s3.m_s ∧ y.rho = s3.rho ∧ y.layer_count = s3.layer_count := by
        rw [hy]; exact ⟨rfl, rfl, rfl, rfl, rfl⟩
      rw [← hy] at f4 ⊢
      rcases l3 with l3 | ⟨l3, l3'⟩
      · refine ⟨adj_snow_layered hmax hc.small _ _ (by rw [ey.2.1]; exact h03) (by rw [ey.1]; exact hz3) (by rw [ey.2.2.2.2]; exact l3) f4, ?_⟩
        intro h; omega
      · have hdz : (s3.E * dt + el + s3.h2o_total - w) / s3.rho / 2 ≤ 0 := by
          rw [evapH2o_spec, evapH2o_spec] at hw
          have v1 := afterVapour_loss (w := s3.h2o_total) q1
          have v2 := afterVapour_loss (w := afterVapour s3.h2o_total (s3.E * dt)) q2
          rw [← hw] at v2
          exact div_nonpos_of_nonpos_of_nonneg (div_nonpos_of_nonpos_of_nonneg (by linarith) hr3.le) (by norm_num)
        have := adj_snow_shallow hmax hc.small _ (s3.E * dt + el) (s := y) (by rw [ey.2.1]; exact h03) (by rw [ey.1]; exact hz3)
          (by rw [ey.2.2.1, ey.2.2.2.1, ey.1]; exact (k.i3.pack h03).1) (by rw [ey.2.2.2.2]; exact l3)
          (by rw [ey.1, ey.2.2.1]; exact l3') hdz (by linarith) (by rw [ey.2.2.2.1]; exact r3) f4
        exact ⟨.inr this, fun _ => this.1⟩
  -- compaction by water
  have k5 : s4.layer_count = 1 → s5.layer_count = 1 := by
    by_cases hm4 : 0 < s4.m_s
    · exact (h2o_compact_layered hmax hc.small k.i4 hm4 k.hc f4 f5 l4).2
    · intro h1
      rcases h2o_compact_ok k.hc with ⟨_, e⟩ | ⟨_, _, w, _, ⟨_, e⟩ | ⟨_, r, _, _, e⟩⟩
      · rw [e]; exact h1
      · rw [e]; exact h1
      · exfalso
        rw [e] at f5
        rcases adj_layers_cases hmax { s4 with rho := r, z_s := s4.m_s / r } with ⟨_, b, _⟩ | ⟨a, _⟩
        · have b : c.small_threshold < s4.m_s := b
          linarith [hc.small]
        · rw [a.snowcover] at f5; cases f5
  have h5 : s5.layer_count = 2 := by
    have e6 : p'.snow.layer_count = s6.layer_count := by rw [k.frame7]; rfl
    have dr := k.drained hmax f5
    obtain ⟨_, _, _, _, _, _, _, _, _, _, _, _, _, _, _, d1, d2, _⟩ := dr
    rw [h2'] at e6
    have q := lc_eq_two.mp e6.symm
    rw [d1, d2] at q
    exact lc_eq_two.mpr q
  have n4 : s4.layer_count = 2 := by
    rcases l4 with l | l
    · exact l
    · have := k5 l.1; omega
  have n3 : s3.layer_count = 2 := by
    rcases l3 with l | l
    · exact l
    · have := k4 l.1; omega
  have n2 : s2.layer_count = 2 := by
    rcases l2 with l | l
    · exact l
    · have := k3 l.1; omega
  exact ⟨by rw [← e2.1]; exact n2, n2, n3, n4, h5⟩

theorem Stay.keeps {s s' : Snow} {m : ℝ} (h : Stay c s m s') (h1 : s.layer_count = 2) (h2 : s'.layer_count = 2) :
    s'.cc_s_l = s.cc_s_l := by
  rcases h.lower with ⟨_, e⟩ | ⟨_, q, _⟩ | ⟨q, _⟩
  · exact e
  · omega
  · omega

theorem StepChain.energyBooks {g : Config} {x : RStep Phys} (hc : c.OK) (hv : c.max_h2o_vol = g.max_h2o)
    (hsm : c.small_threshold = g.small_threshold) (hmx : c.max_z_s_0 = g.max_active)
    (hdt : 0 < dt) (k : StepChain c dt dl x.pre x.post s0 s1 s2 s3 s4 s5 s6)
    (hh : 0 ≤ x.pre.snow.h2o) (hf : x.post.input1.precip_now = true → StepForcing x.post.input1)
    (hs : x.post.snow.snowcover = true) :
    ∃ r0 rl w z1 z2 z3 z4 two a b, WaterBooks g dt x r0 rl w ∧ DepthBooks dt x w z1 z2 z3 z4 ∧ EnergyBooks g dt x r0 rl two a b ∧
      FreezeBooks g dt x z2 r0 rl two a ∧
      (x.post.input1.precip_now = false → 0 < x.pre.snow.m_s →
        (x.pre.snow.layer_count = 1 → x.pre.snow.z_s ≤ g.max_active → two = false ∧ a = x.pre.snow.cc_s_l) ∧
        (x.pre.snow.layer_count = 2 → x.post.snow.layer_count = 2 → x.post.snow.E * dt ≤ 0 →
          x.post.snow.E_s ≤ x.post.snow.E * dt → x.pre.snow.m_s ≤ 600 * z1 →
          two = true ∧ a = x.pre.snow.cc_s_l ∧ b = x.post.snow.cc_s_l) ∧
        (x.pre.snow.layer_count = 2 → two = true → a = x.pre.snow.cc_s_l)) := by
  have hmax := hc.max_z
  obtain ⟨r0, rl, w, hb, hd, t, hm, st3, hrl⟩ := k.ledgers (g := g) hc hv hdt hh hf hs
  obtain ⟨f6, f5, f4, f3, f2, f1, f0, hl⟩ := k.persist hmax hs
  obtain ⟨x1, x2, x3⟩ := k.fluxE hmax f5
  have st1 := (k.flag1 hmax f1).2
  obtain ⟨u, ru, ru'⟩ := (k.flag2 hmax f2).2.stay
  obtain ⟨_, _, el, w', _, _, hE, st4, _⟩ := k.flag4 hmax f4
  obtain ⟨_, st5, _⟩ := k.flag5 hmax f5
  obtain ⟨_, _, _, _, _, _, _, _, _, den, dcc, dcl, _, _, _, d1, d2, _⟩ := k.drained hmax f5
  have e0 : s0.m_s = x.pre.snow.m_s ∧ s0.cc_s_0 = x.pre.snow.cc_s_0 ∧ s0.cc_s_l = x.pre.snow.cc_s_l ∧
      s0.t_s = x.pre.snow.t_s ∧ s0.z_s = x.pre.snow.z_s ∧ s0.layer_count = x.pre.snow.layer_count := by
    rw [k.start]; exact ⟨rfl, rfl, rfl, rfl, rfl, rfl⟩
  have e7 : x.post.snow.cc_s_0 = s6.cc_s_0 ∧ x.post.snow.cc_s_l = s6.cc_s_l ∧ x.post.snow.en = s6.en ∧
      x.post.snow.layer_count = s6.layer_count := by
    rw [k.frame7]; exact ⟨rfl, rfl, rfl, rfl⟩
  have eu : s2.cc_s_0 = u.cc_s_0 ∧ s2.cc_s_l = u.cc_s_l ∧ s2.t_s = u.t_s ∧ s2.layer_count = u.layer_count := by
    rw [ru']; exact ⟨rfl, rfl, rfl, rfl⟩
  have et : t.en = s2.en ∧ t.t_s = s2.t_s ∧ t.layer_count = s2.layer_count := by
    rw [hm.frame]; exact ⟨rfl, rfl, rfl⟩
  have hen : x.post.snow.en = s2.en := by
    rw [e7.2.2.1, den, st5.en, st4.en]; exact st3.en.trans et.1
  have hcc2 : s2.cc_s_0 = x.pre.snow.cc_s_0 := by rw [eu.1, ru.cc0, st1.cc0, e0.2.1]
  have hcc : x.post.snow.cc_s_0 = t.cc_s_0 := by
    rw [e7.1, dcc, st5.cc0, st4.cc0]; exact st3.cc0
  have hcl : x.post.snow.cc_s_l = s5.cc_s_l := by rw [e7.2.1, dcl]
  have hmelt : x.post.snow.melt = t.melt := by rw [x3]; exact st3.melt
  have hQ : meltQ0 dt s2 = x.pre.snow.cc_s_0 + x.post.snow.en.delta_Q_0 * dt := by
    unfold meltQ0; rw [hcc2, hen]; ring
  have ts1 : s1.t_s = x.pre.snow.t_s := by rw [st1.t_s, e0.2.2.2.1]
  have ts2 : s2.t_s = x.pre.snow.t_s := by rw [eu.2.2.1, ru.t_s, ts1]
  have ts3 : s3.t_s = x.pre.snow.t_s := by rw [st3.t_s, et.2.1, ts2]
  have ts4 : s4.t_s = x.pre.snow.t_s := by rw [st4.t_s]; exact ts3
  have sumQ : ∀ q : ℝ, max 0 q + min 0 q = q := fun q => by rw [max_add_min]; ring
  have hmq := lf_melt_max dt s2
  refine ⟨r0, rl, w, s1.z_s, s2.z_s, s3.z_s, s4.z_s, decide (s2.layer_count = 2), s2.cc_s_l, t.cc_s_l, hb, hd, ?_, ?_, ?_⟩
  · have hmel : lh_fus FREEZE * x.post.snow.melt = max 0 (x.pre.snow.cc_s_0 + x.post.snow.en.delta_Q_0 * dt) +
        if decide (s2.layer_count = 2) = true then max 0 (s2.cc_s_l + (x.post.snow.en.G - x.post.snow.en.G_0) * dt) else 0 := by
      rw [hmelt, hm.melt_eq, mul_add, hmq, hQ]
      congr 1
      by_cases h2 : s2.layer_count = 2
      · have ql : meltQl dt s2 = s2.cc_s_l + (x.post.snow.en.G - x.post.snow.en.G_0) * dt := by
          unfold meltQl; rw [if_pos h2, hen]; ring
        have e : (if decide (s2.layer_count = 2) = true then
            max 0 (s2.cc_s_l + (x.post.snow.en.G - x.post.snow.en.G_0) * dt) else 0) = max 0 (meltQl dt s2) := by
          rw [if_pos (decide_eq_true h2), ql]
        rw [e]
        split
        · rename_i h; rw [lf_melt, max_eq_right h.2.le]
        · rename_i h
          have : ¬ meltQl dt s2 > 0 := fun h' => h ⟨h2, h'⟩
          rw [max_eq_left (not_lt.mp this)]; ring
      · have e : (if decide (s2.layer_count = 2) = true then
            max 0 (s2.cc_s_l + (x.post.snow.en.G - x.post.snow.en.G_0) * dt) else 0) = 0 := by
          rw [if_neg (by simpa using h2)]
        rw [e, if_neg (fun h => h2 h.1)]; ring
    refine ⟨?_, hmel, ?_, ?_, ?_⟩
    · rw [mul_sub, hmel, mul_add, hb.surface, hrl, hcc]
      have q0 := sumQ (x.pre.snow.cc_s_0 + x.post.snow.en.delta_Q_0 * dt)
      by_cases h2 : s2.layer_count = 2
      · have ql : meltQl dt s2 = s2.cc_s_l + (x.post.snow.en.G - x.post.snow.en.G_0) * dt := by
          unfold meltQl; rw [if_pos h2, hen]; ring
        have q1 := sumQ (meltQl dt s2)
        rw [if_pos (by simpa using h2), if_pos (by simpa using h2), if_pos h2, ← ql]
        linarith
      · have := hm.one h2
        rw [if_neg (by simpa using h2), if_neg (by simpa using h2), if_neg h2, this]
        linarith
    · intro h
      have h2 : s2.layer_count ≠ 2 := by simpa using h
      rw [if_neg h2, lf_eq] at hrl
      exact ⟨by linarith, hm.one h2⟩
    · rw [← hsm, ← e0.2.2.1, eu.2.1]
      exact (st1.relayered e0.2.2.2.1).trans (ru.relayered ts1)
    · rw [← hsm, hcl]
      have q4 := st4.relayered (t := x.pre.snow.t_s) ts3
      exact ((st3.relayered (by rw [et.2.1]; exact ts2)).trans q4).trans (st5.relayered ts4)
  · have b2 := k.books2 hc hh hf
    have rn := (k.flag2 hmax f2).2
    have h02 := k.i2.flag f2
    have hz2 := k.i2.z_pos h02
    have hwat : s2.h2o_total + t.melt = x.pre.snow.h2o + waterIn g x + x.post.snow.melt := by
      have e1 : s0.h2o = x.pre.snow.h2o ∧ s0.h2o_total = 0 := by rw [k.start]; exact ⟨rfl, rfl⟩
      rw [hmelt, rn.water, st1.h2o_total, e1.2, st1.h2o, e1.1]
      unfold waterIn
      by_cases hp : x.post.input1.precip_now = true
      · rw [if_pos hp, if_pos hp, wetWater_pore (hf hp), hv]; ring
      · rw [if_neg hp, if_neg hp]; ring
    have htot : 0 ≤ s2.h2o_total + t.melt := add_nonneg b2.total hm.melt_nonneg
    have hsum := k.i2.sum
    have hsl := hm.surf_law htot (div_nonneg h02.le hz2.le)
    rw [hwat, hQ] at hsl
    have hb0 : lh_fus FREEZE * r0 = t.cc_s_0 - min 0 (x.pre.snow.cc_s_0 + x.post.snow.en.delta_Q_0 * dt) := by
      rw [← hcc]; exact hb.surface
    refine ⟨fun h => ?_, ?_, fun h => ?_⟩
    · have h2 := lc_eq_two.mp (of_decide_eq_true h)
      have := k.i2.full h2.2
      rw [← hmx]; linarith
    · rw [hb0, hsl]
      congr 3
      by_cases h2 : s2.layer_count = 2
      · rw [if_pos (decide_eq_true h2), ← hmx, k.i2.full (lc_eq_two.mp h2).2]
      · rw [if_neg (by simpa using h2)]
        have : s2.z_s_l = 0 := by
          by_contra hne
          exact h2 (lc_eq_two.mpr ⟨h02, lt_of_le_of_ne k.i2.zl (Ne.symm hne)⟩)
        rw [this, add_zero] at hsum
        rw [← hsum, div_self hz2.ne']
    · have h2 := of_decide_eq_true h
      have ql : meltQl dt s2 = s2.cc_s_l + (x.post.snow.en.G - x.post.snow.en.G_0) * dt := by
        unfold meltQl; rw [if_pos h2, hen]; ring
      have hll := hm.lower_law h2 htot (div_nonneg k.i2.zl hz2.le)
      rw [hwat] at hll
      rw [hrl, if_pos h2, hll, ql]
      congr 3
      rw [← hmx, ← k.i2.full (lc_eq_two.mp h2).2, hsum]
      have : s2.z_s_0 + s2.z_s_l ≠ 0 := by rw [← hsum]; exact hz2.ne'
      field_simp
      ring
  · intro hdry hm0
    have hs2 : s2.layer_count = s1.layer_count ∧ s2.cc_s_l = s1.cc_s_l := by
      rcases precip_event_ok k.pe with ⟨_, e⟩ | ⟨hn, _⟩ | ⟨hn, _⟩ | ⟨hn, _⟩
      · rw [e]; exact ⟨rfl, rfl⟩
      all_goals rw [hdry] at hn; cases hn
    refine ⟨?_, ?_, fun h2 ht => ?_⟩
    · intro h1 hz
      have h01 := k.i1.flag f1
      have hz1 : s1.z_s ≤ x.pre.snow.z_s := by
        rcases lt_or_ge x.pre.snow.rho 550 with h | h
        · exact (hd.compact.2 h hm0).1.le
        · exact (hd.compact.1 h).le
      have hz10 : s1.z_s_l = 0 := by
        by_contra hne
        have hp := lt_of_le_of_ne k.i1.zl (Ne.symm hne)
        have := k.i1.full hp
        have := k.i1.sum
        linarith
      have n1 : s1.layer_count ≠ 2 := fun h => by
        have := (lc_eq_two.mp h).2
        linarith
      refine ⟨by rw [hs2.1]; simpa using n1, ?_⟩
      rw [hs2.2, (k.i1.one hz10).2.1]
      have hz00 : s0.z_s_l = 0 := by
        by_contra hne
        have hp := lt_of_le_of_ne k.i0.zl (Ne.symm hne)
        have := lc_eq_two.mpr ⟨k.i0.flag f0, hp⟩
        omega
      rw [← e0.2.2.1, (k.i0.one hz00).2.1]
    · intro h2 h2' hE hEs hz
      obtain ⟨n1, n2, n3, n4, n5⟩ := k.stays_two hc hs hdry hm0 h2 h2' hE hEs hz
      refine ⟨by simpa using n2, ?_, ?_⟩
      · rw [hs2.2, st1.keeps (by rw [e0.2.2.2.2.2]; exact h2) n1, e0.2.2.1]
      · have q4 := st4.keeps n3 n4
        rw [hcl, st5.keeps n4 n5, q4]
        exact (st3.keeps (by rw [et.2.2]; exact n2) n3).symm
    · rw [hs2.2, st1.keeps (by rw [e0.2.2.2.2.2]; exact h2) (by rw [← hs2.1]; exact of_decide_eq_true ht), e0.2.2.1]

/-- C24, whole run step: with admissible data, in every run step through which the snow cover lasts, the energy its fluxes bring to the
layers is found back as change of cold content plus latent heat of fusion times melt minus refreezing, where melt and refreezing are
those of the water ledger (C54).  The cold content of the lower layer changes otherwise only when the number of layers
changes; in particular not in a dry step on a pack no deeper than the surface layer, and not in a dry step without condensation
with two layers at the start and at the end (unless gravity compacts the pack to more than 600 kg/m³). -/
theorem C24_energy_step (g : Config) (hg : g.Tiled) (ha : g.AdmissibleStart) (rows : List Rec)
    (hr : ∀ r ∈ rows, r.Admissible) (ls : List (List (RStep Phys))) (m : Model)
    (h : RunTrace g rows ls m) : ∃ ts, parse_time_steps g = .ok ts ∧
      ∀ l ∈ ls, ∀ x ∈ l, x.post.snow.snowcover = true → ∃ dt, dt = (ts x.lv).time_step ∧
        ∃ r0 rl w z1 z2 z3 z4 two a b, WaterBooks g dt x r0 rl w ∧ DepthBooks dt x w z1 z2 z3 z4 ∧ EnergyBooks g dt x r0 rl two a b ∧
      (x.post.input1.precip_now = false → 0 < x.pre.snow.m_s →
        (x.pre.snow.layer_count = 1 → x.pre.snow.z_s ≤ g.max_active → two = false ∧ a = x.pre.snow.cc_s_l) ∧
        (x.pre.snow.layer_count = 2 → x.post.snow.layer_count = 2 → x.post.snow.E * dt ≤ 0 →
          x.post.snow.E_s ≤ x.post.snow.E * dt → x.pre.snow.m_s ≤ 600 * z1 →
          two = true ∧ a = x.pre.snow.cc_s_l ∧ b = x.post.snow.cc_s_l)) := by
  obtain ⟨c, ts, hc, hts, ho, ht, hx⟩ := trace_closed hg ha hr h
  refine ⟨ts, hts, fun l hl x hxl hs => ⟨_, rfl, ?_⟩⟩
  obtain ⟨d, ⟨h1, h1'⟩, _, hf, h3, _⟩ := hx l hl x hxl
  obtain ⟨s0, s1, s2, s3, s4, s5, s6, k⟩ := step_chain ho.max_z h1 h3
  obtain ⟨r0, rl, w, z1, z2, z3, z4, two, a, b, q1, q2, q3, _, q4⟩ := k.energyBooks (g := g) ho (mkEnv_ok hc).2.2.1
    (mkEnv_ok hc).2.1 (mkEnv_ok hc).1 (ht.step_pos x.lv) h1' hf hs
  exact ⟨r0, rl, w, z1, z2, z3, z4, two, a, b, q1, q2, q3, fun u v => ⟨(q4 u v).1, (q4 u v).2.1⟩⟩

/-- C24, one layer: in a dry run step through which a one-layer pack no deeper than the surface layer lasts as such, `delta_Q` times the
length of the step is the change of its cold content plus latent heat of fusion times melt minus refreezing. -/
theorem C24_one_layer_step (g : Config) (hg : g.Tiled) (ha : g.AdmissibleStart) (rows : List Rec)
    (hr : ∀ r ∈ rows, r.Admissible) (ls : List (List (RStep Phys))) (m : Model)
    (h : RunTrace g rows ls m) : ∃ ts, parse_time_steps g = .ok ts ∧
      ∀ l ∈ ls, ∀ x ∈ l, x.post.snow.snowcover = true → x.post.input1.precip_now = false → 0 < x.pre.snow.m_s →
        x.pre.snow.layer_count = 1 → x.pre.snow.z_s ≤ g.max_active →
        ∃ r0 w, WaterBooks g (ts x.lv).time_step x r0 0 w ∧
          x.post.snow.en.delta_Q * (ts x.lv).time_step = (x.post.snow.cc_s_0 - x.pre.snow.cc_s_0) +
            lh_fus FREEZE * (x.post.snow.melt - r0) := by
  obtain ⟨ts, hts, hx⟩ := C24_energy_step g hg ha rows hr ls m h
  refine ⟨ts, hts, fun l hl x hxl hs hd hm h1 hz => ?_⟩
  obtain ⟨dt, hdt, r0, rl, w, _, _, _, _, two, a, b, hw, _, he, hq⟩ := hx l hl x hxl hs
  obtain ⟨q1, _⟩ := (hq hd hm).1 h1 hz
  obtain ⟨q2, q3⟩ := he.single q1
  rw [q2, hdt] at hw
  refine ⟨r0, w, hw, ?_⟩
  have hQ := ((C25_energy_budget_step g rows ls m h l hl x hxl).2.2.1 h1).2
  have := he.ledger
  rw [q1, q2, q3, if_neg (by simp), hdt] at this
  rw [hQ]
  linarith

/-- C24, two layers: the same for a dry run step without condensation with two layers at the start and at the end. -/
theorem C24_two_layer_step (g : Config) (hg : g.Tiled) (ha : g.AdmissibleStart) (rows : List Rec)
    (hr : ∀ r ∈ rows, r.Admissible) (ls : List (List (RStep Phys))) (m : Model)
    (h : RunTrace g rows ls m) : ∃ ts, parse_time_steps g = .ok ts ∧
      ∀ l ∈ ls, ∀ x ∈ l, x.post.snow.snowcover = true → x.post.input1.precip_now = false → 0 < x.pre.snow.m_s →
        x.pre.snow.layer_count = 2 → x.post.snow.layer_count = 2 → x.post.snow.E ≤ 0 →
        x.post.snow.E_s ≤ x.post.snow.E * (ts x.lv).time_step →
        ∃ r0 rl w z1 z2 z3 z4, WaterBooks g (ts x.lv).time_step x r0 rl w ∧ DepthBooks (ts x.lv).time_step x w z1 z2 z3 z4 ∧
          (x.pre.snow.m_s ≤ 600 * z1 →
          x.post.snow.en.delta_Q * (ts x.lv).time_step =
            ((x.post.snow.cc_s_0 + x.post.snow.cc_s_l) - (x.pre.snow.cc_s_0 + x.pre.snow.cc_s_l)) +
            lh_fus FREEZE * (x.post.snow.melt - (r0 + rl))) := by
  obtain ⟨ts, hts, hx⟩ := C24_energy_step g hg ha rows hr ls m h
  obtain ⟨ts', hts', hp⟩ : ∃ ts, parse_time_steps g = .ok ts ∧ ∀ lv, 0 < (ts lv).time_step := by
    obtain ⟨c, ts, hc, hts, ho, ht, _⟩ := trace_closed hg ha hr h
    exact ⟨ts, hts, ht.step_pos⟩
  rw [hts] at hts'
  cases hts'
  refine ⟨ts, hts, fun l hl x hxl hs hd hm h2 h2' hE hEs => ?_⟩
  obtain ⟨dt, hdt, r0, rl, w, z1, z2, z3, z4, two, a, b, hw, hz, he, hq⟩ := hx l hl x hxl hs
  rw [hdt] at hw hz
  refine ⟨r0, rl, w, z1, z2, z3, z4, hw, hz, fun h6 => ?_⟩
  obtain ⟨q1, q2, q3⟩ := (hq hd hm).2 h2 h2' (by rw [hdt]; exact mul_nonpos_of_nonpos_of_nonneg hE (hp _).le) (by rw [hdt]; exact hEs) h6
  have hQ := ((C25_energy_budget_step g rows ls m h l hl x hxl).1).pack
  have := he.ledger
  rw [q1, q2, q3, if_pos rfl, hdt] at this
  rw [hQ]
  linarith

end

end Pysnobal
