import Verif.Lemmas.StepRecords
import Verif.Props.Retention
import Verif.Props.Functions
import Verif.Props.Pack

/-! # C16, C17: cold content and snow temperature -/

namespace Pysnobal

noncomputable section

variable {c : Env} {dt : ℝ} {dl : InputData} {p p' : Phys} {s0 s1 s2 s3 s4 s5 s6 : Snow}

theorem T_NONE_pos : 0 < T_NONE := by norm_num [T_NONE, MIN_SNOW_TEMP, FREEZE]

theorem T_NONE_le : T_NONE ≤ FREEZE := by norm_num [T_NONE, MIN_SNOW_TEMP, FREEZE]

theorem cold_content_nonpos {t m : ℝ} (ht : 0 ≤ t) (hm : 0 ≤ m) : cold_content t m ≤ 0 := by
  unfold cold_content
  split
  · rename_i h
    unfold heat_stor
    have hc := cp_ice_pos ht
    have : 0 ≤ cp_ice t * m := by positivity
    nlinarith
  · exact le_refl _

theorem cold_content_zero {t m : ℝ} (ht : 0 ≤ t) (hm : 0 < m) (hf : t ≤ FREEZE)
    (h : cold_content t m = 0) : t = FREEZE := by
  unfold cold_content at h
  split at h
  · rename_i h1
    unfold heat_stor at h
    have hc := cp_ice_pos ht
    have : 0 < cp_ice t * m := by positivity
    have : cp_ice t * m * (t - FREEZE) < 0 := by nlinarith
    linarith
  · rename_i h1
    exact le_antisymm hf (not_lt.mp h1)

theorem new_tsno_le {m t cc x : ℝ} (hm : 0 < m) (ht : 0 ≤ t) (hc : cc ≤ 0) (h : new_tsno m t cc = .ok x) :
    x ≤ FREEZE ∧ (cc = 0 → x = FREEZE) := by
  obtain ⟨_, e⟩ := new_tsno_ok h
  have : 0 < m * cp_ice t := mul_pos hm (cp_ice_pos ht)
  rw [e]
  refine ⟨?_, fun h => by rw [h]; simp⟩
  have := div_nonpos_of_nonpos_of_nonneg hc this.le
  linarith

/-- The lower temperature is positive or the pack's. -/
theorem Stay.lowT {s s' : Snow} {m a : ℝ} (h : Stay c s m s') (ht : s.t_s = a)
    (hl : 0 < s.t_s_l ∨ s.t_s_l = a) : 0 < s'.t_s_l ∨ s'.t_s_l = a := by
  rcases h.lower with ⟨e, _⟩ | ⟨_, _, e, _⟩ | ⟨_, _, e, _⟩
  · rw [e]; exact hl
  · rw [e]; exact .inl T_NONE_pos
  · rw [e]; exact .inr ht

theorem Stay.lowC {s s' : Snow} {m : ℝ} (hc : c.OK) (h : Stay c s m s') (ht : 0 ≤ s.t_s)
    (hl : s.cc_s_l ≤ 0) : s'.cc_s_l ≤ 0 := by
  rcases h.lower with ⟨_, e⟩ | ⟨_, _, _, e⟩ | ⟨_, _, _, e, hm⟩
  · rw [e]; exact hl
  · rw [e]
  · rw [e]; exact cold_content_nonpos ht (hc.small.trans hm)

/-- Cold contents and temperatures before the final adjustment of a pack that lasted through the step. -/
theorem StepChain.cold (hc : c.OK) (k : StepChain c dt dl p p' s0 s1 s2 s3 s4 s5 s6)
    (hi : Inv c p.snow) (hs : p'.snow.snowcover = true) :
    s6.cc_s_0 ≤ 0 ∧ s6.t_s = p.snow.t_s ∧ s6.t_s_0 = p.snow.t_s_0 ∧
      (0 < s6.t_s_l ∨ s6.t_s_l = p.snow.t_s) ∧ (0 ≤ p.snow.t_s → s6.cc_s_l ≤ 0) := by
  obtain ⟨f6, f5, f4, f3, f2, f1, f0, hl⟩ := k.persist hc.max_z hs
  have st1 := (k.flag1 hc.max_z f1).2
  obtain ⟨t1, st2, e2⟩ := (k.flag2 hc.max_z f2).2.stay
  obtain ⟨_, t, r, hm, st3⟩ := k.flag3 hc.max_z f3
  obtain ⟨_, _, el, w, _, _, _, st4, _⟩ := k.flag4 hc.max_z f4
  obtain ⟨_, st5, _⟩ := k.flag5 hc.max_z f5
  obtain ⟨_, _, _, _, _, _, _, _, _, _, d1, d2, d3, d4, d5, _⟩ := k.drained hc.max_z f5
  have z0 : 0 < p.snow.z_s_0 := (hi.lc_pos_iff hc.max_z).mp hl
  -- temperatures at the start
  have a0 : s0.t_s = p.snow.t_s ∧ s0.t_s_0 = p.snow.t_s_0 ∧ s0.t_s_l = p.snow.t_s_l := by
    rw [k.start]; exact ⟨rfl, rfl, rfl⟩
  have l0 : 0 < s0.t_s_l ∨ s0.t_s_l = p.snow.t_s := by
    left
    rw [a0.2.2]
    by_cases h2 : p.snow.layer_count = 2
    · exact (k.temps hl).2 h2
    · have : p.snow.z_s_l = 0 := by
        rcases hi.zl.eq_or_lt with h | h
        · exact h.symm
        · exact absurd ((hi.toL z0).lc.2 h) h2
      rw [(hi.one this).2.2]; exact T_NONE_pos
  have e2t : s2.t_s = t1.t_s ∧ s2.t_s_0 = t1.t_s_0 ∧ s2.t_s_l = t1.t_s_l := by
    rw [e2]; exact ⟨rfl, rfl, rfl⟩
  have emt : t.t_s = s2.t_s ∧ t.t_s_0 = s2.t_s_0 ∧ t.t_s_l = s2.t_s_l := by
    rw [hm.frame]; exact ⟨rfl, rfl, rfl⟩
  have b1 : s1.t_s = p.snow.t_s := by rw [st1.t_s, a0.1]
  have b2 : s2.t_s = p.snow.t_s := by rw [e2t.1, st2.t_s, b1]
  have bt : t.t_s = p.snow.t_s := by rw [emt.1, b2]
  have b3 : s3.t_s = p.snow.t_s := by rw [st3.t_s, bt]
  have b4 : s4.t_s = p.snow.t_s := by rw [st4.t_s]; exact b3
  have b5 : s5.t_s = p.snow.t_s := by rw [st5.t_s, b4]
  have u1 : s1.t_s_0 = p.snow.t_s_0 := by rw [st1.t_s_0, a0.2.1]
  have u2 : s2.t_s_0 = p.snow.t_s_0 := by rw [e2t.2.1, st2.t_s_0, u1]
  have ut : t.t_s_0 = p.snow.t_s_0 := by rw [emt.2.1, u2]
  have u3 : s3.t_s_0 = p.snow.t_s_0 := by rw [st3.t_s_0, ut]
  have u4 : s4.t_s_0 = p.snow.t_s_0 := by rw [st4.t_s_0]; exact u3
  have u5 : s5.t_s_0 = p.snow.t_s_0 := by rw [st5.t_s_0, u4]
  have l1 := st1.lowT a0.1 l0
  have l2 : 0 < s2.t_s_l ∨ s2.t_s_l = p.snow.t_s := by
    rw [e2t.2.2]; exact st2.lowT b1 l1
  have lt' : 0 < t.t_s_l ∨ t.t_s_l = p.snow.t_s := by rw [emt.2.2]; exact l2
  have l3 := st3.lowT bt lt'
  have l4 : 0 < s4.t_s_l ∨ s4.t_s_l = p.snow.t_s := st4.lowT (by exact b3) (by exact l3)
  have l5 := st5.lowT b4 l4
  have ccl : t.cc_s_l ≤ 0 := by
    by_cases h2 : s2.layer_count = 2
    · exact hm.ccl h2
    · rw [hm.one h2]
      have z2 := k.i2.flag f2
      have : s2.z_s_l = 0 := by
        rcases k.i2.zl.eq_or_lt with h | h
        · exact h.symm
        · exact absurd ((k.i2.toL z2).lc.2 h) h2
      rw [(k.i2.one this).2.1]
  refine ⟨?_, by rw [d3, b5], by rw [d4, u5], by rw [d5]; exact l5, fun h => ?_⟩
  · rw [d1, st5.cc0, st4.cc0]
    show s3.cc_s_0 ≤ 0
    rw [st3.cc0]; exact hm.cc0
  · rw [d2]
    refine st5.lowC hc (by rw [b4]; exact h) (st4.lowC hc (by show 0 ≤ s3.t_s; rw [b3]; exact h) ?_)
    show s3.cc_s_l ≤ 0
    exact st3.lowC hc (by rw [bt]; exact h) ccl

/-- What one run step guarantees about cold contents and temperatures. -/
structure ColdStep (pre post : Snow) : Prop where
  cc0 : post.cc_s_0 ≤ 0
  ccl : 0 ≤ pre.t_s → post.cc_s_l ≤ 0
  t0 : 0 < post.m_s → post.t_s_0 ≤ FREEZE
  t : 0 < post.m_s → 0 ≤ pre.t_s → post.t_s ≤ FREEZE ∧ post.t_s_l ≤ FREEZE
  iso : 0 < post.m_s → post.cc_s_0 + post.cc_s_l = 0 →
    post.t_s = FREEZE ∧ post.t_s_0 = FREEZE ∧ (post.layer_count = 2 → post.t_s_l = FREEZE)
  one : post.layer_count = 1 → post.t_s = post.t_s_0

theorem StepChain.coldStep (hc : c.OK) (k : StepChain c dt dl p p' s0 s1 s2 s3 s4 s5 s6)
    (hi : Inv c p.snow) (hf : p'.input1.precip_now = true → StepForcing p'.input1) :
    ColdStep p.snow p'.snow := by
  have hi' : Inv c p'.snow := by
    rcases k.fin with ⟨h1, h2⟩ | ⟨_, h2⟩
    · exact adjust_inv k.i6 h1 h2
    · rw [h2]; exact k.i6
  cases hs : p'.snow.snowcover
  · rcases k.ended hc.max_z hs with h | ⟨hp, hm, t, ht, hlt, e⟩
    · obtain ⟨b1, b2, b3, b4, b5, b6, _⟩ := hi'.bare ((hi'.lc_zero_iff hc.max_z).mp h)
      have hzl : p'.snow.z_s_l = 0 := le_antisymm (lc_eq_zero.mp h).2 hi'.zl
      have hl := (hi'.one hzl)
      refine ⟨by rw [b4], fun _ => by rw [hl.2.1], fun h => ?_, fun h => ?_, fun h => ?_, fun h => by omega⟩
      all_goals rw [b1] at h; exact absurd h (lt_irrefl _)
    · have F := hf hp
      have hd := F.dens hm
      rcases init_snow_out hc.max_z ht with h | h
      · obtain ⟨h1, h2, d, _, _, q1, q2, q3, q4, _, _, _, _, _, q5, q6, q7, q8, _⟩ := h
        have it := init_snow_inv hc.max_z ht (s := freshSnow p'.input1 s1) (by
          have := hs
          rw [e] at this
          have h' : t.snowcover = false := this
          rcases init_snow_out hc.max_z ht with h | h
          · obtain ⟨_, _, d, _, _, _, _, _, _, _, _, _, _, _, _, _, _, _, _, _, _, _, _, e⟩ := h
            rw [e] at h'; exact h'
          · obtain ⟨_, _, _, _, _, _, _, _, _, _, _, _, _, _, _, _, _, e⟩ := h
            rw [e] at h'; exact h')
        have q5' : t.t_s = p'.input1.t_snow := q5
        have q6' : t.t_s_0 = p'.input1.t_snow := q6
        have q2' : t.rho = p'.input1.rho_snow := q2
        have q7' : t.cc_s_0 = cold_content p'.input1.t_snow t.m_s_0 := q7
        have hrho : 0 < t.rho := by rw [q2']; exact hd.1
        have hpk := it.pack q4
        have m0 : 0 < t.m_s_0 := by rw [hpk.2.1]; exact mul_pos hrho q4
        have ml : 0 ≤ t.m_s_l := by rw [hpk.2.2]; exact mul_nonneg hrho.le it.zl
        have ht0 : 0 ≤ p'.input1.t_snow := hd.2.2.1.le
        have c0 : t.cc_s_0 ≤ 0 := by rw [q7']; exact cold_content_nonpos ht0 m0.le
        have cl : t.cc_s_l ≤ 0 := by
          rcases q8 with ⟨_, _, e⟩ | ⟨_, _, e⟩
          · rw [e]
          · rw [e]; exact cold_content_nonpos ht0 ml
        have tl : t.t_s_l ≤ FREEZE := by
          rcases q8 with ⟨_, e, _⟩ | ⟨_, e, _⟩
          · rw [e]; exact T_NONE_le
          · rw [e]; exact hd.2.2.2
        rw [e]
        refine ⟨c0, fun _ => cl, fun _ => ?_, fun _ _ => ⟨?_, tl⟩, fun _ hiso => ?_, fun _ => ?_⟩
        · show t.t_s_0 ≤ FREEZE
          rw [q6']; exact hd.2.2.2
        · show t.t_s ≤ FREEZE
          rw [q5']; exact hd.2.2.2
        · have hiso' : t.cc_s_0 + t.cc_s_l = 0 := hiso
          have z : t.cc_s_0 = 0 := by linarith
          rw [q7'] at z
          have hF := cold_content_zero ht0 m0 hd.2.2.2 z
          refine ⟨by show t.t_s = FREEZE; rw [q5']; exact hF, by show t.t_s_0 = FREEZE; rw [q6']; exact hF, ?_⟩
          intro h2
          have h2' : t.layer_count = 2 := h2
          rcases q8 with ⟨e, _⟩ | ⟨_, e, _⟩
          · omega
          · show t.t_s_l = FREEZE
            rw [e]; exact hF
        · show t.t_s = t.t_s_0
          rw [q5', q6']
      · obtain ⟨_, _, _, _, hz0, hzl, _⟩ := h
        have : t.layer_count = 0 := lc_eq_zero.mpr ⟨hz0, hzl.le⟩
        omega
  · obtain ⟨c0, e1, e2, e3, e4⟩ := k.cold hc hi hs
    obtain ⟨f6, _, _, _, _, _, _, hl⟩ := k.persist hc.max_z hs
    have z6 := k.i6.flag f6
    have hpk := k.i6.pack z6
    have ht0 := (k.temps hl).1
    have hadj : s6.adjust_layer_temps = .ok p'.snow := by
      rcases k.fin with ⟨_, h⟩ | ⟨h, _⟩
      · exact h
      · rw [f6] at h; cases h
    have fr := k.frame7
    have g1 : p'.snow.cc_s_0 = s6.cc_s_0 ∧ p'.snow.cc_s_l = s6.cc_s_l ∧ p'.snow.m_s = s6.m_s ∧
        p'.snow.layer_count = s6.layer_count := by
      rw [fr]; exact ⟨rfl, rfl, rfl, rfl⟩
    obtain ⟨g1, g2, g3, g4⟩ := g1
    have hrho : 0 < s6.m_s → 0 < s6.rho := by
      intro h
      rw [hpk.1] at h
      exact pos_of_mul_pos_left h (k.i6.z_pos z6).le
    have m0 : 0 < s6.m_s → 0 < s6.m_s_0 := fun h => by
      rw [hpk.2.1]; exact mul_pos (hrho h) z6
    have hcl : s6.layer_count ≠ 2 → s6.cc_s_l = 0 ∧ s6.t_s_l = T_NONE := by
      intro h2
      have : s6.z_s_l = 0 := by
        rcases k.i6.zl.eq_or_lt with h | h
        · exact h.symm
        · exact absurd ((k.i6.toL z6).lc.2 h) h2
      exact ⟨(k.i6.one this).2.1, (k.i6.one this).2.2⟩
    rcases adjust_ok hadj with ⟨h1, t, ht, e⟩ | ⟨h2, hz, e⟩ | ⟨h2, hz, t0, tl, t, k0, kl, kt, e⟩ | ⟨h3, _⟩
    · have hcl' := hcl (by omega)
      refine ⟨by rw [g1]; exact c0, fun h => by rw [g2]; exact e4 h, fun h => ?_, fun h _ => ?_,
        fun h hiso => ?_, fun _ => by rw [e]⟩
      all_goals
        rw [g3] at h
        have kk := new_tsno_le (m0 h) (by rw [e2]; exact ht0.le) c0 ht
      · rw [e]; exact kk.1
      · rw [e]; exact ⟨kk.1, by show s6.t_s_l ≤ FREEZE; rw [hcl'.2]; exact T_NONE_le⟩
      · rw [g1, g2, hcl'.1, add_zero] at hiso
        rw [g4, h1]
        rw [e]
        exact ⟨kk.2 hiso, kk.2 hiso, fun h => by omega⟩
    · refine ⟨by rw [g1]; exact c0, fun h => by rw [g2]; exact e4 h, fun _ => by rw [e],
        fun _ _ => by rw [e]; exact ⟨le_refl _, le_refl _⟩, fun _ _ => by rw [e]; exact ⟨rfl, rfl, fun _ => rfl⟩,
        fun _ => by rw [e]⟩
    · have zl := (lc_eq_two.mp h2).2
      have ml : 0 < s6.m_s → 0 < s6.m_s_l := fun h => by
        rw [hpk.2.2]; exact mul_pos (hrho h) zl
      refine ⟨by rw [g1]; exact c0, fun h => by rw [g2]; exact e4 h, fun h => ?_, fun h hp => ?_,
        fun h hiso => ?_, fun h => ?_⟩
      · rw [g3] at h
        rw [e]
        exact (new_tsno_le (m0 h) (by rw [e2]; exact ht0.le) c0 k0).1
      · rw [g3] at h
        have ht_l : 0 ≤ s6.t_s_l := by
          rcases e3 with h | h
          · exact h.le
          · rw [h]; exact hp
        have cl := e4 hp
        rw [e]
        exact ⟨(new_tsno_le h (by rw [e1]; exact hp) (by linarith) kt).1,
          (new_tsno_le (ml h) ht_l cl kl).1⟩
      · rw [g1, g2] at hiso
        exact absurd hiso hz
      · rw [g4] at h; omega
    · exfalso
      have := (k.i6.lc_pos_iff hc.max_z).mpr z6
      rcases k.i6.zl.eq_or_lt with h | h
      · have := (k.i6.toL z6).lc.1 h.symm; omega
      · have := (k.i6.toL z6).lc.2 h; omega

/-- Every run step of a simulation with admissible data is a `ColdStep`, and the pack temperature of a
pack without a lower layer is not below 0 K. -/
theorem trace_cold {g : Config} (hg : g.Tiled) (ha : g.AdmissibleStart) (ht : 0 ≤ g.init_t_s)
    {rows : List Rec} (hr : ∀ r ∈ rows, r.Admissible) {ls : List (List (RStep Phys))} {m : Model}
    (h : RunTrace g rows ls m) : ∀ l ∈ ls, ∀ x ∈ l, ColdStep x.pre.snow x.post.snow ∧
      (x.pre.snow.layer_count ≠ 2 → 0 ≤ x.pre.snow.t_s) := by
  obtain ⟨c, ts, hc, hts, ho, htl, hx⟩ := trace_closed hg ha hr h
  have key : ∀ l ∈ ls, ∀ x ∈ l, ColdStep x.pre.snow x.post.snow ∧
      (0 < x.pre.snow.layer_count → 0 < x.pre.snow.t_s_0) ∧ Inv c x.pre.snow := by
    intro l hl x hxl
    obtain ⟨d, ⟨h1, h1'⟩, h2, hf, h3, kc⟩ := hx l hl x hxl
    obtain ⟨s0, s1, s2, s3, s4, s5, s6, k⟩ := step_chain ho.max_z h1 h3
    exact ⟨k.coldStep ho h1 hf, fun h => (k.temps h).1, h1⟩
  have ind := (h.induct (P := fun s => s.layer_count = 1 → s.t_s = s.t_s_0 ∨ 0 ≤ s.t_s)
    (fun c' s hc' hs h1 => by
      right
      rw [hc] at hc'
      cases hc'
      rcases init_snow_out ho.max_z hs with h | h
      · obtain ⟨_, _, d, _, _, _, _, _, _, _, _, _, _, _, q, _⟩ := h
        rw [q]; exact ht
      · obtain ⟨_, _, _, _, hz0, hzl, _⟩ := h
        have : s.layer_count = 0 := lc_eq_zero.mpr ⟨hz0, hzl.le⟩
        omega)
    (fun l hl x hxl _ h1 => .inl ((key l hl x hxl).1.one h1))).2
  intro l hl x hxl
  obtain ⟨k1, k2, k3⟩ := key l hl x hxl
  refine ⟨k1, fun h2 => ?_⟩
  have hle := lc_le_two x.pre.snow
  by_cases h0 : x.pre.snow.layer_count = 0
  · rw [(k3.bare ((k3.lc_zero_iff ho.max_z).mp h0)).2.2.2.2.1]
    exact T_NONE_pos.le
  · rcases (ind l hl x hxl).1 (by omega) with h | h
    · rw [h]; exact (k2 (by omega)).le
    · exact h

/-! ## C16 -/

/-- C16, run step: with admissible data the surface cold content is never positive after a run step; nor
are the lower and the total cold content, unless the step began with a two-layer pack whose mean
temperature was below 0 K. -/
theorem C16_cold_content_step (g : Config) (hg : g.Tiled) (ha : g.AdmissibleStart) (ht : 0 ≤ g.init_t_s)
    (rows : List Rec) (hr : ∀ r ∈ rows, r.Admissible) (ls : List (List (RStep Phys))) (m : Model)
    (h : RunTrace g rows ls m) : ∀ l ∈ ls, ∀ x ∈ l,
      x.post.snow.cc_s_0 ≤ 0 ∧
      ((x.pre.snow.layer_count = 2 → 0 ≤ x.pre.snow.t_s) →
        x.post.snow.cc_s_l ≤ 0 ∧ x.post.snow.cc_s ≤ 0) := by
  intro l hl x hx
  obtain ⟨k, k'⟩ := trace_cold hg ha ht hr h l hl x hx
  refine ⟨k.cc0, fun hp => ?_⟩
  have hp' : 0 ≤ x.pre.snow.t_s := by
    by_cases h2 : x.pre.snow.layer_count = 2
    · exact hp h2
    · exact k' h2
  have := k.ccl hp'
  exact ⟨this, by unfold Snow.cc_s; linarith [k.cc0]⟩

/-- C16, records: the surface cold content of every record is at most zero; if no run step begins with a
two-layer pack whose mean temperature is below 0 K, so are the lower and the total cold content. -/
theorem C16_cold_content_records (g : Config) (hg : g.Tiled) (ha : g.AdmissibleStart)
    (ht : 0 ≤ g.init_t_s) (rows : List Rec) (hr : ∀ r ∈ rows, r.Admissible)
    (ls : List (List (RStep Phys))) (m : Model) (h : RunTrace g rows ls m) :
    (∀ r ∈ m.output_list, r.cc_s_0 ≤ 0) ∧
    ((∀ l ∈ ls, ∀ x ∈ l, x.pre.snow.layer_count = 2 → 0 ≤ x.pre.snow.t_s) →
      ∀ r ∈ m.output_list, r.cc_s_l ≤ 0 ∧ r.cc_s ≤ 0) := by
  have hstep := C16_cold_content_step g hg ha ht rows hr ls m h
  refine ⟨fun r hro => ?_, fun hw r hro => ?_⟩
  all_goals
    obtain ⟨l, hl, x, hx, a, t, hsn⟩ := h.shown hg r hro
    obtain ⟨_, _, _, _, w1, w2, w3, _⟩ := snapshot_snow hsn
  · rw [w1]; exact (hstep l hl x hx).1
  · rw [w2, w3]; exact (hstep l hl x hx).2 (hw l hl x hx)

/-! ## C17 -/

/-- C17, run step: with admissible data, whenever a run step leaves positive snow mass, the surface layer
is not above freezing; nor are the pack and the lower layer, unless the step began with a two-layer pack
whose mean temperature was below 0 K.  A pack without cold content is exactly at freezing. -/
theorem C17_temperature_step (g : Config) (hg : g.Tiled) (ha : g.AdmissibleStart) (ht : 0 ≤ g.init_t_s)
    (rows : List Rec) (hr : ∀ r ∈ rows, r.Admissible) (ls : List (List (RStep Phys))) (m : Model)
    (h : RunTrace g rows ls m) : ∀ l ∈ ls, ∀ x ∈ l, 0 < x.post.snow.m_s →
      x.post.snow.t_s_0 ≤ FREEZE ∧
      ((x.pre.snow.layer_count = 2 → 0 ≤ x.pre.snow.t_s) →
        x.post.snow.t_s ≤ FREEZE ∧ x.post.snow.t_s_l ≤ FREEZE) ∧
      (x.post.snow.cc_s = 0 → x.post.snow.t_s = FREEZE ∧ x.post.snow.t_s_0 = FREEZE ∧
        (x.post.snow.layer_count = 2 → x.post.snow.t_s_l = FREEZE)) := by
  intro l hl x hx hm
  obtain ⟨k, k'⟩ := trace_cold hg ha ht hr h l hl x hx
  refine ⟨k.t0 hm, fun hp => k.t hm ?_, fun hz => k.iso hm hz⟩
  by_cases h2 : x.pre.snow.layer_count = 2
  · exact hp h2
  · exact k' h2

/-- C17, records: in every record with positive snow mass the surface layer is not above freezing and a
pack without cold content is exactly at freezing; if no run step begins with a two-layer pack whose mean
temperature is below 0 K, no temperature of such a record is above freezing. -/
theorem C17_temperature_records (g : Config) (hg : g.Tiled) (ha : g.AdmissibleStart)
    (ht : 0 ≤ g.init_t_s) (rows : List Rec) (hr : ∀ r ∈ rows, r.Admissible)
    (ls : List (List (RStep Phys))) (m : Model) (h : RunTrace g rows ls m) :
    (∀ r ∈ m.output_list, 0 < r.m_s → r.t_s_0 ≤ FREEZE ∧
      (r.cc_s = 0 → r.t_s = FREEZE ∧ r.t_s_0 = FREEZE ∧ (r.layer_count = 2 → r.t_s_l = FREEZE))) ∧
    ((∀ l ∈ ls, ∀ x ∈ l, x.pre.snow.layer_count = 2 → 0 ≤ x.pre.snow.t_s) →
      ∀ r ∈ m.output_list, 0 < r.m_s → r.t_s_0 ≤ FREEZE ∧ r.t_s ≤ FREEZE ∧ r.t_s_l ≤ FREEZE) := by
  have hstep := C17_temperature_step g hg ha ht rows hr ls m h
  refine ⟨fun r hro hm => ?_, fun hw r hro hm => ?_⟩
  all_goals
    obtain ⟨l, hl, x, hx, a, t, hsn⟩ := h.shown hg r hro
    obtain ⟨_, w1, w2, w3, _, _, w4, w5, _, _, _, _, _, _, w6, _⟩ := snapshot_snow hsn
    rw [w5] at hm
    obtain ⟨q1, q2, q3⟩ := hstep l hl x hx hm
  · rw [w1, w2, w3, w4, w6]; exact ⟨q1, q3⟩
  · rw [w1, w2, w3]; exact ⟨q1, q2 (hw l hl x hx)⟩

end

end Pysnobal
