import Verif.Props.Initial
import Verif.Props.Capacity
import Verif.Props.Pack

/-! # C57: a run starts from the configured pack, and its run steps form one unbroken history -/

namespace Pysnobal

noncomputable section

open Classical

/-! ## Specification -/

/-- Energy (J/m², at most zero) that brings the mass `m` of snow at `t` K to the freezing point. -/
def coldAt (t m : ℝ) : ℝ := if t < FREEZE then cp_ice t * m * (t - FREEZE) else 0

/-- The snow the configuration `g` describes, when it is heavier than the smallest threshold. -/
structure StartPack (g : Config) (s : Snow) : Prop where
  z_s : s.z_s = g.init_z_s
  rho : s.rho = g.init_rho
  m_s : s.m_s = g.init_rho * g.init_z_s
  t_s : s.t_s = g.init_t_s
  t_s_0 : s.t_s_0 = g.init_t_s_0
  /-- two layers exactly if enough snow lies below the active layer -/
  layers : s.layer_count = if g.StartsDeep then 2 else 1
  z_s_0 : s.z_s_0 = if g.StartsDeep then g.max_active else g.init_z_s
  z_s_l : s.z_s_l = if g.StartsDeep then g.init_z_s - g.max_active else 0
  m_s_0 : s.m_s_0 = g.init_rho * s.z_s_0
  m_s_l : s.m_s_l = g.init_rho * s.z_s_l
  t_s_l : g.StartsDeep → s.t_s_l = g.init_t_s_l.getD 0
  cc_s_0 : s.cc_s_0 = coldAt g.init_t_s_0 s.m_s_0
  cc_s_l : s.cc_s_l = if g.StartsDeep then coldAt s.t_s_l s.m_s_l else 0
  h2o_sat : s.h2o_sat = g.init_h2o_sat
  h2o_max : s.h2o_max = g.max_h2o * RHO_W0 * (s.z_s - (s.m_s - s.h2o) / RHO_ICE)
  h2o : s.h2o = g.init_h2o_sat * s.h2o_max

/-- The run steps `l`, executed one after the other, lead from the snow `s` to the snow `s'`: each starts from
the snow the previous one left. -/
def Unbroken : Snow → List (RStep Phys) → Snow → Prop
  | s, [], s' => s = s'
  | s, x :: l, s' => x.pre.snow = s ∧ Unbroken x.post.snow l s'

/-! ## Proofs -/

theorem Unbroken.append : ∀ {l l' : List (RStep Phys)} {s t u : Snow}, Unbroken s l t → Unbroken t l' u →
    Unbroken s (l ++ l') u := by
  intro l
  induction l with
  | nil => intro l' s t u h h'; cases h; exact h'
  | cons x l ih => intro l' s t u h h'; exact ⟨h.1, ih h.2 h'⟩

theorem runs_unbroken {c : Env} {ts : Tsteps} {all : Bool} {dl : Level → InputData} {m m' : Model}
    {l : List (RStep Phys)} (h : (snobalSim c ts all dl).Runs m l m') : Unbroken m.phys.snow l m'.phys.snow := by
  induction h with
  | nil => rfl
  | enter _ ih =>
    rename_i st _ _ _
    have e : ((snobalSim c ts all dl).enter .small st.phys).snow = st.phys.snow := by
      simp only [snobalSim]; split <;> rfl
    rw [← e]; exact ih
  | step _ h2 h3 _ ih =>
    obtain ⟨p, _, hp, _, hph, _⟩ := do_tstep_ok h3
    rw [h2] at hp; cases hp
    refine ⟨rfl, ?_⟩
    rw [hph] at ih
    exact ih

theorem executed_unbroken {c : Env} {ts : Tsteps} {all : Bool} {i1 i2 : InputData} {m m' : Model}
    {l : List (RStep Phys)} (h : Executed c ts all i1 i2 m l m') : Unbroken m.phys.snow l m'.phys.snow := by
  obtain ⟨dl, mid, _, h2, _, h4⟩ := h.parts
  rw [(Executed.mid_phys h4).1]
  have := runs_unbroken h2
  exact this

theorem dataSteps_unbroken {c : Env} {ts : Tsteps} {all : Bool} {i1 : InputData} {rs : List Rec}
    {m m' : Model} {ls : List (List (RStep Phys))} (h : DataSteps c ts all i1 rs m ls m') :
    Unbroken m.phys.snow ls.flatten m'.phys.snow ∧ ls.length = rs.length := by
  induction h with
  | nil => exact ⟨rfl, rfl⟩
  | cons _ _ h3 _ ih =>
    rw [List.flatten_cons]
    exact ⟨(executed_unbroken h3).append ih.1, by simp [ih.2]⟩

theorem cold_content_spec (t m : ℝ) : cold_content t m = coldAt t m := by
  unfold cold_content coldAt heat_stor; rfl

/-- The layers of the initial pack. -/
theorem start_layers {c : Env} {g : Config} (hc : mkEnv g = .ok c) (hmax : 0 < g.max_active)
    (hs : g.StartsSnowy) {s : Snow} (h : init_snow c (recordSnow g) = .ok s) : StartPack g s := by
  obtain ⟨q1, q2, q3, _⟩ := mkEnv_ok hc
  have hm : 0 < c.max_z_s_0 := by rw [q1]; exact hmax
  have hsplit := C13_layer_split c hm { recordSnow g with m_s := g.init_rho * g.init_z_s }
  have e : init_snow c (recordSnow g) =
      initLayers c (Snow.calc_layers c { recordSnow g with m_s := g.init_rho * g.init_z_s }) := rfl
  rw [e] at h
  obtain ⟨t, ht⟩ : ∃ t, t = Snow.calc_layers c { recordSnow g with m_s := g.init_rho * g.init_z_s } := ⟨_, rfl⟩
  rw [← ht] at h hsplit
  simp only at hsplit
  obtain ⟨a1, a2, a3, a4, a5, a6⟩ := hsplit
  have hne : t.layer_count ≠ 0 := by
    rw [Ne, a2, q2]
    rintro (h | h)
    · exact absurd hs.1 (not_lt.mpr h)
    · exact absurd hs.2 (not_lt.mpr h)
  obtain ⟨b1, b2, b3, b4⟩ := a3 hne
  have hdeep : t.layer_count = 2 ↔ g.StartsDeep := by
    rw [a4, q1, q2]
    unfold Config.StartsDeep
    constructor
    · rintro ⟨_, h1, h2⟩
      exact ⟨by simpa [recordSnow] using h1, by rw [mul_comm]; exact h2⟩
    · rintro ⟨h1, h2⟩
      exact ⟨hs.1, by simpa [recordSnow] using h1, by rw [mul_comm]; exact h2⟩
  unfold initLayers at h
  rw [if_neg hne] at h
  unfold initWater at h
  obtain ⟨d, hd, h⟩ := bind_eq_ok.mp h
  simp only [pure_ok, Except.ok.injEq] at h
  have ft : t.rho = g.init_rho ∧ t.m_s = g.init_rho * g.init_z_s ∧ t.t_s = g.init_t_s ∧ t.t_s_0 = g.init_t_s_0 ∧
      t.t_s_l = g.init_t_s_l.getD 0 ∧ t.h2o_sat = g.init_h2o_sat := by
    rw [a1]; exact ⟨rfl, rfl, rfl, rfl, rfl, rfl⟩
  obtain ⟨f1, f2, f3, f4, f5, f6⟩ := ft
  have hz : t.z_s = g.init_z_s := b1
  have hlc : s.layer_count = t.layer_count := by rw [← h]; rfl
  have hz0 : s.z_s_0 = t.z_s_0 := by rw [← h]; rfl
  have hzl : s.z_s_l = t.z_s_l := by rw [← h]; rfl
  have hz0' : t.z_s_0 = if g.StartsDeep then g.max_active else g.init_z_s := by
    split
    · rename_i hh; rw [(a5 (hdeep.mpr hh)).1, q1]
    · rename_i hh
      have h1 : t.layer_count = 1 := by
        rcases a6 with h | h | h
        · exact absurd h hne
        · exact h
        · exact absurd (hdeep.mp h) hh
      have : t.z_s_l ≤ 0 := by
        by_contra hn
        have := lc_eq_two.mpr ⟨b3, not_le.mp hn⟩
        omega
      have e0 : t.z_s_l = 0 := le_antisymm this b4
      rw [e0, add_zero] at b2
      exact b2
  have hzl' : t.z_s_l = if g.StartsDeep then g.init_z_s - g.max_active else 0 := by
    have : t.z_s_l = g.init_z_s - t.z_s_0 := by
      have : t.z_s_0 + t.z_s_l = g.init_z_s := b2
      linarith
    rw [this, hz0']
    split
    · rfl
    · ring
  have hm0 : s.m_s_0 = g.init_rho * s.z_s_0 := by rw [hz0, ← f1, ← h]; rfl
  have hml : s.m_s_l = g.init_rho * s.z_s_l := by rw [hzl, ← f1, ← h]; rfl
  have htl : g.StartsDeep → s.t_s_l = g.init_t_s_l.getD 0 := fun hh => by
    rw [← f5, ← h]
    show (if t.layer_count = 2 then t.t_s_l else _) = _
    rw [if_pos (hdeep.mpr hh)]
  have hd' : 1 - g.init_h2o_sat * c.max_h2o_vol * RHO_W0 / RHO_ICE ≠ 0 ∧
      d = (g.init_rho - g.init_h2o_sat * c.max_h2o_vol * RHO_W0) /
        (1 - g.init_h2o_sat * c.max_h2o_vol * RHO_W0 / RHO_ICE) := by
    rw [← f6, ← f1]
    unfold Snow.dry_snow_density at hd
    exact pdiv_eq_ok.mp hd
  have hw : s.h2o_max = h2o_left g.init_z_s d c.max_h2o_vol := by rw [← hz, ← h]; rfl
  have hw' : s.h2o = g.init_h2o_sat * s.h2o_max := by rw [← f6, ← h]; rfl
  have hms : s.m_s = g.init_rho * g.init_z_s := by rw [← f2, ← h]; rfl
  have hzs : s.z_s = g.init_z_s := by rw [← hz, ← h]; rfl
  refine ⟨hzs, ?_, hms, ?_, ?_, ?_, ?_, ?_, hm0, hml, htl, ?_, ?_, ?_, ?_, hw'⟩
  · rw [← f1, ← h]; rfl
  · rw [← f3, ← h]; rfl
  · rw [← f4, ← h]; rfl
  · rw [hlc]
    split
    · rename_i hh; exact hdeep.mpr hh
    · rename_i hh
      rcases a6 with h | h | h
      · exact absurd h hne
      · exact h
      · exact absurd (hdeep.mp h) hh
  · rw [hz0, hz0']
  · rw [hzl, hzl']
  · rw [← cold_content_spec, hm0, hz0, ← f1, ← f4, ← h]; rfl
  · by_cases hh : g.StartsDeep
    · rw [if_pos hh, htl hh, hml, hzl, ← cold_content_spec, ← f1, ← f5, ← h]
      show (if t.layer_count = 2 then _ else _) = _
      rw [if_pos (hdeep.mpr hh)]
    · rw [if_neg hh, ← h]
      show (if t.layer_count = 2 then _ else _) = _
      rw [if_neg (fun h2 => hh (hdeep.mp h2))]
  · rw [← f6, ← h]; rfl
  · rw [hw', hw, hzs, hms, ← q3]
    exact fresh_pore hd'.1 hd'.2

/-- C57: a completed run executes its run steps – those of one data step for each pair of consecutive records –
one after the other, each from the snow the previous one left; the first starts from exactly the snow the
configuration describes if that is heavier than the smallest threshold, and from bare ground otherwise; and the
object is left with the snow of the last step. -/
theorem C57_history (g : Config) (hmax : 0 < g.max_active) (rows : List Rec) (ls : List (List (RStep Phys)))
    (m : Model) (h : RunTrace g rows ls m) :
    ls.length + 1 = rows.length ∧ ∃ s, Unbroken s ls.flatten m.phys.snow ∧
      (g.StartsSnowy → StartPack g s) ∧
      (¬ g.StartsSnowy → s.layer_count = 0 ∧ s.m_s = 0 ∧ s.h2o = 0 ∧ s.cc_s_0 = 0 ∧ s.cc_s_l = 0) := by
  obtain ⟨c, ts, i1, m0, r, rs, rfl, e1, e2, e3, e4, e5⟩ := h
  obtain ⟨h1, h2⟩ := dataSteps_unbroken e5
  refine ⟨by simp [h2], m0.phys.snow, h1, ?_⟩
  unfold mkModel at e4
  obtain ⟨s, hs, e4⟩ := bind_eq_ok.mp e4
  simp only [pure_ok, Except.ok.injEq] at e4
  have es : m0.phys.snow = s := by rw [← e4]
  rw [es]
  refine ⟨fun hh => start_layers e2 hmax hh hs, fun hh => ?_⟩
  obtain ⟨q1, q2, q3, _⟩ := mkEnv_ok e2
  have hm : 0 < c.max_z_s_0 := by rw [q1]; exact hmax
  rcases init_snow_out hm hs with k | k
  · exact absurd ⟨by rw [← q2]; exact k.1, k.2.1⟩ hh
  · obtain ⟨_, k1, _, k2, k3, k4, _, _, _, k5, _, k6, _⟩ := k
    exact ⟨lc_eq_zero.mpr ⟨k3, k4.le⟩, k1, k2, k5, k6⟩

end

end Pysnobal
