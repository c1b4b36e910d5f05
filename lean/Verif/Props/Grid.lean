import Verif.Spatial
import Verif.Props.Cold
import Verif.Props.Examples2

/-! # C66: the gridded snow state against the point snow state -/

namespace Pysnobal

noncomputable section

/-- The cold contents of the two layers cancel although neither is zero. -/
def Snow.Cancels (s : Snow) : Prop := s.layer_count = 2 ∧ s.cc_s_0 + s.cc_s_l = 0 ∧ s.cc_s_0 ≠ 0

/-- C66: the members that the gridded snow state overrides agree with those of the point snow state: dry density,
conductivity, averages and totals always, the temperatures unless the cold contents of two layers cancel. -/
theorem C66_grid_agrees (s : Snow) :
    s.grid_dry_snow_density = s.dry_snow_density ∧ s.grid_kts = s.kts ∧
    (∀ a : Acc, a.grid_value_to_bar s = a.value_to_bar s) ∧
    (∀ (a : Acc) t dt, a.grid_time_average s t dt = a.time_average s t dt) ∧
    (¬ s.Cancels → s.grid_adjust_layer_temps = s.adjust_layer_temps) := by
  refine ⟨rfl, rfl, fun _ => rfl, fun _ _ _ => rfl, ?_⟩
  intro h
  unfold Snow.grid_adjust_layer_temps Snow.adjust_layer_temps
  by_cases h1 : s.layer_count = 1
  · rw [if_pos h1, if_pos h1]; rfl
  rw [if_neg h1, if_neg h1]
  by_cases h2 : s.layer_count = 2
  · rw [if_pos h2, if_pos h2]
    by_cases hi : s.isothermal
    · have hi' : s.cc_s_0 + s.cc_s_l = 0 := hi
      have e0 : s.cc_s_0 = 0 := by
        by_contra hc
        exact h ⟨h2, hi', hc⟩
      have e1 : s.cc_s_l = 0 := by rw [e0, zero_add] at hi'; exact hi'
      have hg : s.grid_isothermal := by unfold Snow.grid_isothermal; rw [if_pos ⟨h2, e0, e1⟩]; trivial
      rw [if_pos hg, if_pos hi]
    · have hg : ¬ s.grid_isothermal := by
        unfold Snow.grid_isothermal
        rw [if_neg, if_neg]
        · simp
        · rintro ⟨h, _⟩; exact h1 h
        · rintro ⟨_, e0, e1⟩; exact hi (by show s.cc_s_0 + s.cc_s_l = 0; rw [e0, e1, add_zero])
      rw [if_neg hg, if_neg hi]; rfl
  · rw [if_neg h2, if_neg h2]

/-- C66: when the cold contents of two layers cancel, the two codes give different surface temperatures: the point code
puts the whole pack at freezing, the gridded code computes each layer's temperature from its cold content. -/
theorem C66_grid_differs (s : Snow) (h : s.Cancels) (hm : s.m_s_0 ≠ 0) (hl : s.m_s_l ≠ 0) (hs : s.m_s ≠ 0)
    (h0 : 0 < s.t_s_0) (h1 : 0 < s.t_s_l) (h2 : 0 < s.t_s) :
    ∃ p q, s.adjust_layer_temps = .ok p ∧ s.grid_adjust_layer_temps = .ok q ∧
      p.t_s_0 = FREEZE ∧ q.t_s_0 ≠ FREEZE ∧ q.t_s = FREEZE := by
  obtain ⟨hc, hz, hn⟩ := h
  have hcp : ∀ t : ℝ, 0 < t → 0 < cp_ice t := by
    intro t ht
    unfold cp_ice
    have : (0 : ℝ) < CAL_TO_J := by norm_num [CAL_TO_J]
    positivity
  have n1 : s.layer_count ≠ 1 := by rw [hc]; decide
  have hi : s.isothermal := hz
  have hg : ¬ s.grid_isothermal := by
    unfold Snow.grid_isothermal
    rw [if_neg (fun h => hn h.2.1), if_neg (fun h => n1 h.1)]
    simp
  have ht : ∀ m t cc, m ≠ 0 → 0 < t → grid_new_tsno m t cc = .ok (cc / (m * cp_ice t) + FREEZE) := by
    intro m t cc hm ht
    unfold grid_new_tsno
    dsimp only
    rw [pdiv_of_ne (mul_ne_zero hm (hcp t ht).ne')]
    rfl
  refine ⟨{ s with t_s := FREEZE, t_s_l := FREEZE, t_s_0 := FREEZE },
    { s with t_s_0 := s.cc_s_0 / (s.m_s_0 * cp_ice s.t_s_0) + FREEZE, t_s_l := s.cc_s_l / (s.m_s_l * cp_ice s.t_s_l) + FREEZE,
             t_s := s.cc_s / (s.m_s * cp_ice s.t_s) + FREEZE }, ?_, ?_, rfl, ?_, ?_⟩
  · unfold Snow.adjust_layer_temps
    rw [if_neg n1, if_pos hc, if_pos hi]; rfl
  · unfold Snow.grid_adjust_layer_temps
    rw [if_neg n1, if_pos hc, if_neg hg, ht _ _ _ hm h0, bind_ok, ht _ _ _ hl h1, bind_ok, ht _ _ _ hs h2, bind_ok]
    rfl
  · have : s.cc_s_0 / (s.m_s_0 * cp_ice s.t_s_0) ≠ 0 := div_ne_zero hn (mul_ne_zero hm (hcp _ h0).ne')
    intro h
    apply this
    linarith
  · show s.cc_s / (s.m_s * cp_ice s.t_s) + FREEZE = FREEZE
    have : s.cc_s = 0 := hz
    rw [this]; simp

/-- C66: no run with admissible data reaches a pack on which they differ (as long as no run step begins with a two-layer
pack whose mean temperature is below 0 K): after every run step, for any temperatures, both codes compute the same. -/
theorem C66_grid_agrees_step (g : Config) (hg : g.Tiled) (ha : g.AdmissibleStart) (ht : 0 ≤ g.init_t_s)
    (rows : List Rec) (hr : ∀ r ∈ rows, r.Admissible) (ls : List (List (RStep Phys))) (m : Model)
    (h : RunTrace g rows ls m) : ∀ l ∈ ls, ∀ x ∈ l, (x.pre.snow.layer_count = 2 → 0 ≤ x.pre.snow.t_s) →
      ∀ t t0 tl : ℝ, ({ x.post.snow with t_s := t, t_s_0 := t0, t_s_l := tl } : Snow).grid_adjust_layer_temps =
        ({ x.post.snow with t_s := t, t_s_0 := t0, t_s_l := tl } : Snow).adjust_layer_temps := by
  intro l hl x hx hp t t0 tl
  obtain ⟨h0, h1⟩ := C16_cold_content_step g hg ha ht rows hr ls m h l hl x hx
  refine (C66_grid_agrees _).2.2.2.2 ?_
  rintro ⟨_, hz, hn⟩
  have hz' : x.post.snow.cc_s_0 + x.post.snow.cc_s_l = 0 := hz
  exact hn (by show x.post.snow.cc_s_0 = 0; linarith [(h1 hp).1])

/-- A two-layer pack whose cold contents cancel, and the storm run, whose steps begin with one layer. -/
example (n : ℕ) : (∃ s : Snow, s.Cancels ∧ s.m_s_0 ≠ 0 ∧ s.m_s_l ≠ 0 ∧ s.m_s ≠ 0 ∧ 0 < s.t_s_0 ∧ 0 < s.t_s_l ∧ 0 < s.t_s) ∧
    ∃ x ls m, RunTrace stormCfg (stormRec :: quietRec :: List.replicate n quietRec) ([x] :: ls) m ∧
      stormCfg.Tiled ∧ stormCfg.AdmissibleStart ∧ 0 ≤ stormCfg.init_t_s ∧ x.pre.snow.layer_count = 1 := by
  constructor
  · refine ⟨{ Snow.zero with z_s_0 := 1, z_s_l := 1, cc_s_0 := 1, cc_s_l := -1, m_s := 2, m_s_0 := 1, m_s_l := 1, t_s := 270, t_s_0 := 270, t_s_l := 270 }, ⟨?_, ?_, ?_⟩, ?_⟩
    · simp [Snow.layer_count]
    · norm_num
    · norm_num
    · norm_num
  · obtain ⟨x, ls, m, h1, h2, _⟩ := storm_facts n
    obtain ⟨hg, ha, _⟩ := stormCfg_ok
    exact ⟨x, ls, m, h1, hg, ha, by norm_num [stormCfg, calmCfg, FREEZE], h2.pre_ripe.lc⟩

end

end Pysnobal
