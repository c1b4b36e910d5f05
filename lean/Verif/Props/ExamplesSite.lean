import Verif.Props.Site
import Verif.Props.Levels
import Verif.Props.ExamplesHolding
import Verif.Props.ExamplesResume

/-! # Examples for C90 and C91 -/

namespace Pysnobal

noncomputable section

/-- C90: 100 kg/m² of snow fall on bare ground; a site at 2000 m with other measurement heights gives the same run. -/
example : ∃ m m', simulate bareCfg [fallRec, quietRec] = .ok m ∧ simulate (bareCfg.atSite 2000 10 2 1 0.001) [fallRec, quietRec] = .ok m' ∧
    m'.output_list = m.output_list ∧ m'.phys.snow = m.phys.snow := by
  obtain ⟨x, m, h, h1, h2⟩ := fall_run
  obtain ⟨m', k1, k2, k3, k4⟩ := C90_site_unread_on_bare_ground bareCfg _ _ m h (by
    intro l hl y hy
    simp only [List.mem_cons, List.not_mem_nil, or_false] at hl
    subst hl
    simp only [List.mem_cons, List.not_mem_nil, or_false] at hy
    subst hy
    exact h1) 2000 10 2 1 0.001 (by norm_num)
  exact ⟨m, m', h.simulate, k1, k2, k3⟩

theorem half_hours : (stormCfg.withLevels 30 5 2 true).Tiled := by
  refine ⟨?_, ?_, ?_, ?_, ?_⟩ <;> norm_num [Config.withLevels, stormCfg, calmCfg, defaultSteps]

/-- C91: a storm and any number of quiet hours, never subdivided: half-hour and five-minute steps instead of the default ones, another medium
threshold and the mode `all` give the same run. -/
example (n : ℕ) : ∃ m, simulate stormCfg (stormRec :: quietRec :: List.replicate n quietRec) = .ok m ∧
    simulate (stormCfg.withLevels 30 5 2 true) (stormRec :: quietRec :: List.replicate n quietRec) = .ok m := by
  obtain ⟨x, ls, m, h, h1, h2, h3⟩ := storm_run n
  refine ⟨m, h.simulate, C91_undivided_run stormCfg (calmCfg_tiled _ _ _ _ _) 30 5 2 true half_hours _ _ m h ?_⟩
  intro l hl y hy
  rcases List.mem_cons.mp hl with rfl | hl
  · rw [List.mem_singleton.mp hy]
    exact h1.lv
  · exact (h3 l hl y hy).1

/-- C91: when the record of the rain is processed there are 100 kg/m² of snow. -/
example : NeverThin stormCfg [rainRec, quietRec] ∧
    simulate (stormCfg.withLevels 30 5 2 true) [rainRec, quietRec] = simulate stormCfg [rainRec, quietRec] := by
  have hn : NeverThin stormCfg [rainRec, quietRec] := by
    obtain ⟨s0, hs0, f1, f2, f3, _⟩ := storm_init
    intro a b hab hb m hm
    have ha : a = [] ∨ a = [rainRec] := by
      rcases a with _ | ⟨x, a⟩
      · exact .inl rfl
      · rcases a with _ | ⟨y, a⟩
        · exact .inr (by rw [(List.cons.inj hab).1])
        · have h2 := (List.cons.inj (List.cons.inj hab).2).2
          exact absurd (List.append_eq_nil_iff.mp h2.symm).2 hb
    rcases ha with rfl | rfl
    · cases hm
    · obtain ⟨_, _, c', m0, _, _, e3, e4, e5⟩ := simulate_ok (r := rainRec) (rs := []) hm
      simp only [runSteps, Except.ok.injEq] at e5
      rw [show mkEnv stormCfg = .ok (calmEnv 0.01) from calmCfg_env _ _ _ _ _] at e3; cases e3
      have := (mkModel_ok e4).2.2.2.1
      rw [hs0] at this
      rw [← e5, ← Except.ok.inj this]
      refine ⟨fun _ => ?_, fun h => ?_⟩
      · rw [f3]; norm_num [stormCfg, calmCfg]
      · rw [f1.lc] at h; cases h
  exact ⟨hn, C91_finer_levels_unused stormCfg (calmCfg_tiled _ _ _ _ _) 30 5 2 true half_hours _ hn⟩

end

end Pysnobal
