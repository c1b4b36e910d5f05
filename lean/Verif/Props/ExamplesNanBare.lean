import Verif.Props.NanBare
import Verif.Props.Bare
import Verif.Props.ExamplesNanRecover

/-! # Concrete cases for C80 -/

namespace Pysnobal

noncomputable section

/-- No snow at the start. -/
def bareCfg : Config := calmCfg 60 0.01 0 600 0

/-- A row in which only the precipitation is given. -/
def onlyFall (r : Rec) : NRec := { r.cells with S_n := none, I_lw := none, t_a := none, e_a := none, u := none, t_g := none }

/-- C80: any number of rows without precipitation and without any weather. -/
example (n : ℕ) : ∃ M, Nan.simulate bareCfg (List.replicate (n + 1) (onlyFall quietRec)) = .ok M ∧ M.phys.snow.layer_count = 0 := by
  obtain ⟨M, h1, _, _, h4⟩ := C80_rain_with_blanks (g := bareCfg) (calmCfg_tiled _ _ _ _ _) (by norm_num [bareCfg, calmCfg, defaultSteps])
    (.inr (by norm_num [bareCfg, calmCfg, defaultSteps])) ⟨_, calmCfg_env _ _ _ _ _⟩ (List.replicate (n + 1) (onlyFall quietRec, quietRec))
    (by simp) (fun x hx => by rw [List.eq_of_mem_replicate hx]; exact ⟨rfl, rfl, rfl, rfl⟩)
    (fun x hx => by rw [List.eq_of_mem_replicate hx]; exact fun h => absurd h (lt_irrefl (0 : ℝ)))
  rw [List.map_replicate] at h1
  exact ⟨M, h1, h4⟩

/-- C80: 100 kg/m² of snow fall on bare ground, in a row without any weather; the run completes, as with the weather
given, and the snow lies. -/
example : ∃ M m, Nan.simulate bareCfg [onlyFall fallRec, quietRec.cells] = .ok M ∧ simulate bareCfg [fallRec, quietRec] = .ok m ∧
    M.output_list = m.output_list.map Nan.OutRec.ofReal ∧ M.phys.snow = Nan.Snow.ofReal m.phys.snow ∧ m.phys.snow.m_s = 100 := by
  have hg : bareCfg.Tiled := calmCfg_tiled _ _ _ _ _
  have hmax : 0 < bareCfg.max_active := by norm_num [bareCfg, calmCfg, defaultSteps]
  have hc : mkEnv bareCfg = .ok (calmEnv 0.01) := calmCfg_env _ _ _ _ _
  obtain ⟨s, hs, hs1, _⟩ := start_bare hmax (.inr (by norm_num [bareCfg, calmCfg, defaultSteps])) hc
  obtain ⟨ts, hts⟩ : ∃ ts, parse_time_steps bareCfg = .ok ts := parse_of_ne (by decide) (by decide)
  have hnew : InputData.new fallRec = .ok fallRec.toInput := calmRec_new (by norm_num)
  obtain ⟨m0, e0, b0⟩ : ∃ m0, simulate bareCfg [fallRec] = .ok m0 ∧ m0.phys.snow.layer_count = 0 := by
    unfold simulate mkModel
    dsimp only
    rw [hts, bind_ok, hnew, bind_ok, hc, bind_ok, hs]
    exact ⟨_, rfl, hs1⟩
  have h := C80_blanks_on_bare_ground hg [(onlyFall fallRec, fallRec), (quietRec.cells, quietRec)]
    (by
      intro x hx
      simp only [List.mem_cons, List.not_mem_nil, or_false] at hx
      rcases hx with rfl | rfl <;> exact ⟨rfl, rfl, rfl, rfl⟩)
    (by
      intro a x b hL
      rcases a with _ | ⟨y, a⟩
      · obtain ⟨rfl, _⟩ := List.cons.inj hL
        refine .inr ⟨?_, ?_⟩
        · intro m1 hm
          have hm : simulate bareCfg [fallRec] = .ok m1 := hm
          rw [e0] at hm
          cases hm
          exact b0
        · intro m1 hm; cases hm
      · obtain ⟨_, hL⟩ := List.cons.inj hL
        rcases a with _ | ⟨z, a⟩
        · obtain ⟨rfl, _⟩ := List.cons.inj hL
          exact .inl rfl
        · obtain ⟨_, hL⟩ := List.cons.inj hL
          exact absurd (congrArg List.length hL) (by simp))
  obtain ⟨M0, E0, K0, _⟩ := Nan.simulate_cells e0
  have hb0 : M0.phys.snow.layer_count = 0 := by rw [K0, Nan.layer_count_s]; exact b0
  obtain ⟨M, e, hM⟩ := C79_snowfall_completes (before := []) (n := onlyFall fallRec) (n2 := quietRec.cells) hg ⟨hmax, by norm_num [bareCfg, calmCfg, defaultSteps, RHO_W0, RHO_ICE]⟩
    (m0 := { M0 with phys := { M0.phys with input1 := (onlyFall fallRec).toNInput } }) (by
      have hn : NInput.new (onlyFall fallRec) = .ok (onlyFall fallRec).toNInput := by
        rw [nnew_eq, if_neg]
        rintro ⟨_, _, h⟩
        exact h ((NVal.lt_some _ _).mpr (show (0 : ℝ) < 600 by norm_num))
      have hf : NInput.new fallRec.cells = .ok fallRec.toInput.cells := by
        rw [cells_new, hnew]; rfl
      simp only [List.map_cons, List.map_nil, Nan.simulate, hts, hf, hc, bind_ok, Nan.runSteps] at E0
      simp only [List.nil_append, Nan.simulate, hts, hn, hc, bind_ok, Nan.runSteps]
      unfold Nan.mkModel at E0 ⊢
      rw [Nan.init_snow_s, hs] at E0 ⊢
      cases E0
      rfl) hb0 ⟨100, 1, rfl, rfl, by norm_num, by norm_num⟩ (by
      obtain ⟨i, hi, _⟩ := Nan.dry_new quiet_dry
      exact ⟨i, hi⟩)
  have hM := hM ((NVal.lt_some _ _).mpr (show bareCfg.small_threshold < 100 * 1 by norm_num [bareCfg, calmCfg, defaultSteps]))
  have e : Nan.simulate bareCfg [onlyFall fallRec, quietRec.cells] = .ok M := e
  simp only [List.map_cons, List.map_nil] at h
  rw [e] at h
  cases hm : simulate bareCfg [fallRec, quietRec] with
  | error x => rw [hm] at h; exact h.elim
  | ok m =>
    rw [hm] at h
    refine ⟨M, m, e, rfl, h.1, h.2, ?_⟩
    have := hM.2
    rw [h.2] at this
    have := Option.some.inj (this.trans (show NVal.mul (some (100 : ℝ)) (some 1) = some (100 * 1) from rfl))
    simpa using this

end

end Pysnobal
