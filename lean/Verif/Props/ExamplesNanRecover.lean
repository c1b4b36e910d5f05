import Verif.Props.NanRecover
import Verif.Props.ExamplesNanGap
import Verif.Props.Turbulence

/-! # Concrete cases for C79: a blank, dry rows, and then snow -/

namespace Pysnobal

noncomputable section

/-- 100 kg/m² of snow fall in the interval. -/
def fallRec : Rec := calmRec 0 100 1 600

theorem quiet_dry : quietRec.cells.Dry := by
  intro x hx
  have hx' : some (0 : ℝ) = some x := hx
  cases hx'
  exact le_refl _

/-- A dry row without its wind. -/
def gapRow : NRec := { quietRec.cells with u := none }

/-- A blank wind cell, `n + 1` dry rows and then a row with snowfall: the run up to that row completes without snow. -/
theorem recover_before (n : ℕ) : ∃ m0, Nan.simulate stormCfg ([gapRow] ++ List.replicate (n + 1) quietRec.cells ++ [fallRec.cells]) = .ok m0 ∧
    m0.phys.snow.layer_count = 0 := by
  obtain ⟨hg, _⟩ := stormCfg_ok
  obtain ⟨_, m, hm⟩ := Nan.gap_run (List.replicate (n + 1) quietRec.cells) (fun r hr => by
    rw [List.eq_of_mem_replicate hr]; exact quiet_dry)
  have hm : Nan.simulate stormCfg ([gapRow] ++ List.replicate (n + 1) quietRec.cells) = .ok m := hm
  have hlc : m.phys.snow.layer_count = 0 := by
    have hno : NRec.NoSnowfall quietRec.cells := fun x f hx _ h => absurd (quiet_dry x hx) (not_le.mpr h)
    have hno' : NRec.NoSnowfall gapRow := hno
    refine (C78_run_missing_air hg (rows := []) (n1 := gapRow) (later := List.replicate n quietRec.cells) (n2 := quietRec.cells)
      (.inl rfl) hno' (fun r hr => by rw [List.eq_of_mem_replicate hr]; exact hno) (m := m) ?_).1
    rw [← hm, List.replicate_succ', List.nil_append, List.append_assoc]
  obtain ⟨c, ts, i, _, hts, hJ, hlast, hk⟩ := Nan.simulate_continue hg hm
  have ht := parse_tile hg hts
  have hi := hlast quietRec.cells (by rw [List.replicate_succ', ← List.append_assoc, List.getLast?_concat])
  have hf : NInput.new fallRec.cells = .ok fallRec.toInput.cells := by
    rw [cells_new, show InputData.new fallRec = .ok fallRec.toInput from calmRec_new (by norm_num)]
    rfl
  obtain ⟨m', h1, _, h2⟩ := Nan.data_dry (c := c) (all := stormCfg.output_all) ht quiet_dry hi fallRec.toInput.cells hJ (.inl hlc)
  refine ⟨m', ?_, h2⟩
  rw [hk]
  simp only [Nan.runSteps, hf, bind_ok, h1]

/-- C79: after the blank and the dry rows 100 kg/m² of snow fall: the run completes, the snow lies, all of it, and the new
records and the snow are numbers. -/
example (n : ℕ) : ∃ m0 m recs s,
    Nan.simulate stormCfg ([gapRow] ++ List.replicate (n + 1) quietRec.cells ++ [fallRec.cells]) = .ok m0 ∧
    Nan.simulate stormCfg ([gapRow] ++ List.replicate (n + 1) quietRec.cells ++ [fallRec.cells] ++ [quietRec.cells]) = .ok m ∧
    m.output_list = m0.output_list ++ recs.map Nan.OutRec.ofReal ∧ recs ≠ [] ∧ m.phys.snow = Nan.Snow.ofReal s ∧ s.m_s = 100 := by
  obtain ⟨hg, hst, hmax, _⟩ := stormCfg_ok
  obtain ⟨m0, e0, hb⟩ := recover_before n
  have hfall : fallRec.cells.Snowfall := ⟨100, 1, rfl, rfl, by norm_num, by norm_num⟩
  have hi : ∃ i, NInput.new quietRec.cells = .ok i := by
    obtain ⟨i, hi, _⟩ := Nan.dry_new quiet_dry
    exact ⟨i, hi⟩
  obtain ⟨m, e, hm⟩ := C79_snowfall_completes hg ⟨hmax, by norm_num [stormCfg, calmCfg, defaultSteps, RHO_W0, RHO_ICE]⟩ e0 hb hfall hi
  have hm := hm ((NVal.lt_some _ _).mpr (show stormCfg.small_threshold < 100 * 1 by norm_num [stormCfg, calmCfg, defaultSteps]))
  obtain ⟨recs, h1, h2⟩ := C79_snowfall_restores_numbers hg e0 hb hfall (later := [quietRec.cells]) (rows := [quietRec])
    (.cons (by
      refine ⟨rfl, rfl, rfl, rfl, rfl, rfl, .inl ⟨quiet_dry, le_refl _⟩⟩) .nil) e
  obtain ⟨h2, s, hs⟩ := h2 (by simp)
  refine ⟨m0, m, recs, s, e0, e, h1, h2, hs, ?_⟩
  have := hm.2
  rw [hs] at this
  have := Option.some.inj (this.trans (show NVal.mul (some (100 : ℝ)) (some 1) = some (100 * 1) from rfl))
  simpa using this

/-- C79: calm air, and both first guesses missing. -/
example : ∃ o, hle1 calmIn = .ok o ∧
    Nan.hle1 { Nan.HleIn.ofReal calmIn with init_ustar := some none, init_factor := some none } = .ok (Nan.HleOut.ofReal o) := by
  have e := hle1_calm calmIn_valid rfl (by norm_num [calmIn]) (by norm_num [calmIn]) (by norm_num [calmIn]) (.inl ⟨rfl, rfl⟩)
    (by norm_num [calmIn, DALR, GRAVITY, CP_AIR])
  obtain ⟨o', h1, _, h2⟩ := C79_missing_guess calmIn ⟨rfl, rfl⟩ e (some none) (some none) (.inl rfl)
  exact ⟨_, e, by rw [h2 (.inr rfl)] at h1; exact h1⟩

end

end Pysnobal
