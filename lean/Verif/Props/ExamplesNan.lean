import Verif.Lemmas.NanTail
import Verif.Props.NanPack

/-! # Concrete cases for C78 -/

namespace Pysnobal

noncomputable section

/-- C78: 100 kg/m² of ripe snow under calm, dry weather; the wind cell of the first row is blank, and any dry rows follow,
complete or not.  The run completes, 100 kg/m² are on the ground before that row and nothing after it. -/
example (later : List NRec) (hl : ∀ n ∈ later, n.Dry) :
    let gap : NRec := { quietRec.cells with u := none }
    (∃ m0, Nan.simulate stormCfg [gap] = .ok m0 ∧ m0.phys.snow.layer_count = 1 ∧ m0.phys.snow.m_s = some 100) ∧
    ∃ m, Nan.simulate stormCfg ([gap] ++ later ++ [quietRec.cells]) = .ok m ∧
      m.phys.snow.layer_count = 0 ∧ m.phys.snow.m_s = some 0 := by
  intro gap
  have hg : gap.Dry := by
    intro x hx
    have hx' : some (0 : ℝ) = some x := hx
    cases hx'
    exact le_refl _
  have hd : ∀ n ∈ later ++ [quietRec.cells], n.Dry := by
    intro n hn
    rcases List.mem_append.mp hn with h | h
    · exact hl n h
    · rw [List.mem_singleton.mp h]
      intro x hx
      have hx' : some (0 : ℝ) = some x := hx
      cases hx'
      exact le_refl _
  obtain ⟨h1, m, h2⟩ := Nan.gap_run (later ++ [quietRec.cells]) hd
  refine ⟨h1, m, ?_⟩
  rw [← List.append_assoc] at h2
  have key := C78_run_missing_air (rows := []) (later := later) (n1 := gap) (n2 := quietRec.cells) (calmCfg_tiled _ _ _ _ _) (.inl rfl)
    (fun a f ha _ h0 => absurd h0 (not_lt.mpr (hg a ha)))
    (fun n hn a f ha _ h0 => absurd h0 (not_lt.mpr (hl n hn a ha))) h2
  exact ⟨h2, key.1, key.2.1⟩

end

end Pysnobal
