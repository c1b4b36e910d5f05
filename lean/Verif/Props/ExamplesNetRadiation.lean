import Verif.Props.NetRadiation
import Verif.Props.ExamplesInterpolate

/-! # A case that meets the hypotheses of C97: part of the thermal radiation replaced by solar radiation -/

namespace Pysnobal

noncomputable section

/-- `x` W/m² less thermal radiation, and what of it is absorbed as solar radiation. -/
def brightened (x : ℝ) (r : Rec) : Rec := { r with S_n := r.S_n + 0.98 * x, I_lw := r.I_lw - x }

/-- Hours of calm, humid weather over 100 kg/m² of snow, simulated in quarters: the run completes, and so does the one in brightened
weather, with the same results. -/
example (x v : ℝ) (vs : List ℝ) (hv : ∀ x ∈ v :: vs, 0 < x ∧ x ≤ 610) : ∃ ls m m',
    RunTrace { quarterCfg with output_all := true } ((v :: vs).map humidRec) ls m ∧ ls.length = vs.length ∧ (∀ l ∈ ls, l.length = 4) ∧
    simulate { quarterCfg with output_all := true } ((v :: vs).map fun v => brightened x (humidRec v)) = .ok m' ∧
    m'.phys.snow = m.phys.snow ∧ m'.current_datetime = m.current_datetime ∧ m'.output_list = m.output_list := by
  obtain ⟨ls, m, h, h1, h2, _⟩ := humid_hours v vs hv
  have hf : List.Forall₂ Rec.SameAbsorbed ((v :: vs).map humidRec) ((v :: vs).map fun v => brightened x (humidRec v)) := by
    rw [List.forall₂_map_left_iff, List.forall₂_map_right_iff]
    exact List.forall₂_same.mpr fun v _ => ⟨rfl, by unfold brightened; dsimp only; ring⟩
  have := (C97_only_absorbed_radiation_matters { quarterCfg with output_all := true } _ _ hf).1
  rw [h.simulate] at this
  cases e : simulate { quarterCfg with output_all := true } ((v :: vs).map fun v => brightened x (humidRec v)) with
  | error e' =>
    rw [e] at this
    exact this.elim
  | ok m' =>
    rw [e] at this
    exact ⟨ls, m, m', h, h1, h2, rfl, this.2.1.symm, this.2.2.symm, this.1.symm⟩

end

end Pysnobal
