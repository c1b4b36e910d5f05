import Verif.Props.CalmAir
import Verif.Props.ExamplesInterpolate

/-! # A case that meets the hypotheses of C96: calm weather of two different courses of the humidity -/

namespace Pysnobal

noncomputable section

/-- Hours of calm weather in which the vapour pressure is, hour by hour, `v` in one table and `w` in the other: both runs complete, each
hour is simulated in four quarters over snow, and the results are equal. -/
example (v w : ℝ) (vs : List (ℝ × ℝ)) (hv : ∀ x ∈ (v, w) :: vs, (0 < x.1 ∧ x.1 ≤ 610) ∧ 0 < x.2 ∧ x.2 ≤ 610) : ∃ ls m ls' m',
    RunTrace { quarterCfg with output_all := true } (humidRec v :: vs.map fun x => humidRec x.1) ls m ∧
    RunTrace { quarterCfg with output_all := true } (humidRec w :: vs.map fun x => humidRec x.2) ls' m' ∧
    ls.length = vs.length ∧ (∀ l ∈ ls, l.length = 4) ∧
    m'.phys.snow = m.phys.snow ∧ m'.current_datetime = m.current_datetime ∧ m'.output_list = m.output_list := by
  obtain ⟨ls, m, h, h1, h2, _⟩ := humid_hours v (vs.map Prod.fst) (by
    intro x hx
    rcases List.mem_cons.mp hx with rfl | hx
    · exact (hv (x, w) (by simp)).1
    · obtain ⟨y, hy, rfl⟩ := List.mem_map.mp hx
      exact (hv y (by simp [hy])).1)
  obtain ⟨ls', m', h', h1', _⟩ := humid_hours w (vs.map Prod.snd) (by
    intro x hx
    rcases List.mem_cons.mp hx with rfl | hx
    · exact (hv (v, x) (by simp)).2
    · obtain ⟨y, hy, rfl⟩ := List.mem_map.mp hx
      exact (hv y (by simp [hy])).2)
  have e1 : (v :: vs.map Prod.fst).map humidRec = humidRec v :: vs.map fun x => humidRec x.1 := by simp
  have e2 : (w :: vs.map Prod.snd).map humidRec = humidRec w :: vs.map fun x => humidRec x.2 := by simp
  rw [e1] at h
  rw [e2] at h'
  refine ⟨ls, m, ls', m', h, h', by simpa using h1, h2, ?_⟩
  refine C96_calm_air_unread { quarterCfg with output_all := true } 5 5 0.005 _ _ ?_ m m' h.simulate h'.simulate
  have ha : ∀ a b, CalmAlike (humidRec a) (humidRec b) := fun a b => ⟨rfl, rfl⟩
  refine .cons (ha v w) ?_
  clear h h' h1 h1' h2 e1 e2 hv
  induction vs with
  | nil => exact .nil
  | cons x vs ih => exact .cons (ha _ _) ih

end

end Pysnobal
