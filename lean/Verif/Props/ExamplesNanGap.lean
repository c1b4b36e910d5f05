import Verif.Props.NanGap
import Verif.Props.ExamplesShift
import Verif.Props.ExamplesNan

/-! # A concrete case for C78: the storm, calm days of any number, and then a blank cell -/

namespace Pysnobal

noncomputable section

theorem storm_end (n : ℕ) : ∃ m, simulate stormCfg (stormRec :: quietRec :: List.replicate n quietRec) = .ok m ∧
    RipeSnow m.phys.snow ∧ 102 < m.phys.snow.m_s ∧ m.phys.snow.z_s ≤ 0.25 := by
  obtain ⟨x, ls, m, h1, h2, h3, h4⟩ := storm_run n
  obtain ⟨hg, _, hmax, _⟩ := stormCfg_ok
  obtain ⟨_, s, hu, _⟩ := C57_history stormCfg hmax _ _ m h1
  have hm : RipeSnow m.phys.snow ∧ m.phys.snow.m_s = x.post.snow.m_s := by
    have hu' : Unbroken x.post.snow ls.flatten m.phys.snow := hu.2
    refine hu'.last (P := fun s => RipeSnow s ∧ s.m_s = x.post.snow.m_s) ⟨h2.ripe, rfl⟩ ?_
    intro y hy
    obtain ⟨l, hl, hy⟩ := List.mem_flatten.mp hy
    have := (h4 l hl y hy).2.2.1
    exact ⟨this.ripe, this.m⟩
  refine ⟨m, h1.simulate, hm.1, ?_, ?_⟩
  · rw [hm.2, h2.m]; linarith [h2.swi.2]
  · rw [hm.1.z]; exact hm.1.z_le

/-- C78: 100 kg/m² of ripe snow, a storm, and calm rows of any number, with over 102 kg/m² on the ground; then the wind (or
air temperature, or humidity, or ground temperature) of one row is blank, and any dry rows follow, complete or not.  The run
completes, without snow. -/
example (n : ℕ) (gap : NRec) (later : List NRec) (hf : gap.FilledBy quietRec) (hb : gap.BlankAir) (hd : gap.Dry)
    (hl : ∀ r ∈ later, r.Dry) (h0 : later ≠ []) :
    let rows := stormRec :: quietRec :: List.replicate n quietRec
    (∃ m0, simulate stormCfg rows = .ok m0 ∧ 102 < m0.phys.snow.m_s) ∧
    ∃ m, Nan.simulate stormCfg (rows.map Rec.cells ++ [gap] ++ later) = .ok m ∧ m.phys.snow.layer_count = 0 := by
  intro rows
  obtain ⟨hg, hst, hmax, _⟩ := stormCfg_ok
  obtain ⟨m0, a1, a2, a3, a4⟩ := storm_end n
  obtain ⟨m1, b1, b2, b3, b4⟩ := storm_end (n + 1)
  obtain ⟨m2, c1, _⟩ := storm_end (n + 2)
  have env : mkEnv stormCfg = .ok (calmEnv 0.01) := calmCfg_env _ _ _ _ _
  have e1 : simulate stormCfg (rows ++ [quietRec]) = .ok m1 := by
    rw [← b1, List.replicate_succ']; rfl
  have e2 : simulate stormCfg (rows ++ [quietRec] ++ [quietRec]) = .ok m2 := by
    rw [← c1, List.replicate_succ', List.replicate_succ', List.append_assoc]
    simp only [rows, List.cons_append, List.append_assoc]
  have e : stormCfg.norm_threshold = 60 := by norm_num [stormCfg, calmCfg, defaultSteps]
  have inv := (records_inv hmax e1 env).1
  obtain ⟨m, h1, h2⟩ := C78_blank_row_completes hg hst.1 env e1 e2 (n1 := gap) (later := later) (i1 := quietRec.toInput)
    (fun m' hm' => by
      rw [a1] at hm'
      cases hm'
      unfold below_thold
      rw [e, a2.lc]
      simp only [Nat.one_ne_zero, if_false, if_true]
      simp
      linarith)
    hf hb hd hl (calmRec_new (by norm_num)) (calm_not_now (lt_irrefl _)) (calm_soil _ rfl) (by norm_num [calmEnv])
    boil_gt.le (fun _ => by linarith)
    (fun _ => ⟨by rw [b2.t0]; exact ⟨freeze_pos, le_refl _⟩, by rw [b2.t]; exact ⟨freeze_pos, le_refl _⟩,
      by rw [(inv.one b2.zl).2.2]; exact t_none_ok⟩)
    (by norm_num [calmEnv, SEA_LEVEL, quietRec, calmRec, Rec.toInput])
    (by norm_num [calmEnv]; linarith) (by norm_num [calmEnv]; linarith)
  exact ⟨⟨m0, a1, a3⟩, m, h1, h2 h0⟩

/-- The rows with a blank wind cell meet the conditions. -/
example : NRec.FilledBy { quietRec.cells with u := none } quietRec ∧ NRec.BlankAir { quietRec.cells with u := none } ∧
    NRec.Dry { quietRec.cells with u := none } ∧ quietRec.cells.Dry := by
  refine ⟨⟨.inr rfl, .inr rfl, .inr rfl, .inr rfl, .inl rfl, .inr rfl⟩, .inl rfl, ?_, ?_⟩ <;>
  · intro x hx
    have hx' : some (0 : ℝ) = some x := hx
    cases hx'
    exact le_refl _

end

end Pysnobal
