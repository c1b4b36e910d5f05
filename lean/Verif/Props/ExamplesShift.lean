import Verif.Props.Shift
import Verif.Props.Examples2
import Verif.Props.Falls

/-! # Concrete cases for C63, C64 and C73 -/

namespace Pysnobal

noncomputable section

/-- A property of the snow after every run step holds of the snow a run leaves. -/
theorem Unbroken.last {P : Snow → Prop} : ∀ {l : List (RStep Phys)} {s s' : Snow}, Unbroken s l s' → P s →
    (∀ x ∈ l, P x.post.snow) → P s' := by
  intro l
  induction l with
  | nil => intro s s' h hs _; cases h; exact hs
  | cons x l ih => intro s s' h _ hl; exact ih h.2 (hl x (by simp)) (fun y hy => hl y (by simp [hy]))

/-- C64: the storm run, of any length, ends with a pack that is not divided in the next data step, whatever
the next record is. -/
example (n : ℕ) : ∃ m, simulate stormCfg (stormRec :: (quietRec :: List.replicate n quietRec)) = .ok m ∧
    stormCfg.Tiled ∧ m.phys.snow.layer_count = 1 ∧ m.phys.snow.NoThinLayer stormCfg.norm_threshold ∧
    ∀ r r' i i', InputData.new r = .ok i → InputData.new r' = .ok i' → ∀ file,
      run stormCfg (stormRec :: (quietRec :: List.replicate n quietRec ++ [r])) file =
        run stormCfg (stormRec :: (quietRec :: List.replicate n quietRec ++ [r'])) file := by
  obtain ⟨x, ls, m, h1, h2, h3, h4⟩ := storm_run n
  obtain ⟨hg, _, hmax, _⟩ := stormCfg_ok
  obtain ⟨_, s, hu, _⟩ := C57_history stormCfg hmax _ _ m h1
  have hm : RipeSnow m.phys.snow ∧ m.phys.snow.m_s = x.post.snow.m_s := by
    have hu' : Unbroken x.post.snow ls.flatten m.phys.snow := hu.2
    refine hu'.last (P := fun s => RipeSnow s ∧ s.m_s = x.post.snow.m_s) ⟨h2.ripe, rfl⟩ ?_
    intro y hy
    obtain ⟨l, hl, hy⟩ := List.mem_flatten.mp hy
    have := (h4 l hl y hy).2.2.1
    exact ⟨this.ripe, this.m⟩
  have ht : m.phys.snow.NoThinLayer stormCfg.norm_threshold := by
    have e : stormCfg.norm_threshold = 60 := by norm_num [stormCfg, calmCfg, defaultSteps]
    constructor
    · intro _
      rw [e, hm.2, h2.m]
      linarith [h2.swi.2]
    · intro h
      rw [hm.1.lc] at h
      cases h
  exact ⟨m, h1.simulate, hg, hm.1.lc, ht, fun r r' i i' hi hi' file =>
    C64_undivided_step_uses_first_record stormCfg hg _ _ m h1.simulate ht r r' i i' hi hi' file⟩

/-- C63: three hourly rows, in two orders with the same first difference. -/
example (a : RawRow) : let r := fun t : ℤ => ({ a with date_time := t } : RawRow)
    ([r 0, r 60, r 120] : List RawRow).Perm [r 60, r 120, r 0] ∧
    (([r 0, r 60, r 120] : List RawRow).map (·.date_time)).Nodup ∧
    firstDelta [r 0, r 60, r 120] = firstDelta [r 60, r 120, r 0] := by
  intro r
  refine ⟨?_, by simp [r], by simp [r, firstDelta]⟩
  exact (List.perm_append_comm (l₁ := [r 0]) (l₂ := [r 60, r 120]))

/-- C73: a storm whose mixed precipitation is reported 8 degrees below freezing, followed by quiet records with
impossible (but unused) values for the snow that does not fall, has the same outcome as the storm run - which is a
completed run with an output file. -/
example (n : ℕ) (file : Option (List OutRow)) :
    let cold : Rec := { stormRec with t_pp := FREEZE - 8 }
    let odd : Rec := { quietRec with percent_snow := 7, rho_snow := -3, t_pp := 1 }
    (∃ m, simulate stormCfg (stormRec :: quietRec :: List.replicate n quietRec) = .ok m) ∧
    run stormCfg (stormRec :: quietRec :: List.replicate n quietRec) file =
      run stormCfg (cold :: odd :: List.replicate n odd) file := by
  intro cold odd
  obtain ⟨x, ls, m, h1, _⟩ := storm_run n
  have ho : quietRec.SameWeather odd ∧ quietRec.FallsAlike odd := by
    refine ⟨⟨rfl, rfl, rfl, rfl, rfl, rfl⟩, .inl ⟨?_, ?_⟩⟩ <;> norm_num [odd, quietRec, calmRec]
  have hs : stormRec.SameWeather cold ∧ stormRec.FallsAlike cold := by
    refine ⟨⟨rfl, rfl, rfl, rfl, rfl, rfl⟩, .inr ⟨rfl, rfl, fun _ => rfl, fun _ => ?_, fun h => ?_⟩⟩
    · show max FREEZE FREEZE = max (FREEZE - 8) FREEZE
      rw [max_self, max_eq_right (by linarith)]
    · exact absurd h (by norm_num [stormRec, calmRec])
  have hn : ∀ k, List.Forall₂ (fun r r' : Rec => r.SameWeather r' ∧ r.FallsAlike r') (List.replicate k quietRec)
      (List.replicate k odd) := by
    intro k
    induction k with
    | zero => exact .nil
    | succ k ih => exact .cons ho ih
  exact ⟨⟨m, h1.simulate⟩, (C73_only_what_falls_matters stormCfg stormCfg_ok.1 _ _
    (.cons hs (.cons ho (hn n)))).2 file⟩

end

end Pysnobal
