import Verif.Props.Missing
import Verif.Props.Examples2

/-! # Concrete cases for C77 -/

namespace Pysnobal

noncomputable section

/-- C77: the quiet records of the storm run with all four precipitation cells blank.  Every complete table that says the
same otherwise has the outcome of the storm run, a completed run with an output file. -/
example (n : ℕ) (file : Option (List OutRow)) (rows : List Rec) :
    let blank : NRec := { quietRec.cells with m_pp := none, percent_snow := none, rho_snow := none, t_pp := none }
    List.Forall₂ NRec.TakenAs (stormRec.cells :: blank :: List.replicate n blank) rows →
    (∃ m, simulate stormCfg (stormRec :: quietRec :: List.replicate n quietRec) = .ok m) ∧
    run stormCfg rows file = run stormCfg (stormRec :: quietRec :: List.replicate n quietRec) file := by
  intro blank hr
  obtain ⟨x, ls, m, h1, _⟩ := storm_run n
  have hs : stormRec.cells.TakenAs stormRec :=
    ⟨rfl, rfl, rfl, rfl, rfl, rfl, .inr ⟨rfl, by norm_num [stormRec, calmRec], rfl, rfl, .inl rfl⟩⟩
  have hb : blank.TakenAs quietRec :=
    ⟨rfl, rfl, rfl, rfl, rfl, rfl, .inl ⟨(fun x hx => by cases hx), by norm_num [quietRec, calmRec]⟩⟩
  have hn : ∀ k, List.Forall₂ NRec.TakenAs (List.replicate k blank) (List.replicate k quietRec) := by
    intro k
    induction k with
    | zero => exact .nil
    | succ k ih => exact .cons hb ih
  exact ⟨⟨m, h1.simulate⟩, (C77_harmless_blanks stormCfg stormCfg_ok.1 _ _ _ hr
    (.cons hs (.cons hb (hn n))) file).1⟩

/-- C77: wet snow from a blank temperature, rain on snow with a blank density, a record with a blank wind speed. -/
example :
    let snow : NRec := { (calmRec 0 5 1 100).cells with t_pp := none }
    let rain : NRec := { (calmRec 0 5 0 100).cells with rho_snow := none }
    let gap : NRec := { quietRec.cells with u := none }
    (∃ d, NInput.new snow = .ok d ∧ d.t_snow = some FREEZE ∧ d.h2o_sat_snow = some 1) ∧
    (∃ d, NInput.new rain = .ok d ∧ nPrecipWater 0.01 d (some 3) (some 0) = (none, none)) ∧
    (∃ d1 d2 dl, NInput.new quietRec.cells = .ok d1 ∧ NInput.new gap = .ok d2 ∧
      nDeltaFor d1 d2 ⟨0, 900, 15, 4, 4⟩ = .ok dl ∧ (NInput.working d1 dl 0).u = some 0 ∧
      (NInput.working d1 dl 1).u = none ∧ (NInput.working d1 dl 1).t_a = some FREEZE) := by
  intro snow rain gap
  refine ⟨?_, ?_, ?_⟩
  · have hc : ∀ e, NInput.new snow ≠ .error e := by
      intro e he
      obtain ⟨_, _, _, _, _, _, _, h⟩ := (C77_when_rejected _ _).mp he
      exact absurd (h 100 rfl) (by norm_num)
    cases h : NInput.new snow with
    | error e => exact absurd h (hc e)
    | ok d =>
      have := (C77_blank_temperature snow d 5 1 h rfl rfl (by norm_num) rfl).1 (le_refl _)
      exact ⟨d, rfl, this.1, this.2.1⟩
  · obtain ⟨d, h1, _, _, h2⟩ := (C77_blank_density_spoils_water rain 5 0 3 0 0.01 rfl rfl (by norm_num)).1 rfl (le_refl _)
    exact ⟨d, h1, h2⟩
  · obtain ⟨d1, e1, p1, _, _, t1, _, u1, _⟩ := C77_blank_mass_is_dry quietRec.cells
      (by rintro x ⟨⟩; norm_num [quietRec, calmRec])
    obtain ⟨d2, e2, p2, _, _, t2, _, u2, _⟩ := C77_blank_mass_is_dry gap
      (by rintro x ⟨⟩; norm_num [quietRec, calmRec])
    have hm : ∀ x, d1.m_pp = some x → x ≤ 0 := by
      rw [nnew_ok e1]
      rintro x ⟨⟩
      norm_num [quietRec, calmRec]
    obtain ⟨dl, e3, _⟩ := C77_blank_mass_is_dry
      { S_n := (NVal.sub d2.S_n d1.S_n).map fun x => x / ((4 : ℤ) : ℝ)
        I_lw := (NVal.sub d2.I_lw d1.I_lw).map fun x => x / ((4 : ℤ) : ℝ)
        t_a := (NVal.sub d2.t_a d1.t_a).map fun x => x / ((4 : ℤ) : ℝ)
        e_a := (NVal.sub d2.e_a d1.e_a).map fun x => x / ((4 : ℤ) : ℝ)
        u := (NVal.sub d2.u d1.u).map fun x => x / ((4 : ℤ) : ℝ)
        t_g := (NVal.sub d2.t_g d1.t_g).map fun x => x / ((4 : ℤ) : ℝ)
        m_pp := d1.m_pp.map fun x => x / ((4 : ℤ) : ℝ)
        percent_snow := d1.percent_snow, rho_snow := d1.rho_snow, t_pp := d1.t_pp }
      (by
        intro x hx
        obtain ⟨y, hy, rfl⟩ := Option.map_eq_some_iff.mp hx
        exact div_nonpos_of_nonpos_of_nonneg (hm y hy) (by norm_num))
    have hd : nDeltaFor d1 d2 ⟨0, 900, 15, 4, 4⟩ = .ok dl := by
      rw [nDeltaFor_eq _ _ _ (by norm_num)]
      exact e3
    have hw := C77_blank_weather d1 d2 dl _ (by norm_num) hd
    refine ⟨d1, d2, dl, e1, e2, hd, ?_, ?_, ?_⟩
    · rw [(hw 0 NInput.u (by simp)).1, u1]; rfl
    · exact (hw 0 NInput.u (by simp)).2.2 (.inr (by rw [u2]))
    · rw [(hw 1 NInput.t_a (by simp)).2.1 FREEZE FREEZE (by rw [t1]; rfl) (by rw [t2]; rfl)]
      simp

end

end Pysnobal
