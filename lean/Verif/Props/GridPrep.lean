import Verif.Spatial
import Verif.Lemmas.Input
import Verif.Props.Tables

/-! # C87: what the gridded driver prepares for a cell is what the point driver would -/

namespace Pysnobal

noncomputable section

theorem gridRow_new {r : RawRow} (h : 0 ≤ r.precip_mass) : InputData.new (gridRow r) = InputData.new (convertRow r) := by
  rw [new_eq, new_eq]
  have e : (gridRow r).toInput = (convertRow r).toInput := by
    unfold gridRow convertRow Rec.toInput
    have e1 : r.precip_mass - r.precip_mass * r.percent_snow = r.precip_mass * (1 - r.percent_snow) := by ring
    by_cases hr : r.precip_mass * (1 - r.percent_snow) > 0
    · have hm : 0 < r.precip_mass := by
        rcases h.lt_or_eq with h | h
        · exact h
        · rw [← h] at hr; simp at hr
      have hr' : 0 < r.precip_mass - r.precip_mass * r.percent_snow := by rw [e1]; exact hr
      by_cases ht : r.precip_temp + FREEZE < FREEZE
      · simp only [hr, ht, hm, hr', true_and, if_true, lt_irrefl, if_false, true_or]
      · simp only [hr, ht, hm, hr', true_and, if_false, and_false, true_or]
    · simp only [hr, false_and, if_false]
  rw [e]
  rfl

theorem runSteps_new {c : Env} {ts : Tsteps} {all : Bool} {α : Type} {f f' : α → Rec} :
    ∀ {l : List α} (_ : ∀ r ∈ l, InputData.new (f r) = InputData.new (f' r)) (i : InputData) (m : Model),
      runSteps c ts all i (l.map f) m = runSteps c ts all i (l.map f') m
  | [], _, _, _ => rfl
  | r :: rs, h, i, m => by
    simp only [List.map_cons, runSteps]
    rw [h r (by simp)]
    cases InputData.new (f' r) with
    | error e => rfl
    | ok i2 =>
      simp only [bind_ok]
      cases do_data_tstep c ts all i i2 m with
      | error e => rfl
      | ok m1 => exact runSteps_new (fun r hr => h r (by simp [hr])) i2 m1

theorem simulate_new {g : Config} {α : Type} {f f' : α → Rec} {l : List α} (h : ∀ r ∈ l, InputData.new (f r) = InputData.new (f' r)) :
    simulate g (l.map f) = simulate g (l.map f') := by
  cases l with
  | nil => rfl
  | cons r rs =>
    simp only [List.map_cons, simulate]
    rw [h r (by simp)]
    cases parse_time_steps g with
    | error e => rfl
    | ok ts =>
      simp only [bind_ok]
      cases InputData.new (f' r) with
      | error e => rfl
      | ok i =>
        simp only [bind_ok]
        cases mkEnv g with
        | error e => rfl
        | ok c =>
          simp only [bind_ok]
          cases mkModel g c i with
          | error e => rfl
          | ok m => exact runSteps_new (fun r hr => h r (by simp [hr])) i m

/-- C87: the records prepared by the gridded driver differ from those of the point driver in the temperature of rain below freezing, and in
nothing else. -/
theorem C87_grid_records (r : RawRow) :
    gridRow r = { convertRow r with t_pp := r.precip_temp + 273.16 } ∧
    (gridRow r = convertRow r ↔ ¬ (0 < r.precip_mass * (1 - r.percent_snow) ∧ r.precip_temp < 0)) := by
  refine ⟨rfl, ?_⟩
  have hf : r.precip_temp + FREEZE < FREEZE ↔ r.precip_temp < 0 := by constructor <;> intro h <;> linarith
  unfold gridRow convertRow
  simp only [Rec.mk.injEq, true_and, hf, gt_iff_lt]
  split
  · rename_i h
    simp only [h, and_self, not_true_eq_false, iff_false]
    intro e
    linarith [h.2]
  · rename_i h
    simp only [h, not_false_eq_true]

/-- C87: that difference is without effect: the point model run on the records of a cell as the gridded driver prepares them is the same
run, state for state and error for error, as on those of the point driver, for every configuration and every series without negative
precipitation. -/
theorem C87_rain_rule_redundant (g : Config) (rows : List RawRow) (h : ∀ r ∈ rows, 0 ≤ r.precip_mass) :
    simulate g (rows.map gridRow) = simulate g (rows.map convertRow) :=
  simulate_new fun r hr => gridRow_new (h r hr)

/-- C87: without a file of initial conditions, what is prepared for a cell of a grid - its elevation, initial snow and records - makes the same
run of the point model as the point configuration with the elevation of that cell. -/
theorem C87_grid_cell {ι : Type} (g : Config) (elevation : ι → ℝ) (data : ι → List RawRow) (j : ι)
    (h : ∀ r ∈ data j, 0 ≤ r.precip_mass) :
    simulate (gridConfig g elevation (read_initial_conditions g none) j) ((data j).map gridRow) =
      simulate { g with elevation := elevation j, init_t_s_l := none, output_all := false } ((data j).map convertRow) := by
  rw [C87_rain_rule_redundant _ _ h]
  unfold gridConfig read_initial_conditions
  simp only [mul_one]

/-- Non-vacuity: rain at -1 °C is prepared differently, and its run is the same. -/
example : ∃ r : RawRow, gridRow r ≠ convertRow r ∧ ∀ g, simulate g ([r, r].map gridRow) = simulate g ([r, r].map convertRow) := by
  let r : RawRow := { date_time := 0, net_solar := 0, incoming_thermal := 300, air_temp := 1, vapor_pressure := 500, wind_speed := 1, soil_temp := 0, precip_mass := 2, percent_snow := 0.5, rho_snow := 100, precip_temp := -1 }
  refine ⟨r, fun e => ?_, fun g => C87_rain_rule_redundant g _ fun x hx => ?_⟩
  · exact ((C87_grid_records r).2.mp e) (by constructor <;> norm_num [r])
  · have : x = r := by simpa using hx
    rw [this]; norm_num [r]

end
end Pysnobal
