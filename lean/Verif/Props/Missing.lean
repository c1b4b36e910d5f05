import Verif.Missing
import Verif.Props.Falls

/-! # C77: blank cells in the forcing -/

namespace Pysnobal

noncomputable section

open Classical

/-! ## Specification -/

/-- A record, a table row, an `InputData` object without blanks. -/
def Rec.cells (r : Rec) : NRec :=
  { S_n := some r.S_n, I_lw := some r.I_lw, t_a := some r.t_a, e_a := some r.e_a, u := some r.u, t_g := some r.t_g,
    m_pp := some r.m_pp, percent_snow := some r.percent_snow, rho_snow := some r.rho_snow, t_pp := some r.t_pp }

/-- See `Rec.cells`. -/
def RawRow.cells (r : RawRow) : NRow :=
  { date_time := r.date_time, net_solar := some r.net_solar, incoming_thermal := some r.incoming_thermal,
    air_temp := some r.air_temp, vapor_pressure := some r.vapor_pressure, wind_speed := some r.wind_speed,
    soil_temp := some r.soil_temp, precip_mass := some r.precip_mass, percent_snow := some r.percent_snow,
    rho_snow := some r.rho_snow, precip_temp := some r.precip_temp }

/-- See `Rec.cells`. -/
def InputData.cells (d : InputData) : NInput :=
  { S_n := some d.S_n, I_lw := some d.I_lw, t_a := some d.t_a, e_a := some d.e_a, u := some d.u, t_g := some d.t_g,
    m_pp := some d.m_pp, percent_snow := some d.percent_snow, rho_snow := some d.rho_snow, t_pp := some d.t_pp,
    m_snow := some d.m_snow, m_rain := some d.m_rain, z_snow := some d.z_snow,
    h2o_sat_snow := some d.h2o_sat_snow, t_rain := some d.t_rain, t_snow := some d.t_snow,
    precip_now := d.precip_now }

/-- The record `r` says what the record `n` with its blanks is taken to say: the weather is complete, and
* precipitation is blank, zero or negative, and `r` has none; or
* mass, phase and density are present, and the temperature too, or it is blank, no rain falls and `r` has some
  temperature not below freezing. -/
def NRec.TakenAs (n : NRec) (r : Rec) : Prop :=
  n.S_n = some r.S_n ∧ n.I_lw = some r.I_lw ∧ n.t_a = some r.t_a ∧ n.e_a = some r.e_a ∧ n.u = some r.u ∧
  n.t_g = some r.t_g ∧
  (((∀ x, n.m_pp = some x → x ≤ 0) ∧ r.m_pp ≤ 0) ∨
   (n.m_pp = some r.m_pp ∧ 0 < r.m_pp ∧ n.percent_snow = some r.percent_snow ∧ n.rho_snow = some r.rho_snow ∧
    (n.t_pp = some r.t_pp ∨ (n.t_pp = none ∧ 1 ≤ r.percent_snow ∧ FREEZE ≤ r.t_pp))))

/-- The forcing values a run step reads are present in `d` and are those of `i`: the weather, and if there is
precipitation also its masses, depth, temperatures, density and saturation. -/
def NInput.ReadsAs (d : NInput) (i : InputData) : Prop :=
  d.S_n = some i.S_n ∧ d.I_lw = some i.I_lw ∧ d.t_a = some i.t_a ∧ d.e_a = some i.e_a ∧ d.u = some i.u ∧
  d.t_g = some i.t_g ∧ d.precip_now = i.precip_now ∧
  (i.precip_now = true → d.m_pp = some i.m_pp ∧ d.m_snow = some i.m_snow ∧ d.m_rain = some i.m_rain ∧
    d.z_snow = some i.z_snow ∧ d.h2o_sat_snow = some i.h2o_sat_snow ∧ d.t_rain = some i.t_rain ∧
    d.t_snow = some i.t_snow ∧ d.rho_snow = some i.rho_snow)

/-! ## Arithmetic with blanks -/

@[simp] theorem NVal.add_some (x y : ℝ) : NVal.add (some x) (some y) = some (x + y) := rfl
@[simp] theorem NVal.sub_some (x y : ℝ) : NVal.sub (some x) (some y) = some (x - y) := rfl
@[simp] theorem NVal.mul_some (x y : ℝ) : NVal.mul (some x) (some y) = some (x * y) := rfl
@[simp] theorem NVal.add_none (a : NVal) : NVal.add a none = none := by cases a <;> rfl
@[simp] theorem NVal.none_add (a : NVal) : NVal.add none a = none := rfl
@[simp] theorem NVal.sub_none (a : NVal) : NVal.sub a none = none := by cases a <;> rfl
@[simp] theorem NVal.none_sub (a : NVal) : NVal.sub none a = none := rfl
@[simp] theorem NVal.mul_none (a : NVal) : NVal.mul a none = none := by cases a <;> rfl
@[simp] theorem NVal.none_mul (a : NVal) : NVal.mul none a = none := rfl
@[simp] theorem NVal.lt_some (x y : ℝ) : NVal.lt (some x) (some y) ↔ x < y := by
  constructor
  · rintro ⟨_, _, h1, h2, h⟩; cases h1; cases h2; exact h
  · intro h; exact ⟨x, y, rfl, rfl, h⟩
@[simp] theorem NVal.lt_none (a : NVal) : ¬NVal.lt a none := by rintro ⟨_, _, _, h, _⟩; cases h
@[simp] theorem NVal.none_lt (a : NVal) : ¬NVal.lt none a := by rintro ⟨_, _, h, _⟩; cases h

theorem NVal.div_some (x y : ℝ) : NVal.div (some x) (some y) = (pdiv x y).map some := by
  unfold NVal.div pdiv
  by_cases h : y = 0 <;> simp [h, Except.map]

theorem NVal.div_some' {y : ℝ} (a : NVal) (h : y ≠ 0) : NVal.div a (some y) = .ok (a.map fun x => x / y) := by
  unfold NVal.div
  simp [h]

/-! ## The constructor in closed form -/

/-- What `InputData(data)` holds if it does not raise. -/
def NRec.toNInput (n : NRec) : NInput :=
  let m_snow := NVal.mul n.m_pp n.percent_snow
  let m_rain := NVal.sub n.m_pp m_snow
  let t_pp := if NVal.lt (some 0) n.m_pp ∧ NVal.lt (some 0) m_rain ∧ NVal.lt n.t_pp (some FREEZE) then some FREEZE
    else n.t_pp
  { S_n := n.S_n, I_lw := n.I_lw, t_a := n.t_a, e_a := n.e_a, u := n.u, t_g := n.t_g, m_pp := n.m_pp,
    percent_snow := n.percent_snow, rho_snow := n.rho_snow, m_snow := m_snow, m_rain := m_rain
    t_pp := t_pp
    z_snow := if NVal.lt (some 0) n.m_pp ∧ NVal.lt (some 0) m_snow then
      m_snow.bind fun x => n.rho_snow.map fun y => x / y else some 0
    h2o_sat_snow := if NVal.lt (some 0) n.m_pp ∧ NVal.lt (some 0) m_snow ∧
      (NVal.lt (some 0) m_rain ∨ ¬NVal.lt n.t_pp (some FREEZE)) then some 1 else some 0
    t_rain := if NVal.lt (some 0) n.m_pp ∧ NVal.lt (some 0) m_rain then t_pp else some 0
    t_snow := if NVal.lt (some 0) n.m_pp ∧ NVal.lt (some 0) m_snow then
      (if NVal.lt (some 0) m_rain ∨ ¬NVal.lt n.t_pp (some FREEZE) then some FREEZE else n.t_pp) else some 0
    precip_now := decide (NVal.lt (some 0) n.m_pp) }

theorem nnew_eq (n : NRec) : NInput.new n =
    if NVal.lt (some 0) n.m_pp ∧ NVal.lt (some 0) (NVal.mul n.m_pp n.percent_snow) ∧ ¬NVal.lt (some 0) n.rho_snow
    then .error .rhoSnow else .ok n.toNInput := by
  unfold NInput.new NInput.precipitation_inputs NRec.toNInput
  obtain ⟨S_n, I_lw, t_a, e_a, u, t_g, m_pp, percent_snow, rho_snow, t_pp⟩ := n
  dsimp only
  generalize hS : NVal.mul m_pp percent_snow = S
  generalize hR : NVal.sub m_pp S = R
  by_cases h1 : NVal.lt (some 0) m_pp
  · by_cases h2 : NVal.lt (some 0) S
    · by_cases h3 : NVal.lt (some 0) rho_snow
      · obtain ⟨_, x, h0, rfl, hx⟩ := h3
        cases h0
        obtain ⟨_, s, h0, rfl, hs⟩ := h2
        cases h0
        by_cases h4 : NVal.lt (some 0) R
        · by_cases h5 : NVal.lt t_pp (some FREEZE)
          · simp [h1, hx, hs, hx.ne', h4, h5, NVal.div]
          · simp [h1, hx, hs, hx.ne', h4, h5, NVal.div]
        · by_cases h5 : NVal.lt t_pp (some FREEZE)
          · simp [h1, hx, hs, hx.ne', h4, h5, NVal.div]
          · simp [h1, hx, hs, hx.ne', h4, h5, NVal.div]
      · simp [h1, h2, h3]
    · by_cases h4 : NVal.lt (some 0) R
      · by_cases h5 : NVal.lt t_pp (some FREEZE)
        · simp [h1, h2, h4, h5]
        · simp [h1, h2, h4, h5]
      · simp [h1, h2, h4]
  · simp [h1]

theorem nnew_ok {n : NRec} {d : NInput} (h : NInput.new n = .ok d) : d = n.toNInput := by
  rw [nnew_eq] at h
  split at h
  · cases h
  · exact (Except.ok.inj h).symm

theorem nDeltaFor_eq (d1 d2 : NInput) (ts : TstepInfo) (hN : (ts.intervals_per_timestep : ℝ) ≠ 0) :
    nDeltaFor d1 d2 ts = NInput.new
      { S_n := (NVal.sub d2.S_n d1.S_n).map fun x => x / (ts.intervals_per_timestep : ℝ)
        I_lw := (NVal.sub d2.I_lw d1.I_lw).map fun x => x / (ts.intervals_per_timestep : ℝ)
        t_a := (NVal.sub d2.t_a d1.t_a).map fun x => x / (ts.intervals_per_timestep : ℝ)
        e_a := (NVal.sub d2.e_a d1.e_a).map fun x => x / (ts.intervals_per_timestep : ℝ)
        u := (NVal.sub d2.u d1.u).map fun x => x / (ts.intervals_per_timestep : ℝ)
        t_g := (NVal.sub d2.t_g d1.t_g).map fun x => x / (ts.intervals_per_timestep : ℝ)
        m_pp := d1.m_pp.map fun x => x / (ts.intervals_per_timestep : ℝ)
        percent_snow := d1.percent_snow, rho_snow := d1.rho_snow, t_pp := d1.t_pp } := by
  unfold nDeltaFor
  simp only [NVal.div_some' _ hN, bind_ok]

/-! ## Records without blanks -/

theorem npos_cells {x : ℝ} : NVal.lt (some 0) (some x) ↔ 0 < x := NVal.lt_some 0 x

/-- C77: on records, rows and deltas without blanks the forcing layer with blanks is the forcing layer of the rest of the
model. -/
theorem C77_without_blanks (r : Rec) (w : RawRow) (i1 i2 d dl : InputData) (ts : TstepInfo) :
    NInput.new r.cells = (InputData.new r).map InputData.cells ∧
    nConvertRow w.cells = (convertRow w).cells ∧
    nDeltaFor i1.cells i2.cells ts = (deltaFor i1 i2 ts).map InputData.cells ∧
    NInput.add_deltas d.cells dl.cells = (d.add_deltas dl).cells ∧
    NInput.update_precip_deltas d.cells dl.cells = (d.update_precip_deltas dl).cells := by
  have hn : ∀ r : Rec, NInput.new r.cells = (InputData.new r).map InputData.cells := by
    intro r
    rw [new_eq]
    unfold NInput.new NInput.precipitation_inputs Rec.cells Rec.toInput InputData.cells
    simp only [NVal.mul_some, NVal.sub_some, NVal.lt_some]
    by_cases h1 : 0 < r.m_pp
    · by_cases h2 : 0 < r.m_pp * r.percent_snow
      · by_cases h3 : r.rho_snow ≤ 0
        · simp [h1, h2, h3, not_lt.mpr h3, Except.map]
        · have h3' := not_le.mp h3
          by_cases h4 : 0 < r.m_pp - r.m_pp * r.percent_snow
          · by_cases h5 : r.t_pp < FREEZE
            · simp [-mul_pos_iff_of_pos_left, -sub_pos, h1, h2, h3', h3, h3'.ne', h4, h5, NVal.div, Except.map]
            · simp [-mul_pos_iff_of_pos_left, -sub_pos, h1, h2, h3', h3, h3'.ne', h4, h5, NVal.div, Except.map]
          · by_cases h5 : r.t_pp < FREEZE
            · simp [-mul_pos_iff_of_pos_left, -sub_pos, h1, h2, h3', h3, h3'.ne', h4, h5, not_le.mpr h5, NVal.div,
                Except.map]
            · simp [-mul_pos_iff_of_pos_left, -sub_pos, h1, h2, h3', h3, h3'.ne', h4, h5, not_lt.mp h5, NVal.div,
                Except.map]
      · by_cases h4 : 0 < r.m_pp - r.m_pp * r.percent_snow
        · by_cases h5 : r.t_pp < FREEZE <;>
            simp [-mul_pos_iff_of_pos_left, -sub_pos, h1, h2, h4, h5, Except.map]
        · simp [-mul_pos_iff_of_pos_left, -sub_pos, h1, h2, h4, Except.map]
    · simp [h1, Except.map]
  refine ⟨hn r, ?_, ?_, rfl, rfl⟩
  · unfold nConvertRow convertRow RawRow.cells Rec.cells
    simp only [NVal.mul_some, NVal.sub_some, NVal.add_some, NVal.lt_some]
    by_cases h : 0 < w.precip_mass * (1 - w.percent_snow) ∧ w.precip_temp + FREEZE < FREEZE
    · rw [if_pos h, if_pos h]
    · rw [if_neg h, if_neg h]
  · rw [deltaFor_eq]
    by_cases h : (ts.intervals_per_timestep : ℝ) = 0
    · rw [if_pos h]
      unfold nDeltaFor NVal.div
      simp [h, Except.map]
    · rw [if_neg h, ← hn]
      unfold nDeltaFor
      simp only [NVal.div_some' _ h, InputData.cells, NVal.sub_some, bind_ok]
      rfl

/-- C77: reading the table.  A blank cell becomes a blank value of the record and no other; temperatures that are present
become Kelvin; the temperature of precipitation is raised to freezing where rain is known to fall. -/
theorem C77_rows_with_blanks (w : NRow) :
    (nConvertRow w).S_n = w.net_solar ∧ (nConvertRow w).I_lw = w.incoming_thermal ∧
    (nConvertRow w).t_a = w.air_temp.map (· + FREEZE) ∧ (nConvertRow w).e_a = w.vapor_pressure ∧
    (nConvertRow w).u = w.wind_speed ∧ (nConvertRow w).t_g = w.soil_temp.map (· + FREEZE) ∧
    (nConvertRow w).m_pp = w.precip_mass ∧ (nConvertRow w).percent_snow = w.percent_snow ∧
    (nConvertRow w).rho_snow = w.rho_snow ∧
    (w.precip_temp = none → (nConvertRow w).t_pp = none) ∧
    (∀ x, w.precip_temp = some x →
      (w.precip_mass = none ∨ w.percent_snow = none → (nConvertRow w).t_pp = some (x + FREEZE)) ∧
      ∀ m p, w.precip_mass = some m → w.percent_snow = some p →
        (m * (1 - p) ≤ 0 → (nConvertRow w).t_pp = some (x + FREEZE)) ∧
        (0 < m * (1 - p) → (nConvertRow w).t_pp = some (max (x + FREEZE) FREEZE))) := by
  obtain ⟨_, a1, a2, ta, a3, a4, ts, pm, ps, rs, pt⟩ := w
  refine ⟨rfl, rfl, ?_, rfl, rfl, ?_, rfl, rfl, rfl, ?_, ?_⟩
  · cases ta <;> simp [nConvertRow]
  · cases ts <;> simp [nConvertRow]
  · rintro ⟨⟩
    simp [nConvertRow]
  · rintro x ⟨⟩
    refine ⟨?_, ?_⟩
    · rintro (h | h)
      · cases h; simp [nConvertRow]
      · cases h; simp [nConvertRow]
    · rintro m p ⟨⟩ ⟨⟩
      simp only [nConvertRow, NVal.add_some, NVal.sub_some, NVal.mul_some, NVal.lt_some]
      refine ⟨fun h => if_neg fun k => absurd k.1 (not_lt.mpr h), fun h => ?_⟩
      by_cases hx : x + FREEZE < FREEZE
      · rw [if_pos ⟨h, hx⟩, max_eq_right hx.le]
      · rw [if_neg fun k => hx k.2, max_eq_left (not_lt.mp hx)]

/-- C77: the constructor rejects a record exactly if a positive mass of snow is known to fall and the density is blank or
not positive.  No other blank is noticed. -/
theorem C77_when_rejected (n : NRec) (e : Err) :
    NInput.new n = .error e ↔ e = .rhoSnow ∧ ∃ m p, n.m_pp = some m ∧ n.percent_snow = some p ∧ 0 < m ∧ 0 < p ∧
      ∀ x, n.rho_snow = some x → x ≤ 0 := by
  obtain ⟨S_n, I_lw, t_a, e_a, u, t_g, m_pp, percent_snow, rho_snow, t_pp⟩ := n
  unfold NInput.new NInput.precipitation_inputs
  rcases m_pp with _ | m
  · simp
  by_cases h1 : 0 < m
  swap
  · simp [h1]
  rcases percent_snow with _ | p
  · simp [h1]
  have e1 : (0 < m * p) ↔ 0 < p := mul_pos_iff_of_pos_left h1
  by_cases h2 : 0 < p
  · rcases rho_snow with _ | x
    · simp [h1, h2]
      exact ⟨fun h => h.symm, fun h => h.symm⟩
    · by_cases h3 : 0 < x
      · simp [h1, h2, h3, NVal.div, h3.ne']
        repeat' split
        all_goals simp [h3]
      · simp [h1, h2, h3, not_lt.mp h3]
        exact ⟨fun h => h.symm, fun h => h.symm⟩
  · simp [h1, h2]
    repeat' split
    all_goals simp

/-- C77: a record whose precipitation mass is blank (or not positive) is accepted, whatever else is blank, and counts as
a record without precipitation, from the first run step of the data step to the last. -/
theorem C77_blank_mass_is_dry (n : NRec) (h : ∀ x, n.m_pp = some x → x ≤ 0) :
    ∃ d, NInput.new n = .ok d ∧ d.precip_now = false ∧ d.S_n = n.S_n ∧ d.I_lw = n.I_lw ∧ d.t_a = n.t_a ∧
      d.e_a = n.e_a ∧ d.u = n.u ∧ d.t_g = n.t_g ∧ ∀ dl k, (NInput.working d dl k).precip_now = false := by
  have hm : ¬NVal.lt (some 0) n.m_pp := by
    rintro ⟨x, y, h1, h2, h3⟩
    cases h1
    exact absurd (h _ h2) (not_le.mpr h3)
  refine ⟨n.toNInput, ?_, ?_, rfl, rfl, rfl, rfl, rfl, rfl, fun dl k => ?_⟩
  · rw [nnew_eq, if_neg (fun h => hm h.1)]
  · simp [NRec.toNInput, hm]
  · induction k with
    | zero => simp [NInput.working, NRec.toNInput, hm]
    | succ k ih => simp only [NInput.working, NInput.add_deltas, NInput.update_precip_deltas, ih, Bool.false_eq_true, if_false]

/-- C77: blank temperature of precipitation.  Where snow alone falls it is taken for wet snow at freezing; where rain
falls the rain has no temperature. -/
theorem C77_blank_temperature (n : NRec) (d : NInput) (m p : ℝ) (h : NInput.new n = .ok d) (hm : n.m_pp = some m)
    (hp : n.percent_snow = some p) (h0 : 0 < m) (ht : n.t_pp = none) :
    (1 ≤ p → d.t_snow = some FREEZE ∧ d.h2o_sat_snow = some 1 ∧ d.t_rain = some 0) ∧
    (p < 1 → d.t_rain = none) := by
  have e1 : (0 < m - m * p) ↔ p < 1 := by
    constructor <;> intro h <;> nlinarith
  have e2 : (0 < m * p) ↔ 0 < p := mul_pos_iff_of_pos_left h0
  rw [nnew_ok h]
  simp only [NRec.toNInput, hm, hp, ht, NVal.mul_some, NVal.sub_some, NVal.lt_some, e1, e2, h0, NVal.none_lt, and_false,
    if_false, true_and, not_false_eq_true, or_true, and_true, if_true]
  refine ⟨fun h1 => ?_, fun h1 => ?_⟩
  · have h2 : 0 < p := by linarith
    simp [h2, not_lt.mpr h1]
  · simp [h1]

/-- C77: blank fraction of snow.  The record is accepted as one with precipitation, of unknown masses of rain and snow,
with no depth of new snow and temperatures zero. -/
theorem C77_blank_phase (n : NRec) (m : ℝ) (hm : n.m_pp = some m) (h0 : 0 < m) (hp : n.percent_snow = none) :
    ∃ d, NInput.new n = .ok d ∧ d.precip_now = true ∧ d.m_pp = some m ∧ d.m_snow = none ∧ d.m_rain = none ∧
      d.z_snow = some 0 ∧ d.t_snow = some 0 ∧ d.t_rain = some 0 := by
  obtain ⟨S_n, I_lw, t_a, e_a, u, t_g, m_pp, percent_snow, rho_snow, t_pp⟩ := n
  subst hm hp
  unfold NInput.new NInput.precipitation_inputs
  simp [h0]

/-- C77: a blank weather value.  After `k` run steps of a level that splits the data step into `N` parts the model has
the value for that time if both records have one; the first run step uses the first record's value whether or not the
second record has one; after that one blank in either record is enough to leave the model without the value. -/
theorem C77_blank_weather (d1 d2 dl : NInput) (ts : TstepInfo) (hN : ts.intervals_per_timestep ≠ 0)
    (h : nDeltaFor d1 d2 ts = .ok dl) (k : ℕ) :
    ∀ f ∈ [NInput.S_n, NInput.I_lw, NInput.t_a, NInput.e_a, NInput.u, NInput.t_g],
      f (NInput.working d1 dl 0) = f d1 ∧
      (∀ x y, f d1 = some x → f d2 = some y →
        f (NInput.working d1 dl k) = some (x + k * ((y - x) / ts.intervals_per_timestep))) ∧
      (f d1 = none ∨ f d2 = none → f (NInput.working d1 dl (k + 1)) = none) := by
  have hN' : (ts.intervals_per_timestep : ℝ) ≠ 0 := by exact_mod_cast hN
  have hd : ∀ f ∈ [NInput.S_n, NInput.I_lw, NInput.t_a, NInput.e_a, NInput.u, NInput.t_g],
      f dl = (NVal.sub (f d2) (f d1)).map fun x => x / (ts.intervals_per_timestep : ℝ) := by
    rw [nDeltaFor_eq _ _ _ hN'] at h
    rw [nnew_ok h]
    intro f hf
    simp only [List.mem_cons, List.not_mem_nil, or_false] at hf
    rcases hf with rfl | rfl | rfl | rfl | rfl | rfl <;> rfl
  have hs : ∀ f ∈ [NInput.S_n, NInput.I_lw, NInput.t_a, NInput.e_a, NInput.u, NInput.t_g], ∀ k,
      f (NInput.working d1 dl (k + 1)) = NVal.add (f (NInput.working d1 dl k)) (f dl) := by
    intro f hf k
    simp only [List.mem_cons, List.not_mem_nil, or_false] at hf
    simp only [NInput.working]
    split <;> rcases hf with rfl | rfl | rfl | rfl | rfl | rfl <;> rfl
  intro f hf
  refine ⟨rfl, fun x y hx hy => ?_, fun hb => ?_⟩
  · induction k with
    | zero => simp [NInput.working, hx]
    | succ k ih =>
      rw [hs f hf, ih, hd f hf, hx, hy]
      simp only [NVal.sub_some, Option.map_some, NVal.add_some, Option.some.injEq]
      push_cast
      ring
  · rw [hs f hf, hd f hf]
    rcases hb with hb | hb <;> simp [hb]

theorem NRec.TakenAs.fall {n : NRec} {r r' : Rec} (h : n.TakenAs r) (h' : n.TakenAs r') :
    r.SameWeather r' ∧ r.FallsAlike r' := by
  obtain ⟨a1, a2, a3, a4, a5, a6, a⟩ := h
  obtain ⟨b1, b2, b3, b4, b5, b6, b⟩ := h'
  rw [a1] at b1; rw [a2] at b2; rw [a3] at b3; rw [a4] at b4; rw [a5] at b5; rw [a6] at b6
  refine ⟨⟨Option.some.inj b1, Option.some.inj b2, Option.some.inj b3, Option.some.inj b4, Option.some.inj b5,
    Option.some.inj b6⟩, ?_⟩
  rcases a with ⟨h1, h2⟩ | ⟨h1, h2, h3, h4, h5⟩
  · rcases b with ⟨_, k2⟩ | ⟨k1, k2, _⟩
    · exact .inl ⟨h2, k2⟩
    · exact absurd (h1 _ k1) (not_le.mpr k2)
  · rcases b with ⟨k1, _⟩ | ⟨k1, k2, k3, k4, k5⟩
    · exact absurd (k1 _ h1) (not_le.mpr h2)
    · rw [h1] at k1; rw [h3] at k3; rw [h4] at k4
      have e1 := Option.some.inj k1
      have e2 := Option.some.inj k3
      have e3 := Option.some.inj k4
      refine .inr ⟨e1, e2, fun _ => e3, fun hr => ?_, fun hr => ?_⟩
      · rcases h5 with h5 | ⟨h5, h6, h7⟩
        · rcases k5 with k5 | ⟨k5, k6, k7⟩
          · rw [h5] at k5; rw [Option.some.inj k5]
          · rw [h5] at k5; cases k5
        · exfalso; nlinarith
      · rcases h5 with h5 | ⟨h5, h6, h7⟩
        · rcases k5 with k5 | ⟨k5, k6, k7⟩
          · rw [h5] at k5; rw [Option.some.inj k5]
          · rw [h5] at k5; cases k5
        · rcases k5 with k5 | ⟨k5, k6, k7⟩
          · rw [h5] at k5; cases k5
          · rw [min_eq_right h7, min_eq_right k7]

/-- C77: blanks that do not matter.  Precipitation columns may be blank where the precipitation mass is zero or blank, and
the temperature of precipitation where snow alone falls (which then counts as wet): all complete records that say the
same otherwise give the same run. -/
theorem C77_harmless_blanks (g : Config) (hg : g.Tiled) (ns : List NRec) (rows rows' : List Rec)
    (h : List.Forall₂ NRec.TakenAs ns rows) (h' : List.Forall₂ NRec.TakenAs ns rows') (file : Option (List OutRow)) :
    run g rows file = run g rows' file ∧
    RelE (fun m m' => m.output_list = m'.output_list ∧ m.phys.snow = m'.phys.snow) (simulate g rows)
      (simulate g rows') := by
  have hf : List.Forall₂ (fun r r' => r.SameWeather r' ∧ r.FallsAlike r') rows rows' := by
    induction h generalizing rows' with
    | nil => cases h'; exact .nil
    | cons hr _ ih =>
      cases h' with
      | cons hr' ht' => exact .cons (hr.fall hr') (ih _ ht')
  obtain ⟨h1, h2⟩ := C73_only_what_falls_matters g hg rows rows' hf
  refine ⟨h2 file, ?_⟩
  cases hs : simulate g rows with
  | error e => rw [hs] at h1; cases hs' : simulate g rows' with
    | error e' => rw [hs'] at h1; exact h1
    | ok m' => rw [hs'] at h1; exact h1
  | ok m => rw [hs] at h1; cases hs' : simulate g rows' with
    | error e' => rw [hs'] at h1; exact h1
    | ok m' => rw [hs'] at h1; exact ⟨h1.1, h1.2.1⟩

theorem NRec.TakenAs.reads {n : NRec} {r : Rec} {i : InputData} (h : n.TakenAs r) (e : InputData.new r = .ok i) :
    NInput.new n = .ok n.toNInput ∧ n.toNInput.ReadsAs i := by
  obtain ⟨hi, hρ⟩ := new_ok e
  subst hi
  obtain ⟨a1, a2, a3, a4, a5, a6, ⟨h1, h2⟩ | ⟨h1, h2, h3, h4, h5⟩⟩ := h
  · have hm : ¬NVal.lt (some 0) n.m_pp := by
      rintro ⟨x, y, k1, k2, k3⟩
      cases k1
      exact absurd (h1 _ k2) (not_le.mpr k3)
    refine ⟨by rw [nnew_eq, if_neg (fun h => hm h.1)], a1, a2, a3, a4, a5, a6, ?_, ?_⟩
    · simp [NRec.toNInput, Rec.toInput, hm, h2]
    · simp [Rec.toInput, not_lt.mpr h2]
  · refine ⟨?_, a1, a2, a3, a4, a5, a6, ?_, fun _ => ?_⟩
    · rw [nnew_eq, if_neg]
      rw [h1, h3, h4]
      simp only [NVal.mul_some, NVal.lt_some]
      exact fun ⟨k1, k2, k3⟩ => k3 (hρ k1 k2)
    · simp [NRec.toNInput, Rec.toInput, h1, h2]
    · rcases h5 with h5 | ⟨h5, h6, h7⟩
      · simp only [NRec.toNInput, Rec.toInput, h1, h3, h4, h5, NVal.mul_some, NVal.sub_some, NVal.lt_some, h2, true_and,
          not_lt, Option.bind_some, Option.map_some]
        by_cases q1 : 0 < r.m_pp * r.percent_snow <;> by_cases q2 : 0 < r.m_pp - r.m_pp * r.percent_snow <;>
          by_cases q3 : r.t_pp < FREEZE <;> simp [-mul_pos_iff_of_pos_left, -sub_pos, q1, q2, q3, ← not_lt]
      · have hr : ¬0 < r.m_pp - r.m_pp * r.percent_snow := by nlinarith
        simp only [NRec.toNInput, Rec.toInput, h1, h3, h4, h5, NVal.mul_some, NVal.sub_some, NVal.lt_some, h2, true_and,
          not_lt, Option.bind_some, Option.map_some, hr, NVal.none_lt, false_or, false_and, and_false, if_false,
          not_false_eq_true, and_true, h7, if_true]
        by_cases q1 : 0 < r.m_pp * r.percent_snow <;> simp [-mul_pos_iff_of_pos_left, -sub_pos, q1]

theorem NRec.TakenAs.delta {n1 : NRec} {r1 : Rec} {i1 i2 : InputData} {d2 : NInput} {ts : TstepInfo}
    (h1 : n1.TakenAs r1) (e1 : InputData.new r1 = .ok i1) (h2 : d2.ReadsAs i2) (hN : 0 < ts.intervals_per_timestep) :
    ∃ n r dl', n.TakenAs r ∧ nDeltaFor n1.toNInput d2 ts = NInput.new n ∧ deltaFor i1 i2 ts = InputData.new r ∧
      InputData.new r = .ok dl' ∧ dl'.precip_now = i1.precip_now := by
  have hN' : (0 : ℝ) < ts.intervals_per_timestep := by exact_mod_cast hN
  obtain ⟨_, k1⟩ := h1.reads e1
  obtain ⟨hi, hρ⟩ := new_ok e1
  obtain ⟨b1, b2, b3, b4, b5, b6, _, _⟩ := h2
  obtain ⟨c1, c2, c3, c4, c5, c6, _, _⟩ := k1
  refine ⟨_, deltaRec i1 i2 ts.intervals_per_timestep, (deltaRec i1 i2 ts.intervals_per_timestep).toInput, ?_,
    nDeltaFor_eq _ _ _ hN'.ne', by rw [deltaFor_eq, if_neg hN'.ne'], ?_, ?_⟩
  · refine ⟨?_, ?_, ?_, ?_, ?_, ?_, ?_⟩
    · simp [b1, c1, deltaRec]
    · simp [b2, c2, deltaRec]
    · simp [b3, c3, deltaRec]
    · simp [b4, c4, deltaRec]
    · simp [b5, c5, deltaRec]
    · simp [b6, c6, deltaRec]
    · subst hi
      obtain ⟨_, _, _, _, _, _, ⟨g1, g2⟩ | ⟨g1, g2, g3, g4, g5⟩⟩ := h1
      · refine .inl ⟨fun x hx => ?_, ?_⟩
        · simp only [NRec.toNInput, Option.map_eq_some_iff] at hx
          obtain ⟨a, ha, rfl⟩ := hx
          exact div_nonpos_of_nonpos_of_nonneg (g1 a ha) hN'.le
        · exact div_nonpos_of_nonpos_of_nonneg g2 hN'.le
      · refine .inr ⟨by simp [NRec.toNInput, g1, deltaRec, Rec.toInput], div_pos g2 hN', g3, g4, ?_⟩
        rcases g5 with g5 | ⟨g5, g6, g7⟩
        · left
          simp only [NRec.toNInput, g1, g3, g5, NVal.mul_some, NVal.sub_some, NVal.lt_some, g2, true_and, deltaRec,
            Rec.toInput]
          split <;> rfl
        · refine .inr ⟨by simp [NRec.toNInput, g5], g6, ?_⟩
          simp only [deltaRec, Rec.toInput]
          split
          · exact le_refl _
          · exact g7
  · rw [new_eq, if_neg]
    rintro ⟨k1, k2, k3⟩
    subst hi
    have g1 : 0 < r1.m_pp := by
      by_contra hc
      exact absurd k1 (not_lt.mpr (div_nonpos_of_nonpos_of_nonneg (not_lt.mp hc) hN'.le))
    have g2 : 0 < r1.percent_snow := (mul_pos_iff_of_pos_left k1).mp k2
    exact absurd (hρ g1 (mul_pos g1 g2)) (not_lt.mpr k3)
  · subst hi
    simp [Rec.toInput, deltaRec, hN']

/-- C77: and the model has every value it reads.  The forcing object of a record with harmless blanks has all values a run
step reads, equal to those of the complete record; so have the deltas; and so has the working forcing after the
precipitation of the level was set, after a change of the vapour pressure, and after the deltas were added. -/
theorem C77_values_read_are_present (n1 n2 : NRec) (r1 r2 : Rec) (i1 i2 : InputData) (ts : TstepInfo)
    (h1 : n1.TakenAs r1) (h2 : n2.TakenAs r2) (e1 : InputData.new r1 = .ok i1) (e2 : InputData.new r2 = .ok i2)
    (hN : 0 < ts.intervals_per_timestep) :
    ∃ d1 d2 dl dl', NInput.new n1 = .ok d1 ∧ NInput.new n2 = .ok d2 ∧ nDeltaFor d1 d2 ts = .ok dl ∧
      deltaFor i1 i2 ts = .ok dl' ∧ d1.ReadsAs i1 ∧ d2.ReadsAs i2 ∧
      ∀ (d : NInput) (i : InputData), i.precip_now = i1.precip_now → d.ReadsAs i →
        (∀ x, NInput.ReadsAs { d with e_a := some x } { i with e_a := x }) ∧
        NInput.ReadsAs (if d.precip_now then d.update_precip_deltas dl else d)
          (if i.precip_now then i.update_precip_deltas dl' else i) ∧
        NInput.ReadsAs (d.add_deltas dl) (i.add_deltas dl') := by
  obtain ⟨k1, k1'⟩ := h1.reads e1
  obtain ⟨k2, k2'⟩ := h2.reads e2
  obtain ⟨n, r, dl', t, q1, q2, q3, q4⟩ := h1.delta e1 k2' hN
  obtain ⟨q5, w1, w2, w3, w4, w5, w6, w7, w8⟩ := t.reads q3
  refine ⟨_, _, n.toNInput, dl', k1, k2, q1.trans q5, q2.trans q3, k1', k2', fun d i hp hd => ?_⟩
  obtain ⟨v1, v2, v3, v4, v5, v6, v7, v8⟩ := hd
  have hpd : i.precip_now = true → dl'.precip_now = true := fun h => by rw [q4, ← hp, h]
  refine ⟨fun x => ⟨v1, v2, v3, rfl, v5, v6, v7, v8⟩, ?_, ?_⟩
  · by_cases hi : i.precip_now = true
    · rw [if_pos (v7.trans hi), if_pos hi]
      obtain ⟨x1, x2, x3, x4, _⟩ := w8 (hpd hi)
      obtain ⟨_, _, _, _, y5, y6, y7, y8⟩ := v8 hi
      exact ⟨v1, v2, v3, v4, v5, v6, v7, fun _ => ⟨x1, x2, x3, x4, y5, y6, y7, y8⟩⟩
    · rw [if_neg (by rw [v7]; exact hi), if_neg hi]
      exact ⟨v1, v2, v3, v4, v5, v6, v7, v8⟩
  · refine ⟨?_, ?_, ?_, ?_, ?_, ?_, v7, fun hi => ?_⟩
    · simp only [NInput.add_deltas, NInput.update_precip_deltas, v1, w1]; rfl
    · simp only [NInput.add_deltas, NInput.update_precip_deltas, v2, w2]; rfl
    · simp only [NInput.add_deltas, NInput.update_precip_deltas, v3, w3]; rfl
    · simp only [NInput.add_deltas, NInput.update_precip_deltas, v4, w4]; rfl
    · simp only [NInput.add_deltas, NInput.update_precip_deltas, v5, w5]; rfl
    · simp only [NInput.add_deltas, NInput.update_precip_deltas, v6, w6]; rfl
    · obtain ⟨x1, x2, x3, x4, _⟩ := w8 (hpd hi)
      obtain ⟨_, _, _, _, y5, y6, y7, y8⟩ := v8 hi
      exact ⟨x1, x2, x3, x4, y5, y6, y7, y8⟩

/-- C77: a blank density is not harmless where rain falls on snow.  The record is accepted, no depth of snow is added, and
yet after precipitation on an existing snowcover both liquid water variables are missing; with all values present they
are what they should be. -/
theorem C77_blank_density_spoils_water (n : NRec) (m p x y v : ℝ) (hm : n.m_pp = some m) (hp : n.percent_snow = some p)
    (h0 : 0 < m) :
    (n.rho_snow = none → p ≤ 0 → ∃ d, NInput.new n = .ok d ∧ d.precip_now = true ∧ d.z_snow = some 0 ∧
      nPrecipWater v d (some x) (some y) = (none, none)) ∧
    (∀ d i z, NInput.new n = .ok d → d.ReadsAs i → z = x + h2o_left i.z_snow i.rho_snow (i.h2o_sat_snow * v) →
      nPrecipWater v d (some x) (some y) = (some z, some (y + (z + i.m_rain)))) := by
  refine ⟨fun hb hp0 => ?_, fun d i z hd hr hz => ?_⟩
  · have e2 : ¬0 < m * p := fun h => absurd ((mul_pos_iff_of_pos_left h0).mp h) (not_lt.mpr hp0)
    refine ⟨n.toNInput, ?_, by simp [NRec.toNInput, hm, h0],
      by simp only [NRec.toNInput, hm, hp, NVal.mul_some, NVal.lt_some, e2, and_false, if_false], ?_⟩
    · rw [nnew_eq, if_neg]
      rw [hm, hp, NVal.mul_some, NVal.lt_some, NVal.lt_some]
      exact fun h => e2 h.2.1
    · have e3 : n.toNInput.rho_snow = none := hb
      simp [nPrecipWater, nH2oLeft, e3]
  · have e1 : d.precip_now = true := by
      rw [nnew_ok hd]
      simp [NRec.toNInput, hm, h0]
    obtain ⟨_, _, _, _, _, _, k, k'⟩ := hr
    obtain ⟨_, _, k3, k4, k5, _, _, k8⟩ := k' (k.symm.trans e1)
    subst hz
    simp [nPrecipWater, nH2oLeft, k3, k4, k5, k8, h2o_left]

end

end Pysnobal
