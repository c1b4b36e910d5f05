import Verif.Lemmas.Config

/-! # Lemmas about `InputData` and `InputDeltas` -/

namespace Pysnobal

noncomputable section

/-- Closed form of an accepted record. -/
def Rec.toInput (r : Rec) : InputData :=
  { S_n := r.S_n
    I_lw := r.I_lw
    t_a := r.t_a
    e_a := r.e_a
    u := r.u
    t_g := r.t_g
    m_pp := r.m_pp
    percent_snow := r.percent_snow
    rho_snow := r.rho_snow
    t_pp := if 0 < r.m_pp ∧ 0 < r.m_pp - r.m_pp * r.percent_snow ∧ r.t_pp < FREEZE then FREEZE else r.t_pp
    m_snow := r.m_pp * r.percent_snow
    m_rain := r.m_pp - r.m_pp * r.percent_snow
    z_snow := if 0 < r.m_pp ∧ 0 < r.m_pp * r.percent_snow then r.m_pp * r.percent_snow / r.rho_snow else 0
    h2o_sat_snow := if 0 < r.m_pp ∧ 0 < r.m_pp * r.percent_snow ∧
        (0 < r.m_pp - r.m_pp * r.percent_snow ∨ FREEZE ≤ r.t_pp) then 1 else 0
    t_rain := if 0 < r.m_pp ∧ 0 < r.m_pp - r.m_pp * r.percent_snow then
        (if r.t_pp < FREEZE then FREEZE else r.t_pp) else 0
    t_snow := if 0 < r.m_pp ∧ 0 < r.m_pp * r.percent_snow then
        (if 0 < r.m_pp - r.m_pp * r.percent_snow ∨ FREEZE ≤ r.t_pp then FREEZE else r.t_pp) else 0
    precip_now := decide (0 < r.m_pp) }

theorem new_eq (r : Rec) : InputData.new r =
    if 0 < r.m_pp ∧ 0 < r.m_pp * r.percent_snow ∧ r.rho_snow ≤ 0 then .error .rhoSnow
    else .ok r.toInput := by
  unfold InputData.new InputData.precipitation_inputs Rec.toInput
  by_cases h1 : 0 < r.m_pp
  · by_cases h2 : 0 < r.m_pp * r.percent_snow
    · by_cases h3 : r.rho_snow ≤ 0
      · simp [h1, h2, h3, not_lt.mpr h3]
      · have h3' := not_le.mp h3
        by_cases h4 : 0 < r.m_pp - r.m_pp * r.percent_snow
        · by_cases h5 : r.t_pp < FREEZE
          · simp [-mul_pos_iff_of_pos_left, -sub_pos, h1, h2, h3', h3, h3'.ne', h4, h5, not_lt.mpr, pdiv]
          · simp [-mul_pos_iff_of_pos_left, -sub_pos, h1, h2, h3', h3, h3'.ne', h4, h5, pdiv]
        · by_cases h5 : r.t_pp < FREEZE
          · simp [-mul_pos_iff_of_pos_left, -sub_pos, h1, h2, h3', h3, h3'.ne', h4, h5, not_le.mpr h5, pdiv]
          · simp [-mul_pos_iff_of_pos_left, -sub_pos, h1, h2, h3', h3, h3'.ne', h4, h5, not_lt.mp h5, pdiv]
    · by_cases h4 : 0 < r.m_pp - r.m_pp * r.percent_snow
      · by_cases h5 : r.t_pp < FREEZE <;>
          simp [-mul_pos_iff_of_pos_left, -sub_pos, h1, h2, h4, h5]
      · simp [-mul_pos_iff_of_pos_left, -sub_pos, h1, h2, h4]
  · simp [h1]

theorem new_ok {r : Rec} {d : InputData} (h : InputData.new r = .ok d) :
    d = r.toInput ∧ (0 < r.m_pp → 0 < r.m_pp * r.percent_snow → 0 < r.rho_snow) := by
  rw [new_eq] at h
  split at h
  · cases h
  · rename_i hc
    simp only [Except.ok.injEq] at h
    refine ⟨h.symm, fun h1 h2 => ?_⟩
    by_contra h3
    exact hc ⟨h1, h2, not_lt.mp h3⟩

/-- The record `InputDeltas.calculate` builds for a level with `n` intervals. -/
def deltaRec (i1 i2 : InputData) (n : ℝ) : Rec :=
  { S_n := (i2.S_n - i1.S_n) / n
    I_lw := (i2.I_lw - i1.I_lw) / n
    t_a := (i2.t_a - i1.t_a) / n
    e_a := (i2.e_a - i1.e_a) / n
    u := (i2.u - i1.u) / n
    t_g := (i2.t_g - i1.t_g) / n
    m_pp := i1.m_pp / n
    percent_snow := i1.percent_snow
    rho_snow := i1.rho_snow
    t_pp := i1.t_pp }

theorem deltaFor_eq (i1 i2 : InputData) (ts : TstepInfo) : deltaFor i1 i2 ts =
    if (ts.intervals_per_timestep : ℝ) = 0 then .error .zeroDivision
    else InputData.new (deltaRec i1 i2 ts.intervals_per_timestep) := by
  unfold deltaFor
  by_cases h : (ts.intervals_per_timestep : ℝ) = 0
  · simp [h, pdiv]
  · simp [h, pdiv, deltaRec]

theorem deltaFor_ok {i1 i2 : InputData} {ts : TstepInfo} {d : InputData}
    (h : deltaFor i1 i2 ts = .ok d) :
    (ts.intervals_per_timestep : ℝ) ≠ 0 ∧
      d = (deltaRec i1 i2 ts.intervals_per_timestep).toInput := by
  rw [deltaFor_eq] at h
  split at h
  · cases h
  · exact ⟨by assumption, (new_ok h).1⟩

/-- The share of each level's step in the data step: they add up to one. -/
theorem TileOK.share {ts : Tsteps} (ht : TileOK ts) {l : List Level}
    (hl : IsDataStep (ts .normal).intervals.toNat (ts .medium).intervals.toNat
      (ts .small).intervals.toNat l) :
    (l.map (fun lv => 1 / ((ts lv).intervals_per_timestep : ℝ))).sum = 1 := by
  have h1 := ht.m_pos
  have h2 := ht.s_pos
  have c1 : (((ts .medium).intervals.toNat : ℕ) : ℝ) = ((ts .medium).intervals : ℝ) := by
    have : (((ts .medium).intervals.toNat : ℕ) : ℤ) = (ts .medium).intervals :=
      Int.toNat_of_nonneg h1.le
    exact_mod_cast this
  have c2 : (((ts .small).intervals.toNat : ℕ) : ℝ) = ((ts .small).intervals : ℝ) := by
    have : (((ts .small).intervals.toNat : ℕ) : ℤ) = (ts .small).intervals :=
      Int.toNat_of_nonneg h2.le
    exact_mod_cast this
  have r1 : (0 : ℝ) < ((ts .medium).intervals : ℝ) := by exact_mod_cast h1
  have r2 : (0 : ℝ) < ((ts .small).intervals : ℝ) := by exact_mod_cast h2
  rw [IsDataStep.sum (fun lv => 1 / ((ts lv).intervals_per_timestep : ℝ)) ?_ ?_ hl]
  · simp [ht.n_normal, ht.ipt_normal]
  · simp only [nsmul_eq_mul, c2, ht.ipt_small, ht.ipt_medium]
    push_cast
    field_simp
  · simp only [nsmul_eq_mul, c1, ht.ipt_medium, ht.ipt_normal]
    push_cast
    field_simp

end

end Pysnobal
