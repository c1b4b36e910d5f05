import Verif.Lemmas.HleTotal
import Verif.PySnobal
import Mathlib.Analysis.Calculus.Deriv.MeanValue
import Mathlib.Analysis.SpecialFunctions.Trigonometric.ArctanDeriv
import Mathlib.Analysis.SpecialFunctions.Log.Deriv

/-! # C36, C37, C39, C50: stability functions, conduction, pressure, radiation and advection -/

namespace Pysnobal

noncomputable section

/-! ## C36 -/

/-- The momentum stability function in unstable air as a function of `x = (1 - 16 ζ)^(1/4)`. -/
def psiSM (x : ℝ) : ℝ :=
  2 * Real.log ((1 + x) / 2) + Real.log ((1 + x * x) / 2) - 2 * Real.arctan x + Real.pi / 2

/-- The heat and vapour stability function in unstable air. -/
def psiSH (x : ℝ) : ℝ := 2 * Real.log ((1 + x * x) / 2)

/-- `(1 - 16 ζ)^(1/4)` as the code computes it. -/
def psiX (z : ℝ) : ℝ := Real.sqrt (Real.sqrt (1 - BETA_U * z))

theorem psiX_ge {z : ℝ} (h : z ≤ 0) : 1 ≤ psiX z := by
  unfold psiX BETA_U
  rw [Real.one_le_sqrt, Real.one_le_sqrt]
  linarith

theorem psiX_anti {y z : ℝ} (h : y ≤ z) : psiX z ≤ psiX y := by
  unfold psiX BETA_U
  apply Real.sqrt_le_sqrt
  apply Real.sqrt_le_sqrt
  linarith

theorem psiX_lt {y z : ℝ} (h : y < z) (hz : z ≤ 0) : psiX z < psiX y := by
  unfold psiX BETA_U
  apply Real.sqrt_lt_sqrt (Real.sqrt_nonneg _)
  apply Real.sqrt_lt_sqrt (by linarith)
  linarith

theorem psi_unstable {z : ℝ} (h : z < 0) (code : PsiCode) :
    psi z code = match code with
      | .SM => .ok (psiSM (psiX z))
      | .SH | .SV => .ok (psiSH (psiX z))
      | .other => .error .psiCode := by
  have hx := psiX_ge h.le
  have h1 : psqrt (1 - BETA_U * z) = .ok (Real.sqrt (1 - BETA_U * z)) :=
    psqrt_of_nonneg (by unfold BETA_U; linarith)
  have h2 : psqrt (Real.sqrt (1 - BETA_U * z)) = .ok (psiX z) := psqrt_of_nonneg (Real.sqrt_nonneg _)
  unfold psi
  rw [if_neg (not_lt.mpr h.le), if_pos h, h1, bind_ok, h2, bind_ok]
  have hx2 : 0 < 1 + psiX z * psiX z := by positivity
  cases code <;> simp [plog_of_pos (show 0 < (1 + psiX z) / 2 by linarith),
    plog_of_pos (show 0 < (1 + psiX z * psiX z) / 2 by linarith), psiSM, psiSH]

theorem psiSM_hasDeriv {x : ℝ} (h : 1 ≤ x) :
    HasDerivAt psiSM (2 / (1 + x) + 2 * (x - 1) / (1 + x ^ 2)) x := by
  have hx1 : (1 + x) / 2 ≠ 0 := by linarith
  have hx2 : (1 + x * x) / 2 ≠ 0 := by positivity
  have d1 : HasDerivAt (fun x : ℝ => (1 + x) / 2) (1 / 2) x := by
    simpa using ((hasDerivAt_id x).const_add 1).div_const 2
  have d2 : HasDerivAt (fun x : ℝ => (1 + x * x) / 2) ((1 * x + x * 1) / 2) x := by
    simpa using (((hasDerivAt_id x).mul (hasDerivAt_id x)).const_add 1).div_const 2
  have l1 := (d1.log hx1).const_mul 2
  have l2 := d2.log hx2
  have l3 := (Real.hasDerivAt_arctan x).const_mul 2
  have := ((l1.add l2).sub l3).add_const (Real.pi / 2)
  refine HasDerivAt.congr_deriv (f := psiSM) this ?_
  have a1 : (1 + x) ≠ 0 := by linarith
  have a2 : (1 + x ^ 2) ≠ 0 := by positivity
  have a3 : (1 + x * x) ≠ 0 := by positivity
  field_simp
  ring

theorem psiSM_strictMono : StrictMonoOn psiSM (Set.Ici 1) := by
  apply strictMonoOn_of_deriv_pos (convex_Ici 1)
  · exact fun x hx => (psiSM_hasDeriv hx).continuousAt.continuousWithinAt
  · intro x hx
    rw [interior_Ici, Set.mem_Ioi] at hx
    rw [(psiSM_hasDeriv hx.le).deriv]
    have : 0 ≤ 2 * (x - 1) / (1 + x ^ 2) := div_nonneg (by linarith) (by positivity)
    have : 0 < 2 / (1 + x) := div_pos (by norm_num) (by linarith)
    linarith

theorem psiSM_one : psiSM 1 = 0 := by
  unfold psiSM
  norm_num [Real.arctan_one]
  ring

theorem psiSH_strictMono : StrictMonoOn psiSH (Set.Ici 1) := by
  intro x hx y hy hxy
  rw [Set.mem_Ici] at hx hy
  unfold psiSH
  have : Real.log ((1 + x * x) / 2) < Real.log ((1 + y * y) / 2) :=
    Real.log_lt_log (by positivity) (by nlinarith)
  linarith

theorem psiSH_one : psiSH 1 = 0 := by unfold psiSH; norm_num

/-- C36: stable air gives a value in [-5.2, 0), neutral air 0, and unstable air a positive value. -/
theorem C36_sign_and_range (z p : ℝ) (code : PsiCode) (h : psi z code = .ok p) :
    (0 < z → -5.2 ≤ p ∧ p < 0) ∧ (z = 0 → p = 0) ∧ (z < 0 → 0 < p) := by
  refine ⟨fun hz => ?_, fun hz => ?_, fun hz => ?_⟩
  · unfold psi at h
    rw [if_pos hz] at h
    dsimp only at h
    cases h
    unfold BETA_S
    split
    · norm_num
    · constructor <;> linarith
  · subst hz
    simp [psi] at h
    exact h.symm
  · rw [psi_unstable hz] at h
    have h1 : 1 < psiX z := by
      have := psiX_lt hz (le_refl 0)
      have h0 : psiX 0 = 1 := by simp [psiX]
      rwa [h0] at this
    have m1 := psiSM_strictMono (Set.mem_Ici.mpr (le_refl (1 : ℝ))) (Set.mem_Ici.mpr h1.le) h1
    have m2 := psiSH_strictMono (Set.mem_Ici.mpr (le_refl (1 : ℝ))) (Set.mem_Ici.mpr h1.le) h1
    rw [psiSM_one] at m1
    rw [psiSH_one] at m2
    cases code <;> simp at h <;> subst h <;> assumption

/-- C36: the stability functions decrease as stability increases. -/
theorem C36_antitone (y z p q : ℝ) (code : PsiCode) (hyz : y ≤ z)
    (hp : psi y code = .ok p) (hq : psi z code = .ok q) : q ≤ p := by
  obtain ⟨p1, p2, p3⟩ := C36_sign_and_range y p code hp
  obtain ⟨q1, q2, q3⟩ := C36_sign_and_range z q code hq
  rcases lt_trichotomy y 0 with hy | hy | hy
  · rcases lt_trichotomy z 0 with hz | hz | hz
    · rw [psi_unstable hy] at hp
      rw [psi_unstable hz] at hq
      have hx := psiX_anti hyz
      have m1 := psiSM_strictMono.monotoneOn (Set.mem_Ici.mpr (psiX_ge hz.le))
        (Set.mem_Ici.mpr (psiX_ge hy.le)) hx
      have m2 := psiSH_strictMono.monotoneOn (Set.mem_Ici.mpr (psiX_ge hz.le))
        (Set.mem_Ici.mpr (psiX_ge hy.le)) hx
      cases code <;> simp at hp hq <;> subst hp <;> subst hq <;> assumption
    · rw [q2 hz]; exact (p3 hy).le
    · exact (q1 hz).2.le.trans (p3 hy).le
  · rw [p2 hy]
    rcases eq_or_lt_of_le (hy ▸ hyz : 0 ≤ z) with hz | hz
    · rw [q2 hz.symm]
    · exact (q1 hz).2.le
  · have hz : 0 < z := by linarith
    unfold psi at hp hq
    rw [if_pos hy] at hp
    rw [if_pos hz] at hq
    dsimp only at hp hq
    cases hp
    cases hq
    unfold BETA_S
    split <;> split <;> linarith

/-- C36: an unknown code raises exactly in unstable air; a known code never raises. -/
theorem C36_codes (z : ℝ) (code : PsiCode) :
    (code ≠ .other → ∃ p, psi z code = .ok p) ∧
    (psi z .other = .error .psiCode ↔ z < 0) ∧ (0 ≤ z → psi z .other = psi z .SM) := by
  refine ⟨fun hc => ?_, ⟨fun h => ?_, fun h => ?_⟩, fun h => ?_⟩
  · by_cases hz : z < 0
    · rw [psi_unstable hz]
      cases code
      · exact ⟨_, rfl⟩
      · exact ⟨_, rfl⟩
      · exact ⟨_, rfl⟩
      · exact absurd rfl hc
    · unfold psi
      split
      · exact ⟨_, rfl⟩
      · exact ⟨_, rfl⟩
  · by_contra hz
    unfold psi at h
    split at h
    · cases h
    · cases h
  · rw [psi_unstable h]
  · unfold psi
    split
    · rfl
    · rw [if_neg (not_lt.mpr h), if_neg (not_lt.mpr h)]

/-- non-vacuity: a stable and an unstable argument -/
example : (∃ p, psi 0.5 .SM = .ok p ∧ p < 0) ∧ (∃ p, psi (-0.5) .SM = .ok p ∧ 0 < p) := by
  obtain ⟨p, hp⟩ := (C36_codes 0.5 .SM).1 (by decide)
  obtain ⟨q, hq⟩ := (C36_codes (-0.5) .SM).1 (by decide)
  exact ⟨⟨p, hp, ((C36_sign_and_range _ _ _ hp).1 (by norm_num)).2⟩,
    ⟨q, hq, (C36_sign_and_range _ _ _ hq).2.2 (by norm_num)⟩⟩

/-! ## C37 -/

/-- C37: heat flows towards the colder layer: `ssxfr` has the sign of `t2 - t1`, is zero exactly when
the temperatures are equal, and never exceeds the flux through either layer alone. -/
theorem C37_conduction (k1 k2 t1 t2 d1 d2 : ℝ) (hk1 : 0 < k1) (hk2 : 0 < k2) (hd1 : 0 < d1) (hd2 : 0 < d2) :
    ∃ q, ssxfr k1 k2 t1 t2 d1 d2 = .ok q ∧ (0 < q ↔ t1 < t2) ∧ (q < 0 ↔ t2 < t1) ∧ (q = 0 ↔ t1 = t2) ∧
      |q| ≤ 2 * k1 / d1 * |t2 - t1| ∧ |q| ≤ 2 * k2 / d2 * |t2 - t1| ∧
      ssxfr k2 k1 t2 t1 d2 d1 = .ok (-q) := by
  have hden : 0 < k2 * d1 + k1 * d2 := by positivity
  have hden' : 0 < k1 * d2 + k2 * d1 := by positivity
  have hkk : 0 < k1 * k2 := mul_pos hk1 hk2
  refine ⟨_, pdiv_of_ne hden.ne', ?_, ?_, ?_, ?_, ?_, ?_⟩
  · rw [div_pos_iff_of_pos_right hden]
    constructor
    · intro h
      by_contra hc
      nlinarith
    · intro h
      have := mul_pos hkk (sub_pos.mpr h)
      linarith
  · constructor
    · intro h
      by_contra hc
      have := mul_nonneg hkk.le (sub_nonneg.mpr (not_lt.mp hc))
      exact absurd h (not_lt.mpr (div_nonneg (by linarith) hden.le))
    · intro h
      apply div_neg_of_neg_of_pos _ hden
      have := mul_pos hkk (sub_pos.mpr h)
      nlinarith
  · rw [div_eq_zero_iff]
    constructor
    · rintro (h | h)
      · have : t2 - t1 = 0 := by
          rcases mul_eq_zero.mp h with h | h
          · norm_num at h
          · rcases mul_eq_zero.mp h with h | h
            · exact absurd h hkk.ne'
            · exact h
        linarith
      · exact absurd h hden.ne'
    · intro h
      left
      rw [h]; ring
  · rw [abs_div, abs_of_pos hden, abs_mul, abs_mul, abs_of_pos hkk, div_le_iff₀ hden]
    rw [show |(2 : ℝ)| = 2 by norm_num]
    have e : 2 * k1 / d1 * |t2 - t1| * (k2 * d1 + k1 * d2) =
        2 * (k1 * k2 * |t2 - t1|) + 2 * k1 / d1 * |t2 - t1| * (k1 * d2) := by
      field_simp
    rw [e]
    have : 0 ≤ 2 * k1 / d1 * |t2 - t1| * (k1 * d2) := by positivity
    linarith
  · rw [abs_div, abs_of_pos hden, abs_mul, abs_mul, abs_of_pos hkk, div_le_iff₀ hden]
    rw [show |(2 : ℝ)| = 2 by norm_num]
    have e : 2 * k2 / d2 * |t2 - t1| * (k2 * d1 + k1 * d2) =
        2 * (k1 * k2 * |t2 - t1|) + 2 * k2 / d2 * |t2 - t1| * (k2 * d1) := by
      field_simp
      ring
    rw [e]
    have : 0 ≤ 2 * k2 / d2 * |t2 - t1| * (k2 * d1) := by positivity
    linarith
  · unfold ssxfr
    rw [pdiv_of_ne hden'.ne']
    congr 1
    rw [← neg_div, add_comm (k1 * d2)]
    congr 1
    ring

/-- C37: vapour diffusion only adds to a layer's conductivity. -/
theorem C37_effective_conductivity (k t P e : ℝ) (he : 0 ≤ e) (hP : e < P) (ht0 : 0 ≤ t) (ht : t ≤ 1000) :
    ∃ x, efcon k t P (some e) = .ok x ∧ k ≤ x ∧ (0 < e → 0 < t → k < x) := by
  have hP0 : 0 < P := by linarith
  have hq : mix_ratio e P = .ok (MOL_H2O / MOL_AIR * e / (P - e)) := pdiv_of_ne (by linarith)
  have hr : diffusion_coef P t = .ok (0.65 * (SEA_LEVEL / P) * (t / FREEZE) ^ 14 * (0.01 * 0.01)) := by
    unfold diffusion_coef
    rw [pdiv_of_ne hP0.ne']
    rfl
  have hsl : (0 : ℝ) < SEA_LEVEL := by norm_num [SEA_LEVEL]
  have hf := freeze_pos
  have hma := molair_pos
  have hmw := molh2o_pos
  have hPe : 0 < P - e := by linarith
  have lv : 0 < lh_vap t := by unfold lh_vap FREEZE; nlinarith
  have ls : 0 < lh_sub t := by unfold lh_sub lh_vap lh_fus FREEZE; nlinarith
  unfold efcon
  rw [hr, bind_ok]
  dsimp only
  rw [pure_ok, bind_ok, hq, bind_ok, pure_ok]
  have hl : 0 < (if t > FREEZE then lh_vap t
      else if t = FREEZE then (lh_vap t + lh_sub t) / 2 else lh_sub t) := by
    split
    · exact lv
    · split
      · linarith
      · exact ls
  refine ⟨_, rfl, ?_, fun he' ht' => ?_⟩
  · have : 0 ≤ (if t > FREEZE then lh_vap t
      else if t = FREEZE then (lh_vap t + lh_sub t) / 2 else lh_sub t) *
        (0.65 * (SEA_LEVEL / P) * (t / FREEZE) ^ 14 * (0.01 * 0.01)) * (MOL_H2O / MOL_AIR * e / (P - e)) := by
      apply mul_nonneg (mul_nonneg hl.le (by positivity))
      positivity
    linarith
  · have : 0 < (if t > FREEZE then lh_vap t
      else if t = FREEZE then (lh_vap t + lh_sub t) / 2 else lh_sub t) *
        (0.65 * (SEA_LEVEL / P) * (t / FREEZE) ^ 14 * (0.01 * 0.01)) * (MOL_H2O / MOL_AIR * e / (P - e)) := by
      apply mul_pos (mul_pos hl (by positivity))
      positivity
    linarith

/-- non-vacuity -/
example : ∃ q, ssxfr 1 2 260 270 0.25 0.5 = .ok q ∧ 0 < q := by
  obtain ⟨q, h1, h2, _⟩ := C37_conduction 1 2 260 270 0.25 0.5 (by norm_num) (by norm_num) (by norm_num)
    (by norm_num)
  exact ⟨q, h1, h2.mpr (by norm_num)⟩

/-! ## C39 -/

/-- The exponent of the standard atmosphere is negative (about -5.26). -/
theorem std_exponent_neg : GRAVITY * MOL_AIR / (RGAS * STD_LAPSE * 0.001) < 0 := by
  norm_num [GRAVITY, MOL_AIR, RGAS, STD_LAPSE]

/-- The air pressure `Snobal.__init__` computes for an elevation in metres. -/
def stdPressure (elevation : ℝ) : Except Err ℝ :=
  hysat SEA_LEVEL STD_AIRTMP STD_LAPSE (elevation / 1000) GRAVITY MOL_AIR

theorem stdPressure_eq {z : ℝ} (h : z < 288000 / 6.5) :
    0 < 288 / (288 - 6.5 * (z / 1000)) ∧
    stdPressure z = .ok (SEA_LEVEL * (288 / (288 - 6.5 * (z / 1000))) ^
      (GRAVITY * MOL_AIR / (RGAS * STD_LAPSE * 0.001))) := by
  have hd : 0 < 288 - 6.5 * (z / 1000) := by
    have := (lt_div_iff₀ (by norm_num : (0 : ℝ) < 6.5)).mp h
    linarith
  have hb : 0 < 288 / (288 - 6.5 * (z / 1000)) := div_pos (by norm_num) hd
  have e : STD_AIRTMP + STD_LAPSE * (z / 1000) = 288 - 6.5 * (z / 1000) := by
    unfold STD_AIRTMP STD_LAPSE; ring
  refine ⟨hb, ?_⟩
  unfold stdPressure hysat
  rw [if_neg (by norm_num [STD_LAPSE]), e, pdiv_of_ne hd.ne', bind_ok,
    pdiv_of_ne (by norm_num [RGAS, STD_LAPSE]), bind_ok]
  have : STD_AIRTMP = 288 := rfl
  rw [this, if_neg (not_lt.mpr hb.le)]
  rfl

/-- C39: sea level pressure at elevation 0. -/
theorem C39_sea_level : stdPressure 0 = .ok 101324.6 := by
  obtain ⟨_, h⟩ := stdPressure_eq (z := 0) (by norm_num)
  rw [h]
  norm_num [SEA_LEVEL]

/-- C39: the pressure is defined exactly below 44 307.7 m, where it is positive. -/
theorem C39_domain (z : ℝ) : (∃ p, stdPressure z = .ok p ∧ 0 < p) ↔ z < 288000 / 6.5 := by
  constructor
  · rintro ⟨p, h, _⟩
    by_contra hc
    have hc' : 288 - 6.5 * (z / 1000) ≤ 0 := by
      have := not_lt.mp hc
      rw [div_le_iff₀ (by norm_num)] at this
      linarith
    have e : STD_AIRTMP + STD_LAPSE * (z / 1000) = 288 - 6.5 * (z / 1000) := by
      unfold STD_AIRTMP STD_LAPSE; ring
    unfold stdPressure hysat at h
    rw [if_neg (by norm_num [STD_LAPSE]), e] at h
    obtain ⟨b, hb, h⟩ := bind_eq_ok.mp h
    obtain ⟨hb1, hb2⟩ := pdiv_eq_ok.mp hb
    obtain ⟨x, _, h⟩ := bind_eq_ok.mp h
    have : b < 0 := by
      rw [hb2]
      exact div_neg_of_pos_of_neg (by norm_num [STD_AIRTMP]) (lt_of_le_of_ne hc' hb1)
    rw [if_pos this] at h
    cases h
  · intro h
    obtain ⟨hb, e⟩ := stdPressure_eq h
    exact ⟨_, e, mul_pos (by norm_num [SEA_LEVEL]) (Real.rpow_pos_of_pos hb _)⟩

/-- C39: pressure strictly decreases with elevation. -/
theorem C39_decreasing (y z p q : ℝ) (hyz : y < z) (hp : stdPressure y = .ok p) (hq : stdPressure z = .ok q)
    (hz : z < 288000 / 6.5) : q < p := by
  obtain ⟨hy1, hy2⟩ := stdPressure_eq (hyz.trans hz)
  obtain ⟨hz1, hz2⟩ := stdPressure_eq hz
  rw [hp] at hy2
  rw [hq] at hz2
  cases hy2
  cases hz2
  have hd : 0 < 288 - 6.5 * (z / 1000) := by
    have := (lt_div_iff₀ (by norm_num : (0 : ℝ) < 6.5)).mp hz
    linarith
  have h1 : 288 / (288 - 6.5 * (y / 1000)) < 288 / (288 - 6.5 * (z / 1000)) :=
    div_lt_div_of_pos_left (by norm_num) hd (by linarith)
  have := Real.rpow_lt_rpow_of_neg hy1 h1 std_exponent_neg
  exact mul_lt_mul_of_pos_left this (by norm_num [SEA_LEVEL])

/-- C39 for a simulation: the air pressure used throughout a run is that of the standard atmosphere at the
configured elevation; a site cannot be set up at or above 44 307.7 m; of two sites the higher one has the
lower pressure. -/
theorem C39_run_pressure (g : Config) :
    ((∃ c, mkEnv g = .ok c) ↔ g.elevation < 288000 / 6.5) ∧
    (∀ c, mkEnv g = .ok c → 0 < c.P_a ∧
      c.P_a = 101324.6 * (288 / (288 - 6.5 * (g.elevation / 1000))) ^
        (GRAVITY * MOL_AIR / (RGAS * STD_LAPSE * 0.001))) ∧
    (∀ g' c c', mkEnv g = .ok c → mkEnv g' = .ok c' → g.elevation < g'.elevation → c'.P_a < c.P_a) := by
  have hmk : ∀ (g : Config) c, mkEnv g = .ok c → stdPressure g.elevation = .ok c.P_a := by
    intro g c h
    unfold mkEnv at h
    obtain ⟨p, hp, h⟩ := bind_eq_ok.mp h
    cases h
    exact hp
  have hval : ∀ z p, stdPressure z = .ok p → 0 < p ∧ z < 288000 / 6.5 := by
    intro z p h
    by_cases hz : z < 288000 / 6.5
    · obtain ⟨q, h1, h2⟩ := (C39_domain z).mpr hz
      rw [h] at h1
      cases h1
      exact ⟨h2, hz⟩
    · exfalso
      have hc' : 288 - 6.5 * (z / 1000) ≤ 0 := by
        have := not_lt.mp hz
        rw [div_le_iff₀ (by norm_num)] at this
        linarith
      have e : STD_AIRTMP + STD_LAPSE * (z / 1000) = 288 - 6.5 * (z / 1000) := by
        unfold STD_AIRTMP STD_LAPSE; ring
      unfold stdPressure hysat at h
      rw [if_neg (by norm_num [STD_LAPSE]), e] at h
      obtain ⟨b, hb, h⟩ := bind_eq_ok.mp h
      obtain ⟨hb1, hb2⟩ := pdiv_eq_ok.mp hb
      obtain ⟨x, _, h⟩ := bind_eq_ok.mp h
      have : b < 0 := by
        rw [hb2]
        exact div_neg_of_pos_of_neg (by norm_num [STD_AIRTMP]) (lt_of_le_of_ne hc' hb1)
      rw [if_pos this] at h
      cases h
  refine ⟨⟨?_, fun h => ?_⟩, fun c h => ?_, fun g' c c' h h' hlt => ?_⟩
  · rintro ⟨c, h⟩
    exact (hval _ _ (hmk g c h)).2
  · obtain ⟨p, hp, _⟩ := (C39_domain _).mpr h
    unfold stdPressure at hp
    unfold mkEnv
    rw [hp]
    exact ⟨_, rfl⟩
  · obtain ⟨h1, h2⟩ := hval _ _ (hmk g c h)
    refine ⟨h1, ?_⟩
    obtain ⟨_, e⟩ := stdPressure_eq h2
    rw [hmk g c h] at e
    exact Except.ok.inj e
  · exact C39_decreasing _ _ _ _ hlt (hmk g c h) (hmk g' c' h') (hval _ _ (hmk g' c' h')).2

/-- non-vacuity: the test basin at about 2000 m -/
example : ∃ p, stdPressure 2000 = .ok p ∧ 0 < p ∧ p < 101324.6 := by
  obtain ⟨p, h1, h2⟩ := (C39_domain 2000).mpr (by norm_num)
  exact ⟨p, h1, h2, C39_decreasing 0 2000 _ p (by norm_num) C39_sea_level h1 (by norm_num)⟩

/-! ## C50 -/

/-- C50: net radiation strictly decreases as the snow surface warms, strictly increases with either
radiation term. -/
theorem C50_net_radiation_decreasing (i : InputData) (s r : Snow) (h0 : 0 ≤ s.t_s_0) (h : s.t_s_0 < r.t_s_0) :
    net_radiation i r < net_radiation i s := by
  have : s.t_s_0 ^ 4 < r.t_s_0 ^ 4 := pow_lt_pow_left₀ h h0 (by norm_num)
  unfold net_radiation SNOW_EMISSIVITY STEF_BOLTZ
  linarith

/-- C50: more incoming radiation of either kind gives more net radiation; a surface in radiative
equilibrium with the sky receives exactly the net short wave radiation. -/
theorem C50_net_radiation_forcing (i j : InputData) (s : Snow) :
    (i.S_n ≤ j.S_n → i.I_lw ≤ j.I_lw → net_radiation i s ≤ net_radiation j s) ∧
    (i.I_lw = STEF_BOLTZ * s.t_s_0 ^ 4 → net_radiation i s = i.S_n) := by
  unfold net_radiation SNOW_EMISSIVITY
  refine ⟨fun h1 h2 => by linarith, fun h => ?_⟩
  rw [h]; ring

/-- C50: without precipitation there is no advected heat; precipitation no colder than the snow surface
advects non-negative heat, and precipitation at the surface temperature none. -/
theorem C50_advection (i : InputData) (dt : ℝ) (s : Snow) (hdt : 0 < dt) :
    (i.precip_now = false → advec i dt s = .ok 0) ∧
    (i.precip_now = true → (i.m_rain = 0 ∨ 0 ≤ i.m_rain ∧ s.t_s_0 ≤ i.t_rain ∧ i.t_rain ≤ 1900) →
      (i.m_snow = 0 ∨ 0 ≤ i.m_snow ∧ s.t_s_0 ≤ i.t_snow ∧ 0 ≤ i.t_snow) →
      ∃ q, advec i dt s = .ok q ∧ 0 ≤ q) ∧
    (i.precip_now = true → (i.m_rain = 0 ∨ i.t_rain = s.t_s_0) → (i.m_snow = 0 ∨ i.t_snow = s.t_s_0) →
      advec i dt s = .ok 0) := by
  unfold advec
  refine ⟨fun h => by rw [h]; rfl, fun h h1 h2 => ?_, fun h h1 h2 => ?_⟩
  · rw [if_pos h, pdiv_of_ne hdt.ne']
    refine ⟨_, rfl, div_nonneg (add_nonneg ?_ ?_) hdt.le⟩
    · unfold heat_stor
      rcases h1 with h1 | ⟨h1, h3, h5⟩
      · simp [h1]
      apply mul_nonneg (mul_nonneg _ h1) (by linarith)
      unfold cp_water CP_W0 FREEZE
      linarith
    · unfold heat_stor
      rcases h2 with h2 | ⟨h2, h4, h6⟩
      · simp [h2]
      apply mul_nonneg (mul_nonneg _ h2) (by linarith)
      unfold cp_ice CAL_TO_J
      have : (0 : ℝ) ≤ 0.024928 + 0.00176 * i.t_snow := by linarith
      positivity
  · rw [if_pos h, pdiv_of_ne hdt.ne']
    congr 1
    unfold heat_stor
    rcases h1 with h1 | h1 <;> rcases h2 with h2 | h2 <;> rw [h1, h2] <;> simp

/-- C50: the rain of any accepted rain-only record brings heat to a snow surface at or below freezing,
strictly so if the surface is colder than freezing. -/
theorem C50_rain_warms (r : Rec) (i : InputData) (dt : ℝ) (s : Snow) (hdt : 0 < dt)
    (hi : InputData.new r = .ok i) (hpp : 0 < r.m_pp) (hps : r.percent_snow = 0) (htp : r.t_pp ≤ 1900)
    (hs : s.t_s_0 ≤ FREEZE) :
    ∃ q, advec i dt s = .ok q ∧ 0 ≤ q ∧ (s.t_s_0 < FREEZE → 0 < q) := by
  have key : i.precip_now = true ∧ i.m_rain = r.m_pp ∧ i.m_snow = 0 ∧ FREEZE ≤ i.t_rain ∧ i.t_rain ≤ 1900 := by
    unfold InputData.new InputData.precipitation_inputs at hi
    simp only [hps, mul_zero, sub_zero, gt_iff_lt, hpp, if_true, lt_irrefl, if_false, pure_ok, bind_ok,
      true_and, false_and] at hi
    by_cases hc : r.t_pp < FREEZE
    · simp [hc, hpp] at hi
      subst hi
      exact ⟨rfl, rfl, rfl, le_refl _, by norm_num [FREEZE]⟩
    · simp [hc, hpp] at hi
      subst hi
      exact ⟨rfl, rfl, rfl, not_lt.mp hc, htp⟩
  obtain ⟨k1, k2, k3, k4, k5⟩ := key
  have hcp : 0 < cp_water i.t_rain := by
    unfold cp_water CP_W0 FREEZE
    linarith
  have he : advec i dt s = .ok (cp_water i.t_rain * r.m_pp * (i.t_rain - s.t_s_0) / dt) := by
    unfold advec
    rw [if_pos k1, pdiv_of_ne hdt.ne', k2, k3]
    unfold heat_stor
    simp
  refine ⟨_, he, div_nonneg (mul_nonneg (mul_nonneg hcp.le hpp.le) (by linarith)) hdt.le, fun h => ?_⟩
  exact div_pos (mul_pos (mul_pos hcp hpp) (by linarith)) hdt

/-- non-vacuity: cold rain on a cold surface -/
example (s : Snow) : ∃ i q, InputData.new ⟨0, 0, 280, 500, 1, 280, 5, 0, 0, 270⟩ = .ok i ∧
    advec i 3600 { s with t_s_0 := 260 } = .ok q ∧ 0 < q := by
  obtain ⟨i, hi⟩ : ∃ i, InputData.new ⟨0, 0, 280, 500, 1, 280, 5, 0, 0, 270⟩ = .ok i := by
    norm_num [InputData.new, InputData.precipitation_inputs, FREEZE]
  obtain ⟨q, h1, _, h2⟩ := C50_rain_warms _ i 3600 { s with t_s_0 := 260 } (by norm_num) hi (by norm_num) rfl
    (by norm_num) (by norm_num [FREEZE])
  exact ⟨i, q, hi, h1, h2 (by norm_num [FREEZE])⟩

end

end Pysnobal
