import Verif.Props.Turbulence
import Verif.Props.Stability

/-! # C58: the turbulent fluxes solve the Monin–Obukhov profile equations; C59: moist air -/

namespace Pysnobal

noncomputable section

/-! ## Specification -/

/-- Mass of water vapour per mass of moist air at vapour pressure `e` and total pressure `P`. -/
def vapourFraction (e P : ℝ) : ℝ := MOL_H2O * e / (MOL_H2O * e + MOL_AIR * (P - e))

/-- Mass per volume of a mixture of dry air (partial pressure `P - e`) and water vapour (`e`) at temperature
`T`: the sum of two ideal gases. -/
def moistDensity (e P T : ℝ) : ℝ := MOL_AIR * (P - e) / (RGAS * T) + MOL_H2O * e / (RGAS * T)

/-- Stability function for momentum. -/
def psiM (ζ : ℝ) : ℝ :=
  if 0 ≤ ζ then -5.2 * min ζ 1
  else
    let x := √√(1 - 16 * ζ)
    2 * Real.log ((1 + x) / 2) + Real.log ((1 + x ^ 2) / 2) - 2 * Real.arctan x + Real.pi / 2

/-- Stability function for heat and vapour. -/
def psiH (ζ : ℝ) : ℝ :=
  if 0 ≤ ζ then -5.2 * min ζ 1 else 2 * Real.log ((1 + √(1 - 16 * ζ)) / 2)

/-- Potential temperature of the air, referred to the surface. -/
def HleIn.theta (a : HleIn) : ℝ := a.air_temp + GRAVITY / CP_AIR * a.za

/-- Density of the air at the geometric means of the temperatures and vapour pressures of air and surface. -/
def HleIn.density (a : HleIn) (ea : ℝ) : ℝ := moistDensity (√(ea * a.es)) a.press (√(a.theta * a.surface_temp))

/-- The logarithmic profile `log ((z - d) / z0)` above the displacement height `d = 4.9 z0`. -/
def HleIn.profile (a : HleIn) (z : ℝ) : ℝ := Real.log ((z - 4.9 * a.z0) / a.z0)

/-- Friction velocity `u`, heat flux `h` and vapour flux `e` agree with the profiles of wind, temperature and
humidity between the surface and the instruments at stability `w` (the inverse of the Obukhov length), the air
having the vapour pressure `ea`. -/
structure Profile (a : HleIn) (ea w u h e : ℝ) : Prop where
  wind : u * (a.profile a.zu - psiM (a.zu * w)) = 0.41 * a.wind_speed
  heat : h * (a.profile a.za - psiH (a.za * w)) =
    0.41 * u * a.density ea * CP_AIR * (a.theta - a.surface_temp)
  vapour : e * (a.profile a.zq - psiH (a.zq * w)) =
    0.41 * u * a.density ea * (vapourFraction ea a.press - vapourFraction a.es a.press)
  regular : a.profile a.zu - psiM (a.zu * w) ≠ 0 ∧ a.profile a.za - psiH (a.za * w) ≠ 0 ∧
    a.profile a.zq - psiH (a.zq * w) ≠ 0

/-- `w` is the inverse Obukhov length of the fluxes `u`, `h`, `e`. -/
def Obukhov (a : HleIn) (ea w u h e : ℝ) : Prop :=
  w * (u ^ 3 * a.density ea) = 0.41 * GRAVITY * (h / (a.theta * CP_AIR) + 0.61 * e) ∧ (u = 0 → w = 0)

/-- `w`, `u`, `h`, `e` are obtained in `n` passes of fixed-point iteration from the fluxes `u0`, `h0`, `e0`. -/
inductive Iterates (a : HleIn) (ea u0 h0 e0 : ℝ) : ℕ → ℝ → ℝ → ℝ → ℝ → Prop
  | first {w u h e : ℝ} : Obukhov a ea w u0 h0 e0 → Profile a ea w u h e → Iterates a ea u0 h0 e0 1 w u h e
  | next {n : ℕ} {w u h e w' u' h' e' : ℝ} : Iterates a ea u0 h0 e0 n w u h e → Obukhov a ea w' u h e →
      Profile a ea w' u' h' e' → Iterates a ea u0 h0 e0 (n + 1) w' u' h' e'

/-! ## C59 -/

theorem mol_pos : (0 : ℝ) < MOL_AIR ∧ (0 : ℝ) < MOL_H2O := by constructor <;> norm_num [MOL_AIR, MOL_H2O]

theorem spec_hum_spec {e P q : ℝ} (h : spec_hum e P = .ok q) : q = vapourFraction e P := by
  unfold spec_hum at h
  rw [pdiv_eq_ok] at h
  rw [h.2]
  unfold vapourFraction
  congr 1 <;> ring

/-- C59: for a vapour pressure below the total pressure, `spec_hum` returns the mass of vapour per mass of
moist air and `mix_ratio` the mass of vapour per mass of dry air. -/
theorem C59_humidity (e P : ℝ) (he : 0 < e) (hP : e < P) :
    (∃ q, spec_hum e P = .ok q ∧ q = MOL_H2O * e / (MOL_H2O * e + MOL_AIR * (P - e)) ∧ 0 < q ∧ q < 1) ∧
    (∃ x, mix_ratio e P = .ok x ∧ x = MOL_H2O * e / (MOL_AIR * (P - e)) ∧ 0 < x) := by
  obtain ⟨ha, hw⟩ := mol_pos
  have h1 : 0 < P - e := by linarith
  have h2 : 0 < MOL_AIR * (P - e) := mul_pos ha h1
  have h3 : 0 < MOL_H2O * e := mul_pos hw he
  constructor
  · obtain ⟨q, hq, _⟩ := spec_hum_of he hP
    have e1 := spec_hum_spec hq
    unfold vapourFraction at e1
    refine ⟨q, hq, e1, ?_, ?_⟩
    · rw [e1]; positivity
    · rw [e1, div_lt_one (by positivity)]; linarith
  · refine ⟨_, by unfold mix_ratio; rw [pdiv_of_ne h1.ne'], ?_, ?_⟩
    · field_simp
    · positivity

/-- C59: specific humidity strictly increases with vapour pressure. -/
theorem C59_humidity_increasing (e e' P q q' : ℝ) (he : 0 < e) (hee : e < e') (hP : e' < P)
    (hq : spec_hum e P = .ok q) (hq' : spec_hum e' P = .ok q') : q < q' :=
  spec_hum_lt he hee hP hq hq'

theorem virtual_density {T e P vt d : ℝ} (h1 : virtual_temperature T e P = .ok vt)
    (h2 : gas_density P MOL_AIR vt = .ok d) : d = moistDensity e P T := by
  unfold virtual_temperature at h1
  obtain ⟨r, hr, h1⟩ := bind_eq_ok.mp h1
  rw [pdiv_eq_ok] at hr h1
  unfold gas_density at h2
  rw [pdiv_eq_ok] at h2
  obtain ⟨hd, rfl⟩ := h2
  obtain ⟨hv, rfl⟩ := h1
  obtain ⟨hP, rfl⟩ := hr
  obtain ⟨ha, hw⟩ := mol_pos
  have hR : RGAS ≠ 0 := fun h => hd (by rw [h, zero_mul])
  have hT : T ≠ 0 := fun h => hd (by rw [h, zero_div, mul_zero])
  have ha' := ha.ne'
  unfold moistDensity
  rw [← mul_div_assoc, div_div_eq_mul_div]
  field_simp
  ring

/-- C59: the density computed from the virtual temperature is that of the mixture of dry air and vapour. -/
theorem C59_moist_air_density (T e P vt d : ℝ) (h1 : virtual_temperature T e P = .ok vt)
    (h2 : gas_density P MOL_AIR vt = .ok d) :
    d = MOL_AIR * (P - e) / (RGAS * T) + MOL_H2O * e / (RGAS * T) := virtual_density h1 h2

/-- C59: between absolute zero and boiling the latent heats are positive, decrease with temperature, and
sublimation takes as much as fusion and vaporisation together. -/
theorem C59_latent_heats (s t : ℝ) (h0 : 0 ≤ s) (hst : s < t) (ht : t ≤ BOIL) :
    lh_vap t < lh_vap s ∧ lh_fus t < lh_fus s ∧ 0 < lh_vap t ∧ 0 < lh_fus t ∧
    lh_sub s = lh_fus s + lh_vap s ∧ lh_fus FREEZE = 333600 ∧ lh_vap FREEZE = 2500000 := by
  unfold BOIL at ht
  unfold lh_sub lh_vap lh_fus FREEZE
  refine ⟨?_, ?_, ?_, ?_, ?_, ?_, ?_⟩ <;> first | linarith | norm_num

/-! ## C58 -/

theorem psi_momentum (ζ : ℝ) : psi ζ .SM = .ok (psiM ζ) := by
  unfold psi psiM BETA_S BETA_U
  rcases lt_trichotomy 0 ζ with h | h | h
  · rw [if_pos h, if_pos h.le]
    dsimp only
    congr 2
    split
    · rename_i h1; rw [min_eq_right h1.le]
    · rename_i h1; rw [min_eq_left (not_lt.mp h1)]
  · subst h; simp
  · rw [if_neg (by linarith), if_pos h, if_neg (not_le.mpr h)]
    have h1 : (0:ℝ) ≤ 1 - 16 * ζ := by linarith
    have h2 := Real.sqrt_nonneg (1 - 16 * ζ)
    have h3 := Real.sqrt_nonneg √(1 - 16 * ζ)
    rw [psqrt_of_nonneg h1, bind_ok, psqrt_of_nonneg h2, bind_ok]
    dsimp only
    rw [plog_of_pos (by positivity), bind_ok, plog_of_pos (by positivity), bind_ok, pure_ok]
    congr 1
    rw [pow_two]

theorem psi_heat (ζ : ℝ) : psi ζ .SH = .ok (psiH ζ) := by
  unfold psi psiH BETA_S BETA_U
  rcases lt_trichotomy 0 ζ with h | h | h
  · rw [if_pos h, if_pos h.le]
    dsimp only
    congr 2
    split
    · rename_i h1; rw [min_eq_right h1.le]
    · rename_i h1; rw [min_eq_left (not_lt.mp h1)]
  · subst h; simp
  · rw [if_neg (by linarith), if_pos h, if_neg (not_le.mpr h)]
    have h1 : (0:ℝ) ≤ 1 - 16 * ζ := by linarith
    have h2 := Real.sqrt_nonneg (1 - 16 * ζ)
    rw [psqrt_of_nonneg h1, bind_ok, psqrt_of_nonneg h2, bind_ok]
    dsimp only
    rw [Real.mul_self_sqrt h2, plog_of_pos (by positivity), bind_ok, pure_ok]

theorem psi_vapour (ζ : ℝ) : psi ζ .SV = .ok (psiH ζ) := by
  rw [← psi_heat]; unfold psi; rfl

/-- The inverse of an Obukhov length as `hle1` represents it. -/
def invLo : Option ℝ → ℝ
  | none => 0
  | some l => 1 / l

theorem psiAt_inv {z p : ℝ} {lo : Option ℝ} {code : PsiCode} (h : psiAt z lo code = .ok p) :
    psi (z * invLo lo) code = .ok p := by
  unfold psiAt at h
  cases lo with
  | none => simpa [invLo] using h
  | some l =>
    dsimp only at h
    split at h
    · cases h
    · rw [show z * invLo (some l) = z / l by unfold invLo; ring]; exact h

/-- One pass of the iteration. -/
theorem hleStep_profile {a : HleIn} {ea : ℝ} {k : HleConst} (hk : hleConst a ea = .ok k) {s s' : HleSt}
    (h : hleStep k s = .ok s') :
    Obukhov a ea (invLo s'.lo) s.ustar s.h s.e ∧ Profile a ea (invLo s'.lo) s'.ustar s'.h s'.e := by
  obtain ⟨qa, qs, vt, q1, q2, q3, q4, q5, q6, q7, q8, q9, _, l1, l2, l3, v1, v2⟩ := hleConst_ok hk
  obtain ⟨pm, pv, ph, p1, p2, p3, n1, n2, n3, e1, e2, e3, e4, e5⟩ := hleStep_ok h
  have ht : k.air_temp = a.theta := q4
  have hd : k.dens = a.density ea := by
    unfold HleIn.density
    rw [← ht]; exact virtual_density v1 v2
  have hlog : ∀ z : ℝ, Real.log ((z - 2 * PAESCHKE * a.z0 / 3) / a.z0) = a.profile z := fun z => by
    unfold HleIn.profile PAESCHKE
    congr 2; ring
  rw [hlog] at l1 l2 l3
  have r1 := psiAt_inv p1
  have r2 := psiAt_inv p2
  have r3 := psiAt_inv p3
  rw [← e1] at r1 r2 r3
  rw [psi_momentum, q8, Except.ok.injEq] at r1
  rw [psi_vapour, q7, Except.ok.injEq] at r2
  rw [psi_heat, q6, Except.ok.injEq] at r3
  rw [l1, ← r1] at n1 e2
  rw [l3, ← r2] at n2 e4
  rw [l2, ← r3] at n3 e5
  refine ⟨?_, ⟨?_, ?_, ?_, n1, n3, n2⟩⟩
  · have hlo := e1
    unfold hleLo at hlo
    dsimp only at hlo
    have hv : VON_KARMAN = 0.41 := rfl
    rw [hv, ht, hd] at hlo
    split at hlo
    · rename_i h0
      rw [hlo]
      refine ⟨?_, fun _ => rfl⟩
      rw [h0]; simp [invLo]
    · rename_i h0
      have hne : s.ustar * s.ustar * s.ustar * a.density ea /
          (0.41 * GRAVITY * (s.h / (a.theta * CP_AIR) + 0.61 * s.e)) ≠ 0 := by
        intro hz
        rw [← e1, hlo] at p1
        unfold psiAt at p1
        dsimp only at p1
        rw [if_pos hz] at p1
        cases p1
      rw [hlo]
      unfold invLo
      dsimp only
      have hn : s.ustar * s.ustar * s.ustar * a.density ea ≠ 0 := fun hz => hne (by rw [hz, zero_div])
      refine ⟨?_, fun hu => absurd (by rw [hu]; ring) hn⟩
      rw [one_div_div, show s.ustar ^ 3 * a.density ea = s.ustar * s.ustar * s.ustar * a.density ea by ring,
        div_mul_cancel₀ _ hn]
  · rw [e2, div_mul_cancel₀ _ n1, q9]; rfl
  · rw [e5, div_mul_cancel₀ _ n3, e3, q5, ht, hd]
    unfold AH VON_KARMAN; ring
  · rw [e4, div_mul_cancel₀ _ n2, e3, q3, hd, spec_hum_spec q1, spec_hum_spec q2]
    unfold AV VON_KARMAN; ring

theorem converged_inv {x y : Option ℝ} (h : hleConverged x y = true) :
    |1 / invLo x - 1 / invLo y| < 1e-5 ∧ |(1 / invLo x - 1 / invLo y) * invLo y| < 1e-5 := by
  unfold hleConverged THRESH at h
  cases x with
  | none => cases h
  | some x =>
    cases y with
    | none => cases h
    | some y =>
      simp only [decide_eq_true_eq] at h
      unfold invLo
      dsimp only
      rw [one_div_one_div, one_div_one_div, ← div_eq_mul_one_div]
      exact h

/-- The loop: `n` passes done, `m` to go. -/
theorem loop_iterates {a : HleIn} {ea : ℝ} {k : HleConst} (hk : hleConst a ea = .ok k) {u0 h0 e0 : ℝ} :
    ∀ (m n it : ℕ) (s : HleSt) (it' : ℕ) (s' : HleSt),
      Iterates a ea u0 h0 e0 n (invLo s.lo) s.ustar s.h s.e → hleLoop k m it s = .ok (it', s') →
      ∃ n', n ≤ n' ∧ n' ≤ n + m ∧ Iterates a ea u0 h0 e0 n' (invLo s'.lo) s'.ustar s'.h s'.e ∧
        (n' = n + m ∨ ∃ w u h e, Iterates a ea u0 h0 e0 (n' - 1) w u h e ∧ Obukhov a ea (invLo s'.lo) u h e ∧
          |1 / w - 1 / invLo s'.lo| < 1e-5 ∧ |(1 / w - 1 / invLo s'.lo) * invLo s'.lo| < 1e-5) := by
  intro m
  induction m with
  | zero =>
    intro n it s it' s' hi h
    simp only [hleLoop, Except.ok.injEq, Prod.mk.injEq] at h
    rw [← h.2]
    exact ⟨n, le_refl _, le_refl _, hi, .inl rfl⟩
  | succ m ih =>
    intro n it s it' s' hi h
    unfold hleLoop at h
    obtain ⟨s1, h1, h⟩ := bind_eq_ok.mp h
    obtain ⟨o, p⟩ := hleStep_profile hk h1
    have hn := Iterates.next hi o p
    split at h
    · rename_i hc
      simp only [pure_ok, Except.ok.injEq, Prod.mk.injEq] at h
      obtain ⟨rfl, rfl⟩ := h
      exact ⟨n + 1, by omega, by omega, hn, .inr ⟨_, _, _, _, hi, o, converged_inv hc⟩⟩
    · obtain ⟨n', b1, b2, b3, b4⟩ := ih (n + 1) (it + 1) s1 it' s' hn h
      exact ⟨n', by omega, by omega, b3, b4.imp (fun h => by omega) id⟩

/-- C58: the friction velocity and fluxes `hle1` returns satisfy the profile equations for wind, temperature and
humidity at one common stability `w`; they are obtained by at most 50 passes of fixed-point iteration, and
before the 50th pass the iteration only ends when two successive Obukhov lengths agree to 1e-5 (m and
relative). -/
theorem C58_profile_equations (a : HleIn) (r : HleOut) (h : hle1 a = .ok r) :
    ∃ sat ea w, satw a.air_temp = .ok sat ∧ ea = min a.ea sat ∧ Profile a ea w r.ustar r.h r.e ∧
      r.factor = 0.41 * r.ustar * a.density ea ∧
      ∃ u0 h0 e0 n, n ≤ 50 ∧ Iterates a ea u0 h0 e0 n w r.ustar r.h r.e ∧
        (n = 50 ∨ ∃ w' u' h' e', Iterates a ea u0 h0 e0 (n - 1) w' u' h' e' ∧ Obukhov a ea w u' h' e' ∧
          |1 / w' - 1 / w| < 1e-5 ∧ |(1 / w' - 1 / w) * w| < 1e-5) := by
  obtain ⟨ea, k, it, s, h1, h2, h3, r1, r2, r3, r4, _⟩ := hle1_ok h
  obtain ⟨_, _, _, _, _, _, _, _, _, _, _, sat, hs, _, he⟩ := hleCheck_ok h1
  obtain ⟨_, s0, hlo, hl⟩ := hleSolve_some h3
  have hl' := hl
  unfold ITMAX hleLoop at hl
  obtain ⟨s1, g1, hl⟩ := bind_eq_ok.mp hl
  obtain ⟨o, p⟩ := hleStep_profile h2 g1
  have hc : hleConverged s0.lo s1.lo = false := by rw [hlo]; rfl
  rw [hc] at hl
  simp only [Bool.false_eq_true, if_false] at hl
  obtain ⟨n', b1, b2, b3, b4⟩ := loop_iterates h2 49 1 (0 + 1) s1 it s (.first o p) hl
  obtain ⟨⟨sp, hsp⟩, _⟩ := hleLoop_last (n := 49) hl'
  have hp := (hleStep_profile h2 hsp).2
  have hf : r.factor = 0.41 * r.ustar * a.density ea := by
    obtain ⟨pm, pv, ph, _, _, _, _, _, _, _, _, e3, _⟩ := hleStep_ok hsp
    obtain ⟨qa, qs, vt, _, _, _, q4, _, _, _, _, _, _, _, _, _, v1, v2⟩ := hleConst_ok h2
    rw [r4, r3, e3]
    have : k.dens = a.density ea := by
      unfold HleIn.density
      rw [q4] at v1
      exact virtual_density v1 v2
    rw [this]; rfl
  rw [r1, r2, r3, ] at *
  exact ⟨sat, ea, invLo s.lo, hs, he, hp, hf, _, _, _, n', by omega, b3, b4.imp (fun h => by omega) id⟩

/-- C58: `hle1` returns for an input with wind, with a positive friction velocity, so the profile equations are
not those of still air. -/
example : ∃ r, hle1 stableIn = .ok r ∧ 0 < r.ustar ∧ 0 < r.h ∧ ∃ sat ea w, satw stableIn.air_temp = .ok sat ∧
    ea = min stableIn.ea sat ∧ Profile stableIn ea w r.ustar r.h r.e := by
  obtain ⟨v, h1, h2, h3, h4, h5⟩ := stableIn_ok
  have hq : 5.9 * stableIn.z0 < stableIn.zq := by norm_num [stableIn, calmIn]
  have ha : 5.9 * stableIn.z0 < stableIn.za := by norm_num [stableIn, calmIn]
  obtain ⟨r, ea, k, hr, _, _, _, _, _, _, _, hu, _, hh, _⟩ := C34_stable_fluxes _ v h1 hq ha h2 h3 h4 h5
  obtain ⟨sat, ea', w, g1, g2, g3, _⟩ := C58_profile_equations _ r hr
  exact ⟨r, hr, hu, hh, sat, ea', w, g1, g2, g3⟩

/-- C59: vapour at 500 Pa and 600 Pa in air at 80 kPa. -/
example : ∃ q q', spec_hum 500 80000 = .ok q ∧ spec_hum 600 80000 = .ok q' ∧ 0 < q ∧ q < q' ∧ q' < 1 ∧
    ∃ vt d, virtual_temperature 270 500 80000 = .ok vt ∧ gas_density 80000 MOL_AIR vt = .ok d ∧
      d = MOL_AIR * 79500 / (RGAS * 270) + MOL_H2O * 500 / (RGAS * 270) := by
  obtain ⟨⟨q, h1, _, h2, _⟩, _⟩ := C59_humidity 500 80000 (by norm_num) (by norm_num)
  obtain ⟨⟨q', h3, _, _, h4⟩, _⟩ := C59_humidity 600 80000 (by norm_num) (by norm_num)
  refine ⟨q, q', h1, h3, h2, C59_humidity_increasing 500 600 80000 q q' (by norm_num) (by norm_num)
    (by norm_num) h1 h3, h4, ?_⟩
  obtain ⟨ha, hw⟩ := mol_pos
  have hr : (500 : ℝ) * (1 - MOL_H2O / MOL_AIR) / 80000 < 1 := by norm_num [MOL_H2O, MOL_AIR]
  have hv : ∃ vt, virtual_temperature 270 500 80000 = .ok vt := by
    unfold virtual_temperature
    rw [pdiv_of_ne (by norm_num), bind_ok, pdiv_of_ne (by norm_num [MOL_H2O, MOL_AIR])]
    exact ⟨_, rfl⟩
  obtain ⟨vt, hv⟩ := hv
  have hd : ∃ d, gas_density 80000 MOL_AIR vt = .ok d := by
    unfold gas_density
    rw [pdiv_of_ne]
    · exact ⟨_, rfl⟩
    · unfold virtual_temperature at hv
      obtain ⟨r, hr, h1⟩ := bind_eq_ok.mp hv
      rw [pdiv_eq_ok] at hr h1
      rw [h1.2, hr.2]
      norm_num [RGAS, MOL_H2O, MOL_AIR]
  obtain ⟨d, hd⟩ := hd
  refine ⟨vt, d, hv, hd, ?_⟩
  rw [C59_moist_air_density 270 500 80000 vt d hv hd]
  norm_num

end

end Pysnobal
