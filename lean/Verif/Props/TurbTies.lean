import Verif.Props.Exchange
import Verif.Props.Unstable
import Verif.Props.Ties

/-! # C82: the turbulent-transfer routine raises only on exact ties

For valid input with the instruments more than 5.9 roughness lengths above the surface: the routine raises only if the
air has exactly the potential temperature of the surface, or if one of the (at most 50) passes of the iteration arrives
at a stability at which a profile vanishes exactly. -/

namespace Pysnobal

noncomputable section

/-! ## Specification -/

/-- One of the three profiles vanishes at stability `w` (the inverse of the Obukhov length). -/
def Singular (a : HleIn) (w : ℝ) : Prop :=
  a.profile a.zu = psiM (a.zu * w) ∨ a.profile a.zq = psiH (a.zq * w) ∨ a.profile a.za = psiH (a.za * w)

/-- The friction velocity `u` and the fluxes `h`, `e` with which the iteration starts: the first guesses handed in,
or those of the neutral wind profile. -/
def Started (a : HleIn) (ea u h e : ℝ) : Prop :=
  ∃ f, ((a.init_ustar = some u ∧ a.init_factor = some f) ∨
      (a.init_ustar = none ∧ a.init_factor = none ∧ u * a.profile a.zu = 0.41 * a.wind_speed ∧
        f = 0.41 * u * a.density ea)) ∧
    h * a.profile a.za = f * CP_AIR * (a.theta - a.surface_temp) ∧
    e * a.profile a.zq = f * (vapourFraction ea a.press - vapourFraction a.es a.press)

/-- Friction velocity and fluxes that the iteration reaches in `n` passes. -/
def Reached (a : HleIn) (ea : ℝ) (n : ℕ) (u h e : ℝ) : Prop :=
  ∃ u0 h0 e0, Started a ea u0 h0 e0 ∧
    ((n = 0 ∧ u = u0 ∧ h = h0 ∧ e = e0) ∨ ∃ w, Iterates a ea u0 h0 e0 n w u h e)

/-- The two ties on which the routine fails: air of exactly the potential temperature of the surface, or a pass of the
iteration, among the first 50, at whose (negative) Obukhov length a profile vanishes exactly. -/
def TurbTie (a : HleIn) (e : Err) : Prop :=
  (a.theta = a.surface_temp ∧ e = .unboundLocal) ∨
  (a.theta ≠ a.surface_temp ∧ e = .zeroDivision ∧ ∃ sat, satw a.air_temp = .ok sat ∧
    ∃ n u h' e' w, n < 50 ∧ Reached a (min a.ea sat) n u h' e' ∧ Obukhov a (min a.ea sat) w u h' e' ∧ w < 0 ∧
      Singular a w)

/-- What a run step hands to the turbulent-transfer routine: air `i`, snow `s`, the first guesses, the vapour pressure
`ea` of the air and that of the snow surface `es`. -/
def Env.exchangeIn (c : Env) (i : InputData) (s : Snow) (us f : Option ℝ) (ea es : ℝ) : HleIn :=
  { press := c.P_a, air_temp := i.t_a, surface_temp := s.t_s_0, za := if c.relative_hts then c.z_t else c.z_t - s.z_s
    ea := ea, es := es, zq := if c.relative_hts then c.z_t else c.z_t - s.z_s, wind_speed := i.u
    zu := if c.relative_hts then c.z_u else c.z_u - s.z_s, z0 := c.z_0, init_ustar := us, init_factor := f }

/-! ## One pass -/

theorem hleLo_obukhov {a : HleIn} {ea : ℝ} {k : HleConst} (hk : hleConst a ea = .ok k) (hd : 0 < k.dens) {s : HleSt}
    (hs : s.ustar = 0 → s.e = 0 ∧ s.h = 0) :
    Obukhov a ea (invLo (hleLo k s)) s.ustar s.h s.e ∧ ∀ l, hleLo k s = some l → l ≠ 0 := by
  obtain ⟨_, _, _, _, _, _, q4, _⟩ := hleConst_ok hk
  have ht : k.air_temp = a.theta := q4
  have hd' := density_of hk
  have hv : VON_KARMAN = 0.41 := rfl
  unfold hleLo
  dsimp only
  rw [hv, ht]
  split
  · rename_i h0
    refine ⟨⟨?_, fun _ => rfl⟩, fun l hl => by cases hl⟩
    rw [h0]; simp [invLo]
  · rename_i h0
    have hu : s.ustar ≠ 0 := by
      intro hu
      obtain ⟨e1, e2⟩ := hs hu
      apply h0
      rw [e1, e2]; simp
    have hn : s.ustar * s.ustar * s.ustar * k.dens ≠ 0 := by positivity
    refine ⟨⟨?_, fun h => absurd h hu⟩, fun l hl => ?_⟩
    · unfold invLo
      dsimp only
      rw [one_div_div, show s.ustar ^ 3 * a.density ea = s.ustar * s.ustar * s.ustar * k.dens by rw [hd']; ring,
        div_mul_cancel₀ _ hn]
    · cases hl
      exact div_ne_zero hn h0

theorem psiAt_eq {z : ℝ} {lo : Option ℝ} (h : ∀ l, lo = some l → l ≠ 0) (code : PsiCode) :
    psiAt z lo code = psi (z * invLo lo) code := by
  unfold psiAt invLo
  cases lo with
  | none => simp
  | some l =>
    dsimp only
    rw [if_neg (h l rfl)]
    congr 1; ring

/-- A pass that raises divides by zero at a vanishing profile. -/
theorem hleStep_raises {a : HleIn} {ea : ℝ} {k : HleConst} (hk : hleConst a ea = .ok k) (hd : 0 < k.dens) {s : HleSt}
    (hs : s.ustar = 0 → s.e = 0 ∧ s.h = 0) {e : Err} (h : hleStep k s = .error e) :
    e = .zeroDivision ∧ Singular a (invLo (hleLo k s)) := by
  obtain ⟨hob, hlo⟩ := hleLo_obukhov hk hd hs
  obtain ⟨qa, qs, vt, q1, q2, q3, q4, q5, q6, q7, q8, q9, _, l1, l2, l3, v1, v2⟩ := hleConst_ok hk
  have hlog : ∀ z : ℝ, Real.log ((z - 2 * PAESCHKE * a.z0 / 3) / a.z0) = a.profile z := fun z => by
    unfold HleIn.profile PAESCHKE
    congr 2; ring
  rw [hlog] at l1 l2 l3
  have hz : ∀ {x y : ℝ} {e : Err}, pdiv x y = .error e → e = .zeroDivision ∧ y = 0 := fun {x y e} h => by
    unfold pdiv at h
    split at h
    · cases h; exact ⟨rfl, ‹_›⟩
    · cases h
  unfold hleStep at h
  dsimp only at h
  rw [psiAt_eq hlo, psiAt_eq hlo, psiAt_eq hlo, psi_momentum, psi_vapour, psi_heat, bind_ok, q8, q7, q6] at h
  rcases bind_eq_error.mp h with h | ⟨_, _, h⟩
  · obtain ⟨h1, h2⟩ := hz h
    exact ⟨h1, .inl (by rw [← l1]; linarith)⟩
  rw [bind_ok] at h
  rcases bind_eq_error.mp h with h | ⟨_, _, h⟩
  · obtain ⟨h1, h2⟩ := hz h
    exact ⟨h1, .inr (.inl (by rw [← l3]; linarith))⟩
  rw [bind_ok] at h
  rcases bind_eq_error.mp h with h | ⟨_, _, h⟩
  · obtain ⟨h1, h2⟩ := hz h
    exact ⟨h1, .inr (.inr (by rw [← l2]; linarith))⟩
  cases h

/-- Without a vanishing profile the pass completes, and conversely. -/
theorem hleStep_ties {a : HleIn} {ea : ℝ} {k : HleConst} (hk : hleConst a ea = .ok k) (hd : 0 < k.dens) {s : HleSt}
    (hs : s.ustar = 0 → s.e = 0 ∧ s.h = 0) :
    hleStep k s = .error .zeroDivision ↔ Singular a (invLo (hleLo k s)) := by
  constructor
  · exact fun h => (hleStep_raises hk hd hs h).2
  · intro h
    cases hh : hleStep k s with
    | error e => rw [(hleStep_raises hk hd hs hh).1]
    | ok s' =>
      exfalso
      obtain ⟨_, p⟩ := hleStep_profile hk hh
      obtain ⟨_, _, _, _, _, _, _, _, _, e1, _⟩ := hleStep_ok hh
      have e1 : s'.lo = hleLo k s := e1
      rw [e1] at p
      obtain ⟨r1, r2, r3⟩ := p.regular
      rcases h with h | h | h
      · exact r1 (by rw [h, sub_self])
      · exact r3 (by rw [h, sub_self])
      · exact r2 (by rw [h, sub_self])

/-- A loop that raises does so in a pass it reaches. -/
theorem hleLoop_raises {a : HleIn} {ea : ℝ} {k : HleConst} (hk : hleConst a ea = .ok k) (hd : 0 < k.dens) {e : Err} :
    ∀ (m n it : ℕ) (s : HleSt), Reached a ea n s.ustar s.h s.e → (s.ustar = 0 → s.e = 0 ∧ s.h = 0) →
      hleLoop k m it s = .error e →
      e = .zeroDivision ∧ ∃ n' u h' e' w, n ≤ n' ∧ n' < n + m ∧ Reached a ea n' u h' e' ∧ Obukhov a ea w u h' e' ∧
        Singular a w := by
  intro m
  induction m with
  | zero => intro n it s _ _ h; cases h
  | succ m ih =>
    intro n it s hr hs h
    unfold hleLoop at h
    rcases bind_eq_error.mp h with h | ⟨s1, h1, h⟩
    · obtain ⟨k1, k2⟩ := hleStep_raises hk hd hs h
      exact ⟨k1, n, _, _, _, _, le_refl _, by omega, hr, (hleLo_obukhov hk hd hs).1, k2⟩
    · split at h
      · cases h
      · obtain ⟨o, p⟩ := hleStep_profile hk h1
        have hr1 : Reached a ea (n + 1) s1.ustar s1.h s1.e := by
          obtain ⟨u0, h0, e0, st, ⟨hn, x1, x2, x3⟩ | ⟨w, hi⟩⟩ := hr
          · subst hn
            refine ⟨u0, h0, e0, st, .inr ⟨_, .first ?_ p⟩⟩
            rw [← x1, ← x2, ← x3]; exact o
          · exact ⟨u0, h0, e0, st, .inr ⟨_, .next hi o p⟩⟩
        obtain ⟨_, _, _, _, _, _, _, _, _, _, f1, f2, f3, f4⟩ := hleStep_ok h1
        obtain ⟨c1, n', u, h', e', w, c2, c3, c4⟩ := ih (n + 1) (it + 1) s1 hr1 (fun h0 => by
          rw [f3, f4, f2, h0]; simp) h
        exact ⟨c1, n', u, h', e', w, by omega, by omega, c4⟩

theorem profile_pos {a : HleIn} (v : HleValid a) {z : ℝ} (hz : 5.9 * a.z0 < z) : 0 < a.profile z := by
  have := (profileArg_gt_one v.z0).mpr hz
  unfold HleIn.profile
  rw [show (z - 4.9 * a.z0) / a.z0 = (z - 2 * PAESCHKE * a.z0 / 3) / a.z0 by unfold PAESCHKE; ring]
  exact Real.log_pos this

/-- Profiles vanish only in unstable air. -/
theorem singular_unstable {a : HleIn} (v : HleValid a) (hu : 5.9 * a.z0 < a.zu) (hq : 5.9 * a.z0 < a.zq)
    (ha : 5.9 * a.z0 < a.za) {w : ℝ} (h : Singular a w) : w < 0 := by
  by_contra hw
  have hw0 := not_lt.mp hw
  have hz0 := v.z0
  have hM : ∀ ζ : ℝ, 0 ≤ ζ → psiM ζ ≤ 0 ∧ psiH ζ ≤ 0 := fun ζ hζ => by
    unfold psiM psiH
    rw [if_pos hζ, if_pos hζ]
    have : 0 ≤ min ζ 1 := le_min hζ zero_le_one
    constructor <;> linarith
  have hz : ∀ z : ℝ, 5.9 * a.z0 < z → 0 ≤ z * w := fun z hz => mul_nonneg (by linarith) hw0
  rcases h with h | h | h
  · linarith [profile_pos v hu, (hM _ (hz _ hu)).1]
  · linarith [profile_pos v hq, (hM _ (hz _ hq)).2]
  · linarith [profile_pos v ha, (hM _ (hz _ ha)).2]

/-- C82: valid input, instruments more than 5.9 roughness lengths above the surface, first guesses as the model passes
them on.  If `hle1` raises, then either the air has exactly the potential temperature of the surface (and the exception
is the `UnboundLocalError`), or it is a division by zero: the fluxes reached in fewer than 50 passes of the iteration
have a negative Obukhov length at which one of the profiles of wind, temperature and humidity vanishes exactly. -/
theorem C82_turbulence_raises (a : HleIn) (v : HleValid a) (hu : 5.9 * a.z0 < a.zu) (hq : 5.9 * a.z0 < a.zq)
    (ha : 5.9 * a.z0 < a.za) (hg : GuessOK a) (e : Err) (h : hle1 a = .error e) :
    TurbTie a e := by
  obtain ⟨sat, hs, hc⟩ := hleCheck_of v
  obtain ⟨k, hk, hd, _, _⟩ := hleConst_of v hc
  obtain ⟨qa, qs, vt, q1, q2, q3, q4, q5, q6, q7, q8, q9, _, l1, l2, l3, v1, v2⟩ := hleConst_ok hk
  have hlog : ∀ z : ℝ, Real.log ((z - 2 * PAESCHKE * a.z0 / 3) / a.z0) = a.profile z := fun z => by
    unfold HleIn.profile PAESCHKE
    congr 2; ring
  rw [hlog] at l1 l2 l3
  have pu := profile_pos v hu
  have pq := profile_pos v hq
  have pa := profile_pos v ha
  have ht : k.air_temp = a.theta := q4
  by_cases hne : a.theta = a.surface_temp
  · left
    refine ⟨hne, ?_⟩
    have := C32_neutral_raises a v (by intro q; linarith) (by intro q; linarith) (by intro q; linarith) hne
    rw [this] at h
    cases h; rfl
  · right
    refine ⟨hne, ?_⟩
    obtain ⟨us, f, c1, c2, c3, c4, c5⟩ := hleSolve_start (a := a) (k := k) (by rw [ht]; exact hne)
      (by rw [l1]; exact pu.ne') (by rw [l3]; exact pq.ne') (by rw [l2]; exact pa.ne')
    unfold hle1 at h
    rw [hc, bind_ok, hk, bind_ok, c5] at h
    cases hl : hleLoop k ITMAX 0 { lo := none, ustar := us, factor := f, e := k.q_diff * f * AV / k.ltsv
                                   h := k.t_diff * f * CP_AIR * AH / k.ltsh } with
    | ok r =>
      rw [hl] at h
      exfalso
      simp [Except.map, hleFinish] at h
    | error e' =>
      rw [hl] at h
      have : e' = e := by simpa [Except.map] using h
      subst this
      have hf0 : us = 0 → f = 0 := by
        rcases hg with ⟨g1, g2⟩ | ⟨u, f', g1, g2, _, g3⟩
        · intro h0; rw [c3 g2, h0]; simp
        · rw [c2 _ g1, c4 _ g2]; exact g3
      have hst : Started a (min a.ea sat) us (k.t_diff * f * CP_AIR * AH / k.ltsh) (k.q_diff * f * AV / k.ltsv) := by
        refine ⟨f, ?_, ?_, ?_⟩
        · rcases hg with ⟨g1, g2⟩ | ⟨u, f', g1, g2, _, g3⟩
          · refine .inr ⟨g1, g2, ?_, ?_⟩
            · rw [c1 g1, l1, div_mul_cancel₀ _ pu.ne']; rfl
            · rw [c3 g2, density_of hk]; rfl
          · exact .inl ⟨by rw [c2 _ g1, g1], by rw [c4 _ g2, g2]⟩
        · rw [l2, div_mul_cancel₀ _ pa.ne', q5, ht]; unfold AH; ring
        · rw [l3, div_mul_cancel₀ _ pq.ne', q3, spec_hum_spec q1, spec_hum_spec q2]; unfold AV; ring
      obtain ⟨k1, n', u, h', e', w, _, k2, k3, k4, k5⟩ := hleLoop_raises hk hd ITMAX 0 0 _
        ⟨us, _, _, hst, .inl ⟨rfl, rfl, rfl, rfl⟩⟩ (fun h0 => by
          have h0 : us = 0 := h0
          rw [hf0 h0]; simp) hl
      exact ⟨k1, sat, hs, n', u, h', e', w, by simpa [ITMAX] using k2, k3, k4, singular_unstable v hu hq ha k5, k5⟩

/-! ## Ties occur: a wind speed at which the routine fails -/

/-- Every positive value is a value of the stability function for momentum. -/
theorem psiM_surj {L : ℝ} (hL : 0 < L) : ∃ ζ : ℝ, ζ < 0 ∧ psiM ζ = L := by
  obtain ⟨X, hX⟩ : ∃ X : ℝ, X = 2 * Real.exp ((L + 2) / 2) := ⟨_, rfl⟩
  have he : 1 ≤ Real.exp ((L + 2) / 2) := Real.one_le_exp (by linarith)
  have h1X : 1 ≤ X := by rw [hX]; linarith
  have hbig : L ≤ psiSM X := by
    have l1 : (L + 2) / 2 ≤ Real.log ((1 + X) / 2) := by
      rw [Real.le_log_iff_exp_le (by linarith), hX]
      linarith
    have l2 : 0 ≤ Real.log ((1 + X * X) / 2) := Real.log_nonneg (by nlinarith)
    have l3 := Real.arctan_lt_pi_div_two X
    have l4 := Real.pi_le_four
    unfold psiSM
    linarith
  have hcont : ContinuousOn psiSM (Set.Icc 1 X) := fun x hx =>
    (psiSM_hasDeriv hx.1).continuousAt.continuousWithinAt
  obtain ⟨x, ⟨hx1, _⟩, hx⟩ := intermediate_value_Icc h1X hcont ⟨by rw [psiSM_one]; exact hL.le, hbig⟩
  have hx1' : 1 < x := lt_of_le_of_ne hx1 (by rintro rfl; rw [psiSM_one] at hx; linarith)
  have h4 : 1 < x ^ 4 := one_lt_pow₀ hx1' (by norm_num)
  refine ⟨(1 - x ^ 4) / 16, by linarith, ?_⟩
  have e : √√(1 - 16 * ((1 - x ^ 4) / 16)) = x := by
    rw [show 1 - 16 * ((1 - x ^ 4) / 16) = (x ^ 2) ^ 2 by ring, Real.sqrt_sq (by positivity),
      Real.sqrt_sq (by linarith)]
  unfold psiM
  rw [if_neg (by linarith), e, ← hx]
  unfold psiSM
  dsimp only
  rw [pow_two]

/-- C82, such ties exist in every moderate weather: for every valid input with temperature and humidity measured at one
height, heights above 5.9 roughness lengths and air heavier than the air at the surface (relative buoyancy `B`), there
is a positive wind speed for which the routine, started without a guess, raises a division by zero. -/
theorem C82_critical_wind (a : HleIn) (v : HleValid a) (hu : 5.9 * a.z0 < a.zu) (ha : 5.9 * a.z0 < a.za)
    (hq : a.zq = a.za) (ht : a.theta ≠ a.surface_temp) (sat : ℝ) (hs : satw a.air_temp = .ok sat) (B : ℝ)
    (eB : B = -((a.theta - a.surface_temp) / a.theta +
      0.61 * (vapourFraction (min a.ea sat) a.press - vapourFraction a.es a.press))) (hB : 0 < B) :
    ∃ U : ℝ, 0 < U ∧
      hle1 { a with wind_speed := U, init_ustar := none, init_factor := none } = .error .zeroDivision := by
  have pu := profile_pos v hu
  have pa := profile_pos v ha
  have hg := grav_pos
  have hcp := cpair_pos
  have hzu : 0 < a.zu := by have := v.z0; linarith
  obtain ⟨ζ, hζ, hψ⟩ := psiM_surj pu
  obtain ⟨w, hw⟩ : ∃ w, w = ζ / a.zu := ⟨_, rfl⟩
  have hw0 : w < 0 := by rw [hw]; exact div_neg_of_neg_of_pos hζ hzu
  have hzw : a.zu * w = ζ := by rw [hw]; field_simp
  obtain ⟨U, hU⟩ : ∃ U, U = √(GRAVITY * B * a.profile a.zu ^ 2 / (-w * a.profile a.za)) := ⟨_, rfl⟩
  have hnw : 0 < -w := by linarith
  have hq0 : 0 < GRAVITY * B * a.profile a.zu ^ 2 / (-w * a.profile a.za) := by positivity
  have hU0 : 0 < U := by rw [hU]; exact Real.sqrt_pos.mpr hq0
  have hU2 : U ^ 2 * (-w * a.profile a.za) = GRAVITY * B * a.profile a.zu ^ 2 := by
    rw [hU, Real.sq_sqrt hq0.le, div_mul_cancel₀]
    positivity
  refine ⟨U, hU0, ?_⟩
  obtain ⟨b, hb⟩ : ∃ b : HleIn, b = { a with wind_speed := U, init_ustar := none, init_factor := none } := ⟨_, rfl⟩
  rw [← hb]
  have vb : HleValid b := by
    rw [hb]
    exact ⟨v.z0, v.zu, v.zq, v.za, v.air, v.surf, v.ea, v.es, v.eaP, v.esP, v.sat⟩
  have bp : ∀ z, b.profile z = a.profile z := fun z => by rw [hb]; rfl
  have bθ : b.theta = a.theta := by rw [hb]; rfl
  have hθ0 : 0 < a.theta := by
    have := v.air
    have hza : 0 < a.za := by have := v.z0; linarith
    have := mul_pos (div_pos hg hcp) hza
    unfold HleIn.theta
    linarith
  obtain ⟨sat', hs', hc⟩ := hleCheck_of vb
  have : sat' = sat := by
    rw [hb] at hs'
    have : satw a.air_temp = .ok sat' := hs'
    rw [hs] at this; cases this; rfl
  subst this
  obtain ⟨k, hk, hd, _, _⟩ := hleConst_of vb hc
  obtain ⟨qa, qs, vt, q1, q2, q3, q4, q5, q6, q7, q8, q9, _, l1, l2, l3, v1, v2⟩ := hleConst_ok hk
  have hlog : ∀ z : ℝ, Real.log ((z - 2 * PAESCHKE * b.z0 / 3) / b.z0) = b.profile z := fun z => by
    unfold HleIn.profile PAESCHKE
    congr 2; ring
  rw [hlog, bp] at l1 l2 l3
  rw [spec_hum_spec q1, spec_hum_spec q2] at q3
  have et : k.air_temp = a.theta := by rw [← bθ]; exact q4
  have ezu : b.zu = a.zu := by rw [hb]
  have eza : b.za = a.za := by rw [hb]
  have ezq : b.zq = a.za := by rw [hb]; exact hq
  have esf : b.surface_temp = a.surface_temp := by rw [hb]
  have ews : b.wind_speed = U := by rw [hb]
  have eB' : B = -(k.t_diff / k.air_temp + 0.61 * k.q_diff) := by
    rw [eB, q5, q3, et, esf, hb]
  rw [ezu] at l1
  rw [eza] at l2
  rw [ezq] at l3
  obtain ⟨us, f, c1, _, c3, _, c5⟩ := hleSolve_start (a := b) (k := k) (by rw [et, esf]; exact ht)
    (by rw [l1]; exact pu.ne') (by rw [l3]; exact pa.ne') (by rw [l2]; exact pa.ne')
  have c1 := c1 (by rw [hb])
  have c3 := c3 (by rw [hb])
  rw [ews, l1] at c1
  have hvk := vk_pos
  have hus : 0 < us := by rw [c1]; positivity
  have hs0 : us = 0 → k.q_diff * f * AV / k.ltsv = 0 ∧ k.t_diff * f * CP_AIR * AH / k.ltsh = 0 := fun h => absurd h hus.ne'
  have hsing : Singular b (invLo (hleLo k { lo := none, ustar := us, factor := f, e := k.q_diff * f * AV / k.ltsv
                                            h := k.t_diff * f * CP_AIR * AH / k.ltsh })) := by
    obtain ⟨⟨ho, _⟩, _⟩ := hleLo_obukhov hk hd (s := { lo := none, ustar := us, factor := f, e := k.q_diff * f * AV / k.ltsv
                                                       h := k.t_diff * f * CP_AIR * AH / k.ltsh }) hs0
    dsimp only at ho
    left
    rw [ezu, bp, ← hψ]
    congr 1
    rw [← hzw]
    congr 1
    refine mul_right_cancel₀ (b := us ^ 3 * b.density (min b.ea sat')) ?_ (Eq.trans ?_ ho.symm)
    · rw [← density_of hk]; positivity
    rw [← density_of hk, bθ, ← et, l2, l3, show AV = 1 from rfl, show AH = 1 from rfl, c3]
    have ht0 : k.air_temp ≠ 0 := by rw [et]; exact hθ0.ne'
    have pu' := pu.ne'
    have pa' := pa.ne'
    have e1 : k.t_diff * (VON_KARMAN * us * k.dens) * CP_AIR * 1 / a.profile a.za / (k.air_temp * CP_AIR) +
        0.61 * (k.q_diff * (VON_KARMAN * us * k.dens) * 1 / a.profile a.za) =
        -(B * (VON_KARMAN * us * k.dens / a.profile a.za)) := by
      rw [eB']
      field_simp
    rw [e1]
    have e2 : us ^ 2 * a.profile a.zu ^ 2 = VON_KARMAN ^ 2 * U ^ 2 := by rw [c1]; field_simp
    have e3 : us ^ 2 * (-w * a.profile a.za) = VON_KARMAN ^ 2 * (GRAVITY * B) := by
      have : us ^ 2 * (-w * a.profile a.za) * a.profile a.zu ^ 2 =
          VON_KARMAN ^ 2 * (GRAVITY * B) * a.profile a.zu ^ 2 := by
        linear_combination (-w * a.profile a.za) * e2 + VON_KARMAN ^ 2 * hU2
      exact mul_right_cancel₀ (by positivity) this
    have hv : (0.41 : ℝ) = VON_KARMAN := rfl
    rw [hv]
    field_simp
    linear_combination (-1) * e3
  have hstep := (hleStep_ties hk hd (s := { lo := none, ustar := us, factor := f, e := k.q_diff * f * AV / k.ltsv
                                            h := k.t_diff * f * CP_AIR * AH / k.ltsh }) hs0).mpr hsing
  unfold hle1
  rw [hc, bind_ok, hk, bind_ok, c5, show ITMAX = 49 + 1 from rfl, hleLoop, hstep]
  rfl

/-! ## In a run -/

/-- C82, the caller: over snow between absolute zero and freezing, in air above absolute zero whose vapour pressure is
positive and below the air pressure, with the instruments more than 5.9 roughness lengths above the snow, `h_le` raises
only on such a tie. -/
theorem C82_exchange_raises (c : Env) (p : Phys) (hz0 : 0 < c.z_0) (hP : 610.71 < c.P_a)
    (hzu : 5.9 * c.z_0 < if c.relative_hts then c.z_u else c.z_u - p.snow.z_s)
    (hzt : 5.9 * c.z_0 < if c.relative_hts then c.z_t else c.z_t - p.snow.z_s)
    (hta : 0 < p.input1.t_a) (hts : 0 < p.snow.t_s_0) (hts' : p.snow.t_s_0 ≤ FREEZE) (hea : 0 < p.input1.e_a)
    (heP : p.input1.e_a < c.P_a) (hg : GuessP p) (e : Err) (h : h_le c p = .error e) :
    ∃ sv es, sati p.input1.t_a = .ok sv ∧ sati p.snow.t_s_0 = .ok es ∧
      TurbTie (c.exchangeIn p.input1 p.snow p.init_ustar p.init_factor (min p.input1.e_a sv) es) e := by
  obtain ⟨sv, hsv⟩ := sati_ok_iff.mpr hta
  obtain ⟨es, hes⟩ := sati_ok_iff.mpr hts
  obtain ⟨w, hsw⟩ := satw_ok_iff.mpr hta
  refine ⟨sv, es, hsv, hes, ?_⟩
  obtain ⟨a, ha⟩ : ∃ a, a = c.exchangeIn p.input1 p.snow p.init_ustar p.init_factor (min p.input1.e_a sv) es := ⟨_, rfl⟩
  have v : HleValid a := by
    rw [ha]
    exact ⟨hz0, by dsimp only [Env.exchangeIn]; linarith, by dsimp only [Env.exchangeIn]; linarith,
      by dsimp only [Env.exchangeIn]; linarith, hta, hts, lt_min hea (sati_value_pos hsv), sati_value_pos hes,
      lt_of_le_of_lt (min_le_left _ _) heP, lt_of_le_of_lt (sati_le_freeze hts' hes) hP, fun w' hw'' => by
        have hw'' : satw p.input1.t_a = .ok w' := hw''
        rw [hsw] at hw''; cases hw''
        exact (sub_le_sub_right (min_le_right _ _) 25).trans (C35_ice_within_tolerance _ _ _ hsv hsw)⟩
  have he : hle1 a = .error e := by
    have hi : (if p.input1.e_a > sv then { p.input1 with e_a := sv } else p.input1) =
        { p.input1 with e_a := min p.input1.e_a sv } := by
      split
      · rename_i h; rw [min_eq_right h.le]
      · rename_i h; rw [min_eq_left (not_lt.mp h)]
    unfold h_le InputData.sat_vp Snow.e_s_0 at h
    rw [hsv, bind_ok] at h
    dsimp only at h
    rw [hi, hes, bind_ok] at h
    dsimp only at h
    rcases bind_eq_error.mp h with h | ⟨r, hr, h⟩
    · rw [ha]; exact h
    · rw [if_neg (by rw [hle1_status hr]; simp)] at h
      cases h
  rw [← ha]
  exact C82_turbulence_raises a v (by rw [ha]; exact hzu) (by rw [ha]; exact hzt) (by rw [ha]; exact hzt)
    (by rw [ha]; exact hg) e he

/-- The interpolated air temperature is between those of the two records, and the working vapour pressure at most the
larger of theirs. -/
theorem raises_air {c : Env} {ts : Tsteps} (ht : TileOK ts) {all : Bool} {i1 i2 : InputData} {m : Model}
    {l : List (RStep Phys)} {mid : Model} {lv : Level} {d : InputData} {rest : List Level} {e : Err}
    (h : StepRaises c ts all i1 i2 m l mid lv d rest e) :
    ∃ w : ℝ, 0 ≤ w ∧ w ≤ 1 ∧ mid.phys.input1.t_a = i1.t_a + w * (i2.t_a - i1.t_a) ∧
      mid.phys.input1.e_a ≤ i1.e_a + w * (i2.e_a - i1.e_a) := by
  obtain ⟨dl, hdl, hr⟩ := h.runs
  have hd : ∀ lv, dl lv = (deltaRec i1 i2 (ts lv).intervals_per_timestep).toInput := fun lv =>
    (deltaFor_ok (inputDeltas_ok hdl lv)).2
  have hn : ∀ lv, (0 : ℝ) < ((ts lv).intervals_per_timestep : ℝ) := fun lv => by exact_mod_cast ht.ipt_pos lv
  obtain ⟨w, hw⟩ : ∃ w, w = (l.map fun y => 1 / ((ts y.lv).intervals_per_timestep : ℝ)).sum := ⟨_, rfl⟩
  have h1 := share_sum ht h.tiles 1
  rw [List.map_append, List.sum_append, List.map_map] at h1
  have h2 : 0 ≤ ((lv :: rest).map fun lv => 1 / ((ts lv).intervals_per_timestep : ℝ)).sum :=
    List.sum_nonneg fun x hx => by
      obtain ⟨y, _, rfl⟩ := List.mem_map.mp hx
      exact (one_div_pos.mpr (hn y)).le
  have h0 : 0 ≤ w := by
    rw [hw]
    exact List.sum_nonneg fun x hx => by
      obtain ⟨y, _, rfl⟩ := List.mem_map.mp hx
      exact (one_div_pos.mpr (hn y.lv)).le
  have hsum : ∀ a b : ℝ, (l.map fun x => (b - a) / ((ts x.lv).intervals_per_timestep : ℝ)).sum = w * (b - a) := by
    intro a b
    rw [hw, ← List.sum_map_mul_right]
    congr 1
    refine List.map_congr_left fun x _ => ?_
    ring
  refine ⟨w, h0, ?_, ?_, ?_⟩
  · have : (l.map ((fun lv => (1:ℝ) / ((ts lv).intervals_per_timestep : ℝ)) ∘ fun x => x.lv)).sum = w := hw.symm
    rw [this] at h1
    linarith
  · have := (runs_forcing hr).2.2.1
    simp only [hd, Rec.toInput, deltaRec, hsum] at this
    exact this
  · have := (runs_forcing hr).2.2.2.2.2.1
    simp only [hd, Rec.toInput, deltaRec, hsum] at this
    exact this

/-- C82, the run: under the conditions of C68 and with records of air above absolute zero and a vapour pressure below
the air pressure, the run step with which a run ends in an exception starts with snow on the ground, and either an
instrument is within 5.9 roughness lengths of the snow surface; or the working vapour pressure is not positive (C69); or
a tie of the turbulent-transfer routine; or a layer is at or below absolute zero (or the mean of a two-layer pack was
below it earlier); or the pack has no positive mass; or the mass balance used it up exactly. -/
theorem C82_run_raises (g : Config) (hg : g.Tiled) (ha : g.AdmissibleStart) (hcold : g.ColdStart)
    (hv : 0 < g.max_h2o) (hz : 0 < g.z_g) (hz0 : 0 < g.init_z_0) (c : Env) (hc : mkEnv g = .ok c) (hP : 610.71 < c.P_a)
    (rows : List Rec) (hr : ∀ r ∈ rows, r.Accepted ∧ r.Admissible ∧ r.GroundOK c.P_a)
    (hair : ∀ r ∈ rows, 0 < r.t_a ∧ r.e_a < c.P_a) (ts : Tsteps)
    (hts : parse_time_steps g = .ok ts) (k : ℕ) (hk : k + 1 < rows.length)
    (ls : List (List (RStep Phys))) (m : Model) (htr : RunTrace g (rows.take (k + 1)) ls m) (i1 i2 : InputData)
    (n1 : InputData.new rows[k] = .ok i1) (n2 : InputData.new rows[k + 1] = .ok i2)
    (l : List (RStep Phys)) (mid : Model) (lv : Level) (d : InputData) (rest : List Level) (e : Err)
    (h : StepRaises c ts g.output_all i1 i2 m l mid lv d rest e) :
    ∃ s i, s = mid.phys.snow ∧ i = mid.phys.input1 ∧ 0 < s.layer_count ∧
      (g.z_u - s.z_s ≤ 5.9 * g.init_z_0 ∨ g.z_t - s.z_s ≤ 5.9 * g.init_z_0 ∨ i.e_a ≤ 0 ∨
       (∃ sv es, sati i.t_a = .ok sv ∧ sati s.t_s_0 = .ok es ∧
         TurbTie (c.exchangeIn i s mid.phys.init_ustar mid.phys.init_factor (min i.e_a sv) es) e) ∨
       (s.t_s_0 ≤ 0 ∨ s.t_s ≤ 0 ∨ s.t_s_l ≤ 0 ∨
          ∃ x ∈ ls.flatten ++ l, x.pre.snow.layer_count = 2 ∧ x.pre.snow.t_s < 0) ∨
       s.m_s ≤ 0 ∨
       (e = .zeroDivision ∧ ∃ p1, energy_balance c (ts lv).time_step (stepStart d mid.phys) = .ok p1 ∧
          UsedUp c p1.input1 (ts lv).time_step p1.snow)) := by
  obtain ⟨s, hs, hlc, hcases⟩ := C81_run_raises g hg ha hcold hv hz c hc hP rows hr ts hts k hk ls m htr i1 i2 n1 n2
    l mid lv d rest e h
  refine ⟨s, _, hs, rfl, hlc, ?_⟩
  rcases hcases with hle | q | q | q
  swap
  · exact .inr (.inr (.inr (.inr (.inl q))))
  swap
  · exact .inr (.inr (.inr (.inr (.inr (.inl q)))))
  swap
  · exact .inr (.inr (.inr (.inr (.inr (.inr q)))))
  by_contra hno
  push Not at hno
  obtain ⟨o1, o2, o3, o4, ⟨o5, o6, o7, o8⟩, o9, _⟩ := hno
  have rf := raise_facts g hg ha hcold hv hz c hc hP rows hr ts hts k hk ls m htr i1 i2 n1 n2 l mid lv d rest e h
  have hfacts := rf.cold (fun x hx h2 => o8 x hx h2)
  rw [← hs] at hfacts
  have temps := hfacts.2.1 o9
  have ht := parse_tile hg hts
  obtain ⟨w, w0, w1, et, ee⟩ := raises_air ht h
  obtain ⟨b1, b2⟩ := hair rows[k] (List.getElem_mem _)
  obtain ⟨b3, b4⟩ := hair rows[k + 1] (List.getElem_mem _)
  have t1 : i1.t_a = rows[k].t_a := by rw [(new_ok n1).1]; rfl
  have t2 : i2.t_a = rows[k + 1].t_a := by rw [(new_ok n2).1]; rfl
  have t3 : i1.e_a = rows[k].e_a := by rw [(new_ok n1).1]; rfl
  have t4 : i2.e_a = rows[k + 1].e_a := by rw [(new_ok n2).1]; rfl
  rw [t1, t2] at et
  rw [t3, t4] at ee
  have hta : 0 < mid.phys.input1.t_a := by
    rw [et]
    rcases w0.eq_or_lt with h0 | h0
    · rw [← h0]; linarith
    · nlinarith
  have heP : mid.phys.input1.e_a < c.P_a := by
    rcases w1.eq_or_lt with h0 | h0
    · rw [h0] at ee; linarith
    · nlinarith
  have hguess : GuessP mid.phys := by
    have R : RunRule c ts (fun _ => True) (fun _ p => GuessP p) (fun _ _ => True) (fun _ => True) :=
      ⟨fun _ _ _ _ _ _ h => h, fun _ _ _ _ _ _ _ _ _ _ _ => trivial, fun _ _ _ _ h _ => h,
       fun _ _ _ _ p' _ h hs => ⟨trivial, (stepPhys_guess hs h : GuessP p')⟩, .inr fun _ _ _ => trivial⟩
    obtain ⟨i0, hI⟩ := (RunRule.simulate hc hts R (fun _ _ _ _ _ _ => .inl ⟨rfl, rfl⟩)
      (fun _ _ => trivial) htr.simulate).1
    obtain ⟨dl, hdl, hruns⟩ := h.runs
    exact (R.runs (i := i1) (fun _ => trivial) hruns hI).1
  have ha' : (applied d mid.phys.input1).e_a = mid.phys.input1.e_a ∧ (applied d mid.phys.input1).t_a = mid.phys.input1.t_a ∧
      (applied d mid.phys.input1).u = mid.phys.input1.u := by
    unfold applied InputData.update_precip_deltas
    split <;> exact ⟨rfl, rfl, rfl⟩
  obtain ⟨c1, c2, c3, c4⟩ : c.relative_hts = false ∧ c.z_u = g.z_u ∧ c.z_t = g.z_t ∧ c.z_0 = g.init_z_0 := by
    unfold mkEnv at hc
    obtain ⟨P, _, hc⟩ := bind_eq_ok.mp hc
    simp only [pure_ok, Except.ok.injEq] at hc
    rw [← hc]
    exact ⟨rfl, rfl, rfl, rfl⟩
  obtain ⟨sv, es, k1, k2, k3⟩ := C82_exchange_raises c (stepStart d mid.phys) (by rw [c4]; exact hz0) hP
    (by rw [c1, c2, c4]; simpa [stepStart, ← hs] using o1) (by rw [c1, c3, c4]; simpa [stepStart, ← hs] using o2)
    (by rw [show (stepStart d mid.phys).input1.t_a = _ from ha'.2.1]; exact hta)
    (by simpa [stepStart, ← hs] using o5) (by simpa [stepStart, ← hs] using temps.1)
    (by rw [show (stepStart d mid.phys).input1.e_a = _ from ha'.1]; exact o3)
    (by rw [show (stepStart d mid.phys).input1.e_a = _ from ha'.1]; exact heP) hguess e hle
  refine o4 sv es ?_ ?_ ?_
  · rw [← ha'.2.1]; exact k1
  · rw [hs]; exact k2
  · have : c.exchangeIn (stepStart d mid.phys).input1 (stepStart d mid.phys).snow (stepStart d mid.phys).init_ustar
        (stepStart d mid.phys).init_factor (min (stepStart d mid.phys).input1.e_a sv) es =
        c.exchangeIn mid.phys.input1 s mid.phys.init_ustar mid.phys.init_factor (min mid.phys.input1.e_a sv) es := by
      unfold Env.exchangeIn
      rw [hs]
      simp only [stepStart, ha'.1, ha'.2.1, ha'.2.2]
    rw [this] at k3
    exact k3

end

end Pysnobal
