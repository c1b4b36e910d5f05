import Verif.Libsnobal

/-! # Lemmas about the turbulent transfer routine -/

namespace Pysnobal

noncomputable section

theorem hleStep_ok {k : HleConst} {s s' : HleSt} (h : hleStep k s = .ok s') :
    ∃ pm pv ph, psiAt k.zu (hleLo k s) .SM = .ok pm ∧ psiAt k.zq (hleLo k s) .SV = .ok pv ∧
      psiAt k.za (hleLo k s) .SH = .ok ph ∧ k.ltsm - pm ≠ 0 ∧ k.ltsv - pv ≠ 0 ∧ k.ltsh - ph ≠ 0 ∧
      s'.lo = hleLo k s ∧
      s'.ustar = VON_KARMAN * k.wind_speed / (k.ltsm - pm) ∧
      s'.factor = VON_KARMAN * s'.ustar * k.dens ∧
      s'.e = k.q_diff * s'.factor * AV / (k.ltsv - pv) ∧
      s'.h = k.t_diff * s'.factor * AH * CP_AIR / (k.ltsh - ph) := by
  unfold hleStep at h
  obtain ⟨pm, h1, h⟩ := bind_eq_ok.mp h
  obtain ⟨us, h2, h⟩ := bind_eq_ok.mp h
  obtain ⟨pv, h3, h⟩ := bind_eq_ok.mp h
  obtain ⟨e, h4, h⟩ := bind_eq_ok.mp h
  obtain ⟨ph, h5, h⟩ := bind_eq_ok.mp h
  obtain ⟨hh, h6, h⟩ := bind_eq_ok.mp h
  rw [pdiv_eq_ok] at h2 h4 h6
  simp only [pure_ok, Except.ok.injEq] at h
  subst h
  refine ⟨pm, pv, ph, h1, h3, h5, h2.1, h4.1, h6.1, rfl, h2.2, rfl, h4.2, h6.2⟩

/-- A completed loop of `n + 1` passes returns the result of its last pass, and the loop variable. -/
theorem hleLoop_last {k : HleConst} {n it it' : ℕ} {s s' : HleSt}
    (h : hleLoop k (n + 1) it s = .ok (it', s')) :
    (∃ s0, hleStep k s0 = .ok s') ∧ it ≤ it' ∧ it' ≤ it + n := by
  induction n generalizing it s with
  | zero =>
    unfold hleLoop at h
    obtain ⟨s1, h1, h⟩ := bind_eq_ok.mp h
    split at h
    · simp at h
      obtain ⟨rfl, rfl⟩ := h
      exact ⟨⟨s, h1⟩, le_refl _, by omega⟩
    · simp [hleLoop] at h
      obtain ⟨rfl, rfl⟩ := h
      exact ⟨⟨s, h1⟩, by omega, by omega⟩
  | succ n ih =>
    unfold hleLoop at h
    obtain ⟨s1, h1, h⟩ := bind_eq_ok.mp h
    split at h
    · simp at h
      obtain ⟨rfl, rfl⟩ := h
      exact ⟨⟨s, h1⟩, le_refl _, by omega⟩
    · obtain ⟨a, b, d⟩ := ih h
      exact ⟨a, by omega, by omega⟩

theorem hle1_ok {a : HleIn} {r : HleOut} (h : hle1 a = .ok r) :
    ∃ ea k it s, hleCheck a = .ok ea ∧ hleConst a ea = .ok k ∧ hleSolve a k = .ok (some it, s) ∧
      r.h = s.h ∧ r.e = s.e ∧ r.ustar = s.ustar ∧ r.factor = s.factor ∧
      r.status = (if it ≥ ITMAX then -1 else 0) ∧
      r.le = (if a.surface_temp ≤ FREEZE then lh_vap a.surface_temp + lh_fus a.surface_temp
              else lh_vap a.surface_temp) * s.e := by
  unfold hle1 at h
  obtain ⟨ea, h1, h⟩ := bind_eq_ok.mp h
  obtain ⟨k, h2, h⟩ := bind_eq_ok.mp h
  obtain ⟨⟨it, s⟩, h3, h⟩ := bind_eq_ok.mp h
  cases it with
  | none => simp [hleFinish] at h
  | some it =>
    simp only [hleFinish, Except.ok.injEq] at h
    subst h
    exact ⟨ea, k, it, s, h1, h2, h3, rfl, rfl, rfl, rfl, rfl, rfl⟩

/-- The iterating branch. -/
theorem hleSolve_some {a : HleIn} {k : HleConst} {it : ℕ} {s : HleSt}
    (h : hleSolve a k = .ok (some it, s)) :
    k.air_temp ≠ a.surface_temp ∧ ∃ s0, s0.lo = none ∧ hleLoop k ITMAX 0 s0 = .ok (it, s) := by
  unfold hleSolve at h
  split at h
  · obtain ⟨_, _, h⟩ := bind_eq_ok.mp h
    obtain ⟨_, _, h⟩ := bind_eq_ok.mp h
    obtain ⟨_, _, h⟩ := bind_eq_ok.mp h
    simp at h
  · rename_i hne
    refine ⟨hne, ?_⟩
    cases hu : a.init_ustar with
    | none =>
      simp only [hu] at h
      obtain ⟨us, _, h⟩ := bind_eq_ok.mp h
      obtain ⟨e, _, h⟩ := bind_eq_ok.mp h
      obtain ⟨hh, _, h⟩ := bind_eq_ok.mp h
      obtain ⟨⟨it', s'⟩, h3, h⟩ := bind_eq_ok.mp h
      simp at h
      obtain ⟨rfl, rfl⟩ := h
      exact ⟨_, rfl, h3⟩
    | some u =>
      simp only [hu] at h
      obtain ⟨us, _, h⟩ := bind_eq_ok.mp h
      obtain ⟨e, _, h⟩ := bind_eq_ok.mp h
      obtain ⟨hh, _, h⟩ := bind_eq_ok.mp h
      obtain ⟨⟨it', s'⟩, h3, h⟩ := bind_eq_ok.mp h
      simp at h
      obtain ⟨rfl, rfl⟩ := h
      exact ⟨_, rfl, h3⟩

theorem hleCheck_ok {a : HleIn} {ea : ℝ} (h : hleCheck a = .ok ea) :
    0 < a.z0 ∧ a.z0 < a.zq ∧ a.z0 < a.zu ∧ a.z0 < a.za ∧ 0 < a.air_temp ∧ 0 < a.surface_temp ∧
    0 < a.ea ∧ 0 < a.es ∧ 0 < a.press ∧ a.ea < a.press ∧ a.es < a.press ∧
    ∃ w, satw a.air_temp = .ok w ∧ a.ea - 25 ≤ w ∧ ea = min a.ea w := by
  unfold hleCheck at h
  split at h
  · simp at h
  split at h
  · simp at h
  split at h
  · simp at h
  rename_i h1 h2 h3
  push Not at h1 h2 h3
  obtain ⟨w, hw, h⟩ := bind_eq_ok.mp h
  by_cases h4 : a.ea - 25 > w
  · simp [h4] at h
  · simp only [h4, if_false, pure_ok, Except.ok.injEq] at h
    push Not at h4
    refine ⟨h1.1, h1.2.1, h1.2.2.1, h1.2.2.2, h2.1, h2.2, h3.1, h3.2.1, h3.2.2.1, h3.2.2.2.1,
      h3.2.2.2.2, w, hw, h4, ?_⟩
    rw [← h]
    split
    · rw [min_eq_right]; linarith
    · rw [min_eq_left]; linarith

theorem hleConst_ok {a : HleIn} {ea : ℝ} {k : HleConst} (h : hleConst a ea = .ok k) :
    ∃ qa qs vt, spec_hum ea a.press = .ok qa ∧ spec_hum a.es a.press = .ok qs ∧
      k.q_diff = qa - qs ∧ k.air_temp = a.air_temp + DALR * a.za ∧
      k.t_diff = k.air_temp - a.surface_temp ∧ k.za = a.za ∧ k.zq = a.zq ∧ k.zu = a.zu ∧
      k.wind_speed = a.wind_speed ∧
      0 < (a.zu - 2 * PAESCHKE * a.z0 / 3) / a.z0 ∧
      k.ltsm = Real.log ((a.zu - 2 * PAESCHKE * a.z0 / 3) / a.z0) ∧
      k.ltsh = Real.log ((a.za - 2 * PAESCHKE * a.z0 / 3) / a.z0) ∧
      k.ltsv = Real.log ((a.zq - 2 * PAESCHKE * a.z0 / 3) / a.z0) ∧
      virtual_temperature (Real.sqrt (k.air_temp * a.surface_temp)) (Real.sqrt (ea * a.es)) a.press
        = .ok vt ∧
      gas_density a.press MOL_AIR vt = .ok k.dens := by
  unfold hleConst at h
  obtain ⟨l1, h1, h⟩ := bind_eq_ok.mp h
  obtain ⟨l2, h2, h⟩ := bind_eq_ok.mp h
  obtain ⟨l3, h3, h⟩ := bind_eq_ok.mp h
  obtain ⟨qa, h4, h⟩ := bind_eq_ok.mp h
  obtain ⟨qs, h5, h⟩ := bind_eq_ok.mp h
  obtain ⟨gt, h6, h⟩ := bind_eq_ok.mp h
  obtain ⟨ge, h7, h⟩ := bind_eq_ok.mp h
  obtain ⟨vt, h8, h⟩ := bind_eq_ok.mp h
  obtain ⟨dens, h9, h⟩ := bind_eq_ok.mp h
  rw [plog_eq_ok] at h1 h2 h3
  rw [psqrt_eq_ok] at h6 h7
  simp only [pure_ok, Except.ok.injEq] at h
  subst h
  refine ⟨qa, qs, vt, h4, h5, rfl, rfl, rfl, rfl, rfl, rfl, rfl, h1.1, h1.2, h2.2, h3.2, ?_, h9⟩
  rw [← h6.2, ← h7.2]
  exact h8

/-! ### Existence of a value in calm air -/

/-- In calm air with a fresh (or calm) start every pass leaves zero fluxes and an undefined Obukhov
length. -/
theorem hleLoop_calm {k : HleConst} (hw : k.wind_speed = 0) (hm : k.ltsm ≠ 0) (hv : k.ltsv ≠ 0)
    (hh : k.ltsh ≠ 0) (n it : ℕ) :
    hleLoop k n it { lo := none, ustar := 0, factor := 0, e := 0, h := 0 } =
      .ok (it + n - 1, { lo := none, ustar := 0, factor := 0, e := 0, h := 0 }) := by
  induction n generalizing it with
  | zero => simp [hleLoop]
  | succ n ih =>
    have hs : hleStep k { lo := none, ustar := 0, factor := 0, e := 0, h := 0 } =
        .ok { lo := none, ustar := 0, factor := 0, e := 0, h := 0 } := by
      simp [hleStep, hleLo, psiAt, psi, hw, pdiv, hm, hv, hh]
    unfold hleLoop
    rw [hs]
    simp only [bind_ok, hleConverged, Bool.false_eq_true, if_false, ih]
    congr 2
    omega

end

end Pysnobal
