import Verif.Lemmas.NanTail
import Verif.Lemmas.Progress

/-! # A run step with blank weather completes if it does with the weather filled in -/

namespace Pysnobal

noncomputable section

open Classical

namespace Nan

/-! ### The turbulent fluxes -/

theorem sub_z (x : ℝ) : (some x : NVal) - (0 : NVal) = some x := by
  rw [zero_s, sub_s, sub_zero]

theorem div_ok_ne (x : NVal) {y : ℝ} (h : y ≠ 0) : ∃ z, NVal.div x (some y) = .ok z := by
  unfold NVal.div
  dsimp only
  rw [if_neg h]
  exact ⟨_, rfl⟩

/-- Once a flux is missing, every further pass of the loop goes through and the loop never ends early. -/
theorem hleLoop_gone {k : HleConst} {lm lh lv : ℝ} (hd : k.dens = none ∨ k.wind_speed = none) (h1 : k.ltsm = some lm) (h2 : k.ltsh = some lh)
    (h3 : k.ltsv = some lv) (hm : lm ≠ 0) (hh : lh ≠ 0) (hv : lv ≠ 0) : ∀ (n it : ℕ) (s : HleSt),
    (s.h = none ∨ s.e = none ∨ s.ustar = none) → ∃ s', hleLoop k n it s = .ok (it + n - 1, s') := by
  intro n
  induction n with
  | zero => exact fun it s _ => ⟨s, rfl⟩
  | succ n ih =>
    intro it s a1
    have hl : hleLo k s = none := by
      unfold hleLo
      rcases a1 with a | a | a <;> rw [a] <;> simp only [n_div, n_add, add_n, mul_n, n_mul, div_n, ite_self]
    obtain ⟨us, hus⟩ := div_ok_ne (VON_KARMAN * k.wind_speed) hm
    have hf : (VON_KARMAN : NVal) * us * k.dens = none := by
      rcases hd with h | h
      · rw [h, mul_n]
      · rw [h, mul_n, div_none_ne hm] at hus
        cases hus
        rw [mul_n, n_mul]
    have hs : hleStep k s = .ok { lo := none, ustar := us, factor := none, e := none, h := none } := by
      unfold hleStep
      dsimp only
      rw [hl]
      simp only [psiAt_n, bind_ok, h1, h2, h3, sub_z, pdiv, hus, hf, mul_n, n_mul, div_none_ne hh, div_none_ne hv, pure_ok]
    obtain ⟨s', h'⟩ := ih (it + 1) { lo := none, ustar := us, factor := none, e := none, h := none } (.inl rfl)
    refine ⟨s', ?_⟩
    unfold hleLoop
    have hc : hleConverged s.lo none = false := by unfold hleConverged; split <;> simp_all
    rw [hs, bind_ok, hc]
    simp only [Bool.false_eq_true, if_false]
    rw [h', show it + 1 + n - 1 = it + (n + 1) - 1 by omega]

theorem hleCheck_gap {a : Pysnobal.HleIn} {ea : ℝ} (h : Pysnobal.hleCheck a = .ok ea) {t e w : NVal} (ht : t = none ∨ t = some a.air_temp)
    (he : e = none ∨ e = some a.ea ∨ t = none ∧ ∃ x, e = some x ∧ 0 < x ∧ x < a.press) :
    ∃ ea', hleCheck { HleIn.ofReal a with air_temp := t, ea := e, wind_speed := w } = .ok ea' ∧
      (e = none → ea' = none) ∧ (t = some a.air_temp → e = some a.ea → ea' = some ea) ∧ (∀ x, ea' = some x → 0 < x ∧ x < a.press) := by
  have hx : 0 < ea ∧ ea < a.press := by
    obtain ⟨_, _, _, _, _, _, h7, _, _, h10, _, v, hv, _, rfl⟩ := hleCheck_ok h
    exact ⟨lt_min h7 (satw_value_pos hv), lt_of_le_of_lt (min_le_left _ _) h10⟩
  obtain ⟨c1, c2, c3, c4, c5, c6, c7, c8, c9, c10, c11, v, hv, c12, c13⟩ := hleCheck_ok h
  rcases ht with ht | ht
  · refine ⟨e, ?_, id, (fun h => by rw [ht] at h; cases h), ?_⟩
    · unfold hleCheck HleIn.ofReal
      dsimp only
      rw [ht, satw_n]
      have he' : e = none ∨ ∃ x, e = some x ∧ 0 < x ∧ x < a.press := by
        rcases he with he | he | ⟨_, he⟩
        · exact .inl he
        · exact .inr ⟨_, he, c7, c10⟩
        · exact .inr he
      rcases he' with he | ⟨x, he, x1, x2⟩ <;> rw [he] <;>
        simp [NVal.le_some, NVal.none_le, NVal.le_none, not_le.mpr, c1, c2, c3, c4, c5, c6, c7, c8, c9, c11, zero_s, NVal.none_lt, NVal.lt_none, n_sub, *]
    · intro x hx
      rcases he with he | he | ⟨_, y, he, h1, h2⟩ <;> rw [he] at hx <;> cases hx
      · exact ⟨c7, c10⟩
      · exact ⟨h1, h2⟩
  · rcases he with he | he | ⟨he, _⟩
    · refine ⟨none, ?_, fun _ => rfl, (fun _ h => by rw [he] at h; cases h), fun x hx => by cases hx⟩
      unfold hleCheck HleIn.ofReal
      dsimp only
      rw [ht, satw_s, hv, he]
      simp [NVal.le_some, NVal.none_le, NVal.le_none, not_le.mpr, c1, c2, c3, c4, c5, c6, c7, c8, c9, c10, c11, zero_s, NVal.none_lt, NVal.lt_none, n_sub, map_ok]
    · refine ⟨some ea, ?_, (fun h => by rw [he] at h; cases h), fun _ _ => rfl, fun x hx' => by cases hx'; exact hx⟩
      have := hleCheck_s a
      rw [h] at this
      subst ht he
      exact this
    · rw [ht] at he; cases he

theorem hleConst_gap {a : Pysnobal.HleIn} {ea : ℝ} {k : Pysnobal.HleConst} (h : Pysnobal.hleConst a ea = .ok k) (hes : 0 < a.es)
    (hP : a.es < a.press) (hT : 0 ≤ (a.air_temp + DALR * a.za) * a.surface_temp) {t w ea' : NVal} (e : NVal) (ht : t = none ∨ t = some a.air_temp) (he : ∀ x, ea' = some x → 0 < x ∧ x < a.press)
    (hn : t = none ∨ ea' = none) :
    ∃ k', hleConst { HleIn.ofReal a with air_temp := t, ea := e, wind_speed := w } ea' = .ok k' ∧
      k'.ltsm = some k.ltsm ∧ k'.ltsh = some k.ltsh ∧ k'.ltsv = some k.ltsv ∧ k'.dens = none ∧ (k'.t_diff = none ∨ k'.q_diff = none) ∧
      k'.air_temp = t + some (DALR * a.za) := by
  have hP0 : 0 < a.press := hes.trans hP
  unfold Pysnobal.hleConst at h
  obtain ⟨l1, h1, h⟩ := bind_eq_ok.mp h
  obtain ⟨l2, h2, h⟩ := bind_eq_ok.mp h
  obtain ⟨l3, h3, h⟩ := bind_eq_ok.mp h
  obtain ⟨qa, _, h⟩ := bind_eq_ok.mp h
  obtain ⟨qs, hqs, h⟩ := bind_eq_ok.mp h
  obtain ⟨gt, _, h⟩ := bind_eq_ok.mp h
  obtain ⟨ge, _, h⟩ := bind_eq_ok.mp h
  obtain ⟨vt, _, h⟩ := bind_eq_ok.mp h
  obtain ⟨de, _, h⟩ := bind_eq_ok.mp h
  cases h
  obtain ⟨qa', hqa⟩ : ∃ q, spec_hum ea' (some a.press) = .ok q := by
    cases hx : ea' with
    | none => exact ⟨_, spec_hum_n _⟩
    | some x =>
      obtain ⟨q, hq, _⟩ := spec_hum_of (he x hx).1 (he x hx).2
      exact ⟨some q, by rw [spec_hum_s, hq]; rfl⟩
  have hq0 : ea' = none → qa' = none := by
    rintro rfl
    rw [spec_hum_n] at hqa
    cases hqa; rfl
  obtain ⟨gt', hgt⟩ : ∃ q, psqrt ((t + some (DALR * a.za)) * some a.surface_temp) = .ok q := by
    rcases ht with ht | ht
    · rw [ht, n_add, n_mul]; exact ⟨_, psqrt_n⟩
    · rw [ht, add_s, mul_s, psqrt_s, psqrt_of_nonneg hT]
      exact ⟨_, rfl⟩
  have hgt0 : t = none → gt' = none := by
    rintro rfl
    rw [n_add, n_mul, psqrt_n] at hgt
    cases hgt; rfl
  obtain ⟨ge', hge⟩ : ∃ q, psqrt (ea' * some a.es) = .ok q := by
    cases hx : ea' with
    | none => rw [n_mul]; exact ⟨_, psqrt_n⟩
    | some x =>
      rw [mul_s, psqrt_s, psqrt_of_nonneg (mul_pos (he x hx).1 hes).le]
      exact ⟨_, rfl⟩
  have hge0 : ea' = none → ge' = none := by
    rintro rfl
    rw [n_mul, psqrt_n] at hge
    cases hge; rfl
  have hge1 : ∀ g, ge' = some g → 0 ≤ g ∧ g < a.press := by
    intro g hg
    cases hx : ea' with
    | none => rw [hge0 hx] at hg; cases hg
    | some x =>
      rw [hx, mul_s, psqrt_s, psqrt_of_nonneg (mul_pos (he x hx).1 hes).le, hg] at hge
      cases hge
      refine ⟨Real.sqrt_nonneg _, ?_⟩
      rw [Real.sqrt_lt' hP0, sq]
      exact mul_lt_mul'' (he x hx).2 hP (he x hx).1.le hes.le
  have hvt : virtual_temperature gt' ge' (some a.press) = .ok none := by
    unfold virtual_temperature pdiv
    cases hg : ge' with
    | none => rw [div_none_ne hP0.ne', bind_ok, mul_n, sub_n, pdiv_n]
    | some g =>
      have hgn : gt' = none := by
        rcases hn with h | h
        · exact hgt0 h
        · rw [hge0 h] at hg; cases hg
      obtain ⟨g0, g1⟩ := hge1 g hg
      have hlt : g / a.press < 1 := (div_lt_one hP0).mpr g1
      have hpos : 0 ≤ g / a.press := div_nonneg g0 hP0.le
      have hne : (1 : ℝ) - (1 - MOL_H2O / MOL_AIR) * (g / a.press) ≠ 0 := by
        have m1 : MOL_H2O / MOL_AIR < 1 := (div_lt_one molair_pos).mpr molh2o_lt
        have m2 : 0 < MOL_H2O / MOL_AIR := div_pos molh2o_pos molair_pos
        nlinarith
      rw [pdiv_s, pdiv_of_ne hP0.ne', map_ok, bind_ok, hgn]
      exact div_none_ne hne
  have hde : gas_density (some a.press) (some MOL_AIR) none = .ok none := by
    unfold gas_density pdiv
    rw [mul_n, pdiv_n]
  have g1 : plog ((some a.zu - 2 * some PAESCHKE * some a.z0 / 3) / some a.z0) = .ok (some l1) := by
    have := plog_s ((a.zu - 2 * PAESCHKE * a.z0 / 3) / a.z0)
    rw [h1] at this
    exact this
  have g2 : plog ((some a.za - 2 * some PAESCHKE * some a.z0 / 3) / some a.z0) = .ok (some l2) := by
    have := plog_s ((a.za - 2 * PAESCHKE * a.z0 / 3) / a.z0)
    rw [h2] at this
    exact this
  have g3 : plog ((some a.zq - 2 * some PAESCHKE * some a.z0 / 3) / some a.z0) = .ok (some l3) := by
    have := plog_s ((a.zq - 2 * PAESCHKE * a.z0 / 3) / a.z0)
    rw [h3] at this
    exact this
  have g4 : spec_hum (some a.es) (some a.press) = .ok (some qs) := by rw [spec_hum_s, hqs]; rfl
  have g5 : psqrt ((t + some DALR * some a.za) * some a.surface_temp) = .ok gt' := hgt
  refine ⟨{ ltsm := some l1, ltsh := some l2, ltsv := some l3, q_diff := qa' - some qs, t_diff := t + some (DALR * a.za) - some a.surface_temp, dens := none, air_temp := t + some (DALR * a.za), za := some a.za, zq := some a.zq, zu := some a.zu, wind_speed := w }, ?_, rfl, rfl, rfl, rfl, ?_, rfl⟩
  · unfold hleConst HleIn.ofReal
    dsimp only
    rw [g1, bind_ok, g2, bind_ok, g3, bind_ok, hqa, bind_ok, g4, bind_ok, g5, bind_ok, hge, bind_ok, hvt, bind_ok, hde, bind_ok]
    rfl
  · rcases hn with h | h
    · left; rw [h, n_add, n_sub]
    · right; rw [hq0 h, n_sub]

/-- The first pass with the wind blank: what the real pass divides by is not zero here either. -/
theorem hleStep_windless {k : Pysnobal.HleConst} {s s1 : Pysnobal.HleSt} (h : Pysnobal.hleStep k s = .ok s1) :
    ∃ lo, hleStep { HleConst.ofReal k with wind_speed := none } (HleSt.ofReal s) =
      .ok { lo := lo, ustar := none, factor := none, e := none, h := none } := by
  obtain ⟨pm, pv, ph, h1, h2, h3, d1, d2, d3, _⟩ := hleStep_ok h
  refine ⟨Pysnobal.hleLo k s, ?_⟩
  have hl : hleLo { HleConst.ofReal k with wind_speed := none } (HleSt.ofReal s) = Pysnobal.hleLo k s := hleLo_s k s
  unfold hleStep
  dsimp only
  rw [hl]
  have g1 := psiAt_s k.zu (Pysnobal.hleLo k s) .SM
  have g2 := psiAt_s k.zq (Pysnobal.hleLo k s) .SV
  have g3 := psiAt_s k.za (Pysnobal.hleLo k s) .SH
  rw [h1] at g1
  rw [h2] at g2
  rw [h3] at g3
  simp only [HleConst.ofReal, g1, g2, g3, map_ok, bind_ok, mul_n, n_mul, sub_s, pdiv, div_none_ne d1, div_none_ne d2,
    div_none_ne d3, pure_ok]

theorem hle1_gap {a : Pysnobal.HleIn} {r : Pysnobal.HleOut} (h : Pysnobal.hle1 a = .ok r) (hu : a.zu ≠ 5.9 * a.z0)
    (hq : a.zq ≠ 5.9 * a.z0) (ha : a.za ≠ 5.9 * a.z0) {t e w : NVal} (ht : t = none ∨ t = some a.air_temp)
    (he : e = none ∨ e = some a.ea ∨ t = none ∧ ∃ x, e = some x ∧ 0 < x ∧ x < a.press) (hn : w = none ∨ t = none ∨ e = none) :
    ∃ r', hle1 { HleIn.ofReal a with air_temp := t, ea := e, wind_speed := w } = .ok r' ∧ r'.status = 0 := by
  obtain ⟨ea, k, it, s, h1, h2, h3, _⟩ := hle1_ok h
  obtain ⟨hT, s0, hs0, hloop⟩ := hleSolve_some h3
  obtain ⟨c1, _, _, c4, c5, c6, _, c8, _, _, c11, _⟩ := hleCheck_ok h1
  obtain ⟨qa, qs, vt, _, _, _, eT, _, _, _, _, _, e3, e4, e5, e6, _, _⟩ := hleConst_ok h2
  have hlog : ∀ z, z ≠ 5.9 * a.z0 → Pysnobal.plog ((z - 2 * PAESCHKE * a.z0 / 3) / a.z0) = .ok (Real.log ((z - 2 * PAESCHKE * a.z0 / 3) / a.z0)) →
      Real.log ((z - 2 * PAESCHKE * a.z0 / 3) / a.z0) ≠ 0 := by
    intro z hz hp
    have p1 : 0 < profileArg z a.z0 := by
      unfold profileArg
      by_contra hc
      unfold Pysnobal.plog at hp
      rw [if_pos (not_lt.mp hc)] at hp
      cases hp
    have p2 : profileArg z a.z0 ≠ 1 := fun h => hz ((profileArg_eq_one c1).mp h)
    unfold profileArg at p1 p2
    exact Real.log_ne_zero_of_pos_of_ne_one p1 p2
  have hne : k.ltsm ≠ 0 ∧ k.ltsh ≠ 0 ∧ k.ltsv ≠ 0 := by
    have h2' := h2
    unfold Pysnobal.hleConst at h2'
    obtain ⟨l1, g1, h2'⟩ := bind_eq_ok.mp h2'
    obtain ⟨l2, g2, h2'⟩ := bind_eq_ok.mp h2'
    obtain ⟨l3, g3, h2'⟩ := bind_eq_ok.mp h2'
    have hv : ∀ {x y : ℝ}, Pysnobal.plog x = .ok y → Pysnobal.plog x = .ok (Real.log x) := by
      intro x y hxy
      unfold Pysnobal.plog at hxy ⊢
      split at hxy
      · cases hxy
      · rename_i hc; rw [if_neg hc]
    rw [e4, e5, e6]
    exact ⟨hlog _ hu (hv g1), hlog _ ha (hv g2), hlog _ hq (hv g3)⟩
  obtain ⟨hm, hh, hv⟩ := hne
  have hfin : ∀ {b : HleIn} {k' : HleConst} {s' : HleSt}, hleSolve b k' = .ok (some (ITMAX - 1), s') →
      ∃ r', (hleSolve b k' >>= fun x => hleFinish b x.1 x.2) = .ok r' ∧ r'.status = 0 := by
    intro b k' s' hs
    rw [hs, bind_ok]
    refine ⟨_, rfl, ?_⟩
    show (if ITMAX - 1 ≥ ITMAX then (-1 : ℤ) else 0) = 0
    norm_num [ITMAX]
  obtain ⟨ea', hc, q1, q2, q3⟩ := hleCheck_gap (w := w) h1 ht he
  by_cases hcase : t = none ∨ ea' = none
  · obtain ⟨k', hk, j1, j2, j3, j4, j5, j6⟩ := hleConst_gap (w := w) h2 c8 c11
      (mul_pos (add_pos c5 (mul_pos dalr_pos (c1.trans c4))) c6).le e ht q3 hcase
    unfold hle1
    rw [hc, bind_ok, hk, bind_ok]
    obtain ⟨b, hb⟩ : ∃ b : HleIn, b = { HleIn.ofReal a with air_temp := t, ea := e, wind_speed := w } := ⟨_, rfl⟩
    have hbs : b.surface_temp = some a.surface_temp := by rw [hb]; rfl
    rw [← hb]
    clear hb
    have key : ∀ us : NVal, ∀ f : NVal, ∃ s', (do
        let e ← pdiv (k'.q_diff * f * some AV) k'.ltsv
        let h ← pdiv (k'.t_diff * f * some CP_AIR * some AH) k'.ltsh
        let (it, s) ← hleLoop k' ITMAX 0 { lo := none, ustar := us, factor := f, e := e, h := h }
        pure (some it, s) : Except Err (Option ℕ × HleSt)) = .ok (some (ITMAX - 1), s') := by
      intro us f
      rw [j3, j2]
      obtain ⟨x, hx⟩ := div_ok_ne (k'.q_diff * f * some AV) hv
      obtain ⟨y, hy⟩ := div_ok_ne (k'.t_diff * f * some CP_AIR * some AH) hh
      unfold pdiv
      rw [hx, bind_ok, hy, bind_ok]
      have hxy : y = none ∨ x = none ∨ us = none := by
        rcases j5 with j | j
        · left
          rw [j, n_mul, n_mul, n_mul, div_none_ne hh] at hy
          cases hy; rfl
        · right; left
          rw [j, n_mul, n_mul, div_none_ne hv] at hx
          cases hx; rfl
      obtain ⟨s', hl⟩ := hleLoop_gone (.inl j4) j1 j2 j3 hm hh hv ITMAX 0 { lo := none, ustar := us, factor := f, e := x, h := y } hxy
      rw [hl, bind_ok, Nat.zero_add]
      exact ⟨s', rfl⟩
    have hS : ∃ s', hleSolve b k' = .ok (some (ITMAX - 1), s') := by
      unfold hleSolve
      rw [if_neg]
      · cases hi : b.init_ustar with
        | none =>
          dsimp only
          rw [j1]
          obtain ⟨us, hus⟩ := div_ok_ne (VON_KARMAN * b.wind_speed) hm
          unfold pdiv
          rw [hus, bind_ok]
          exact key us _
        | some u =>
          dsimp only
          rw [pure_ok, bind_ok]
          exact key u _
      · rw [j6, hbs]
        rcases ht with h | h
        · rw [h, n_add]; exact NVal.none_eq _
        · rw [h, add_s, NVal.eq_some, ← eT]; exact hT
    obtain ⟨s', hs'⟩ := hS
    exact hfin hs'
  · push Not at hcase
    have ht' : t = some a.air_temp := ht.resolve_left hcase.1
    have he' : e = some a.ea := by
      rcases he with h | h | ⟨h, _⟩
      · exact absurd (q1 h) hcase.2
      · exact h
      · exact absurd h hcase.1
    have hw : w = none := by
      rcases hn with h | h | h
      · exact h
      · exact absurd h hcase.1
      · exact absurd (q1 h) hcase.2
    have q2' := q2 ht' he'
    subst ht' he' hw q2'
    have hk' : hleConst { HleIn.ofReal a with air_temp := some a.air_temp, ea := some a.ea, wind_speed := none } (some ea) =
        .ok { HleConst.ofReal k with wind_speed := none } := by
      have := hleConst_wind (HleIn.ofReal a) none (HleIn.ofReal a).init_ustar (HleIn.ofReal a).init_factor (some ea)
      rw [hleConst_s, h2] at this
      exact this
    unfold hle1
    rw [hc, bind_ok, hk', bind_ok]
    obtain ⟨b, hb⟩ : ∃ b : HleIn, b = { HleIn.ofReal a with air_temp := some a.air_temp, ea := some a.ea, wind_speed := none } := ⟨_, rfl⟩
    have b1 : b.surface_temp = some a.surface_temp := by rw [hb]; rfl
    have b2 : b.init_ustar = a.init_ustar.map some := by rw [hb]; rfl
    have b3 : b.init_factor = a.init_factor.map some := by rw [hb]; rfl
    have b4 : b.wind_speed = none := by rw [hb]
    rw [← hb]
    clear hb
    have hS : ∃ s', hleSolve b { HleConst.ofReal k with wind_speed := none } = .ok (some (ITMAX - 1), s') := by
      have hne : ¬NVal.eq (some k.air_temp) (some a.surface_temp) := by rw [NVal.eq_some]; exact hT
      unfold hleSolve
      rw [b1, b2, b4, if_neg (show ¬NVal.eq (HleConst.ofReal k).air_temp (some a.surface_temp) from hne)]
      cases hi : a.init_ustar with
      | none =>
        have key : ∀ f : NVal, ∃ s', (do
            let e ← pdiv (some k.q_diff * f * some AV) (some k.ltsv)
            let h ← pdiv (some k.t_diff * f * some CP_AIR * some AH) (some k.ltsh)
            let (it, s) ← hleLoop { HleConst.ofReal k with wind_speed := none } ITMAX 0 { lo := none, ustar := none, factor := f, e := e, h := h }
            pure (some it, s) : Except Err (Option ℕ × HleSt)) = .ok (some (ITMAX - 1), s') := by
          intro f
          obtain ⟨x, hx⟩ := div_ok_ne (some k.q_diff * f * some AV) hv
          obtain ⟨y, hy⟩ := div_ok_ne (some k.t_diff * f * some CP_AIR * some AH) hh
          unfold pdiv
          rw [hx, bind_ok, hy, bind_ok]
          obtain ⟨s', hl⟩ := hleLoop_gone (k := { HleConst.ofReal k with wind_speed := none }) (.inr rfl) rfl rfl rfl hm hh hv ITMAX 0
            { lo := none, ustar := none, factor := f, e := x, h := y } (.inr (.inr rfl))
          rw [hl, bind_ok, Nat.zero_add]
          exact ⟨s', rfl⟩
        dsimp only [Option.map]
        rw [mul_n]
        have hd : pdiv none (HleConst.ofReal k).ltsm = .ok none := div_none_ne hm
        rw [hd, bind_ok]
        exact key _
      | some u =>
        unfold Pysnobal.hleSolve at h3
        rw [if_neg hT, hi] at h3
        dsimp only at h3
        rw [pure_ok, bind_ok] at h3
        have key : ∀ f : ℝ, (do
            let e ← Pysnobal.pdiv (k.q_diff * f * AV) k.ltsv
            let h ← Pysnobal.pdiv (k.t_diff * f * CP_AIR * AH) k.ltsh
            let (it, s) ← Pysnobal.hleLoop k ITMAX 0 { lo := none, ustar := u, factor := f, e := e, h := h }
            pure (some it, s) : Except Err (Option ℕ × Pysnobal.HleSt)) = .ok (some it, s) → ∃ s', (do
            let e ← pdiv (some k.q_diff * some f * some AV) (some k.ltsv)
            let h ← pdiv (some k.t_diff * some f * some CP_AIR * some AH) (some k.ltsh)
            let (it, s) ← hleLoop { HleConst.ofReal k with wind_speed := none } ITMAX 0 { lo := none, ustar := some u, factor := some f, e := e, h := h }
            pure (some it, s) : Except Err (Option ℕ × HleSt)) = .ok (some (ITMAX - 1), s') := by
          intro f h3
          obtain ⟨e0, he0, h3⟩ := bind_eq_ok.mp h3
          obtain ⟨h0, hh0, h3⟩ := bind_eq_ok.mp h3
          obtain ⟨⟨it1, s1⟩, hl, h3⟩ := bind_eq_ok.mp h3
          have g1 : NVal.div (some k.q_diff * some f * some AV) (some k.ltsv) = .ok (some e0) := by
            have := pdiv_s (k.q_diff * f * AV) k.ltsv
            rw [he0] at this
            exact this
          have g2 : NVal.div (some k.t_diff * some f * some CP_AIR * some AH) (some k.ltsh) = .ok (some h0) := by
            have := pdiv_s (k.t_diff * f * CP_AIR * AH) k.ltsh
            rw [hh0] at this
            exact this
          unfold pdiv
          rw [g1, bind_ok, g2, bind_ok]
          have hI : ITMAX = (ITMAX - 1) + 1 := by norm_num [ITMAX]
          rw [hI] at hl
          unfold Pysnobal.hleLoop at hl
          obtain ⟨s2, hs2, _⟩ := bind_eq_ok.mp hl
          obtain ⟨lo, hstep⟩ := hleStep_windless hs2
          obtain ⟨s', hl'⟩ := hleLoop_gone (k := { HleConst.ofReal k with wind_speed := none }) (.inr rfl) rfl rfl rfl hm hh hv (ITMAX - 1) 1
            { lo := lo, ustar := none, factor := none, e := none, h := none } (.inr (.inr rfl))
          refine ⟨s', ?_⟩
          have hloop' : hleLoop { HleConst.ofReal k with wind_speed := none } ITMAX 0 (HleSt.ofReal { lo := none, ustar := u, factor := f, e := e0, h := h0 }) =
              .ok (ITMAX - 1, s') := by
            rw [hI]
            unfold hleLoop
            rw [hstep, bind_ok, if_neg (by simp [hleConverged, HleSt.ofReal])]
            refine hl'.trans ?_
            rw [show 1 + (ITMAX - 1) - 1 = ITMAX - 1 + 1 - 1 by norm_num [ITMAX]]
          exact (congrArg (fun x : Except Err (ℕ × HleSt) => x >>= fun y => pure (some y.1, y.2)) hloop').trans rfl
        dsimp only [Option.map]
        rw [pure_ok, bind_ok, b3]
        cases hj : a.init_factor with
        | none => rw [hj] at h3; exact key _ h3
        | some f => rw [hj] at h3; exact key _ h3
    obtain ⟨s', hs'⟩ := hS
    exact hfin hs'

/-- The same whether or not anything is blank. -/
theorem hle1_gaps {a : Pysnobal.HleIn} {r : Pysnobal.HleOut} (h : Pysnobal.hle1 a = .ok r) (hst : r.status = 0) (hu : a.zu ≠ 5.9 * a.z0)
    (hq : a.zq ≠ 5.9 * a.z0) (ha : a.za ≠ 5.9 * a.z0) {t e w : NVal} (ht : t = none ∨ t = some a.air_temp)
    (he : e = none ∨ e = some a.ea ∨ t = none ∧ ∃ x, e = some x ∧ 0 < x ∧ x < a.press) (hw : w = none ∨ w = some a.wind_speed) :
    ∃ r', hle1 { HleIn.ofReal a with air_temp := t, ea := e, wind_speed := w } = .ok r' ∧ r'.status = 0 := by
  by_cases hn : w = none ∨ t = none ∨ e = none
  · exact hle1_gap h hu hq ha ht he hn
  · push Not at hn
    have h1 := hw.resolve_left hn.1
    have h2 := ht.resolve_left hn.2.1
    have h3 : e = some a.ea := by
      rcases he with h | h | ⟨h, _⟩
      · exact absurd h hn.2.2
      · exact h
      · exact absurd h hn.2.1
    subst h1 h2 h3
    refine ⟨HleOut.ofReal r, ?_, hst⟩
    have := hle1_s a
    rw [h] at this
    exact this

/-- A weather value, given or blank. -/
def Given (x : NVal) (y : ℝ) : Prop := x = none ∨ x = some y

/-- `d` is the dry weather `i`, possibly with values blank. -/
structure _root_.Pysnobal.NInput.Gaps (d : NInput) (i : InputData) : Prop where
  S_n : Given d.S_n i.S_n
  I_lw : Given d.I_lw i.I_lw
  t_a : Given d.t_a i.t_a
  e_a : Given d.e_a i.e_a
  u : Given d.u i.u
  t_g : Given d.t_g i.t_g
  now : d.precip_now = i.precip_now

theorem h_le_gap {c : Env} {p : Phys} {q q' : Pysnobal.Phys} {r : Pysnobal.HleOut} (h : Pysnobal.h_le c q = .ok (r, q'))
    (hs : p.snow = Snow.ofReal q.snow) (hi : p.input1.Gaps q.input1) (h1 : p.init_ustar = q.init_ustar.map some)
    (h2 : p.init_factor = q.init_factor.map some) (he : q.input1.e_a < c.P_a)
    (hT : (if c.relative_hts then c.z_t else c.z_t - q.snow.z_s) ≠ 5.9 * c.z_0)
    (hU : (if c.relative_hts then c.z_u else c.z_u - q.snow.z_s) ≠ 5.9 * c.z_0) :
    ∃ r' p', h_le c p = .ok (r', p') ∧ p'.snow = p.snow ∧ p'.input1.t_g = p.input1.t_g ∧
      p'.input1.precip_now = p.input1.precip_now := by
  obtain ⟨sv, es, hsv, hes, _, _, _, _, hst, hr⟩ := h_le_ok h
  obtain ⟨ea, _, _, _, hck, _⟩ := hle1_ok hr
  obtain ⟨_, _, _, _, _, _, hea, _⟩ := hleCheck_ok hck
  dsimp only at hea
  obtain ⟨sat, hsat⟩ : ∃ sat, sati p.input1.t_a = .ok sat := by
    rcases hi.t_a with h | h
    · rw [h, sati_n]; exact ⟨_, rfl⟩
    · rw [h, sati_s, hsv]; exact ⟨_, rfl⟩
  obtain ⟨i, hii⟩ : ∃ i, i = (if NVal.lt sat p.input1.e_a then { p.input1 with e_a := sat } else p.input1) := ⟨_, rfl⟩
  have hi' : i.t_a = p.input1.t_a ∧ i.u = p.input1.u ∧ i.t_g = p.input1.t_g ∧ i.precip_now = p.input1.precip_now := by
    rw [hii]; split <;> exact ⟨rfl, rfl, rfl, rfl⟩
  have hie : i.e_a = none ∨ i.e_a = some (min q.input1.e_a sv) ∨ p.input1.t_a = none ∧ ∃ x, i.e_a = some x ∧ 0 < x ∧ x < c.P_a := by
    rcases hi.e_a with h | h
    · left
      rw [hii, if_neg (by rw [h]; exact NVal.lt_none _)]
      exact h
    · rcases hi.t_a with k | k
      · right; right
        rw [k, sati_n] at hsat
        cases hsat
        refine ⟨k, q.input1.e_a, ?_, lt_of_lt_of_le hea (min_le_left _ _), he⟩
        rw [hii, if_neg (NVal.none_lt _)]
        exact h
      · right; left
        rw [k, sati_s, hsv] at hsat
        cases hsat
        rw [hii, h]
        by_cases hlt : sv < q.input1.e_a
        · rw [if_pos ((NVal.lt_some _ _).mpr hlt), min_eq_right hlt.le]
        · rw [if_neg (fun k => hlt ((NVal.lt_some _ _).mp k)), min_eq_left (not_lt.mp hlt)]
          exact h
  obtain ⟨r', hr', hst'⟩ := hle1_gaps hr hst hU hT hT (t := p.input1.t_a) (e := i.e_a) (w := p.input1.u) hi.t_a hie hi.u
  have e1 : p.snow.e_s_0 = .ok (some es) := by rw [hs, e_s_0_s]; unfold Pysnobal.Snow.e_s_0; rw [hes]; rfl
  have zT : (if c.relative_hts then (c.z_t : NVal) else (c.z_t : NVal) - p.snow.z_s) = some (if c.relative_hts then c.z_t else c.z_t - q.snow.z_s) := by
    rw [hs]; split <;> rfl
  have zU : (if c.relative_hts then (c.z_u : NVal) else (c.z_u : NVal) - p.snow.z_s) = some (if c.relative_hts then c.z_u else c.z_u - q.snow.z_s) := by
    rw [hs]; split <;> rfl
  have t0 : p.snow.t_s_0 = some q.snow.t_s_0 := by rw [hs]; rfl
  refine ⟨r', { p with input1 := i, init_ustar := some r'.ustar, init_factor := some r'.factor }, ?_, rfl, hi'.2.2.1, hi'.2.2.2⟩
  unfold h_le
  rw [hsat, bind_ok]
  dsimp only
  rw [← hii, e1, bind_ok, zT, zU, t0, h1, h2, hi'.1, hi'.2.1]
  refine (congrArg (fun x : Except Err HleOut => x >>= _) hr').trans ?_
  rw [bind_ok, if_neg (by rw [hst']; simp)]
  rfl

/-! ### Conduction -/

theorem diffusion_n {P : ℝ} (h : P ≠ 0) : diffusion_coef (some P) none = .ok none := by
  unfold diffusion_coef
  obtain ⟨x, hx⟩ := div_ok_ne (SEA_LEVEL : NVal) h
  unfold pdiv
  rw [hx, bind_ok, n_div, pow_n, mul_n, n_mul]
  rfl

theorem mix_n (P : NVal) : mix_ratio none P = .ok none := by
  unfold mix_ratio pdiv
  rw [sub_n, pdiv_n]

theorem g_soil_gap {c : Env} {i : InputData} {b : Bool} {s : Pysnobal.Snow} {g : ℝ} (h : Pysnobal.g_soil c i b s = .ok g) {d : NInput}
    (hd : Given d.t_g i.t_g) : ∃ g', g_soil c d b (Snow.ofReal s) = .ok g' := by
  rcases hd with hd | hd
  · have hs := g_soil_s c i.cells i (InputData.cells_reads i) b s
    rw [h] at hs
    unfold g_soil at hs ⊢
    dsimp only at hs ⊢
    cases b
    all_goals
      simp only [Bool.false_eq_true, if_false, if_true] at hs ⊢
      obtain ⟨es, h1, hs⟩ := bind_eq_ok.mp hs
      obtain ⟨eg, h2, hs⟩ := bind_eq_ok.mp hs
      obtain ⟨kg, h3, hs⟩ := bind_eq_ok.mp hs
      obtain ⟨ks, h4, hs⟩ := bind_eq_ok.mp hs
      have hP : c.P_a ≠ 0 := by
        intro h0
        unfold efcon diffusion_coef pdiv at h3
        rw [h0] at h3
        simp [NVal.div] at h3
      rw [h1, bind_ok, hd, sati_n, bind_ok]
      have hk : efcon (some KT_MOISTSAND) none (some c.P_a) (some none) = .ok none := by
        unfold efcon
        rw [diffusion_n hP, bind_ok]
        dsimp only
        rw [pure_ok, bind_ok, mix_n, bind_ok]
        simp only [mul_n, add_n, pure_ok]
      rw [hk, bind_ok, h4, bind_ok]
      unfold ssxfr pdiv
      rw [n_mul, n_add, pdiv_n]
      exact ⟨_, rfl⟩
  · have := g_soil_s c i.cells i (InputData.cells_reads i) b s
    rw [h] at this
    refine ⟨_, Eq.trans ?_ this⟩
    unfold g_soil
    rw [hd]
    rfl

theorem heat_transfer_gap {c : Env} {i : InputData} {s : Pysnobal.Snow} {g : ℝ × ℝ} (h : Pysnobal.heat_transfer c i s = .ok g) {d : NInput}
    (hd : Given d.t_g i.t_g) : ∃ g', heat_transfer c d (Snow.ofReal s) = .ok g' := by
  unfold Pysnobal.heat_transfer at h
  unfold heat_transfer
  rw [layer_count_s]
  split at h
  · rename_i hl
    rw [if_pos hl]
    obtain ⟨x, h1, h⟩ := bind_eq_ok.mp h
    obtain ⟨y, hy⟩ := g_soil_gap h1 hd
    rw [hy, bind_ok]
    exact ⟨_, rfl⟩
  · rename_i hl
    rw [if_neg hl]
    obtain ⟨x, h1, h⟩ := bind_eq_ok.mp h
    obtain ⟨z, h2, h⟩ := bind_eq_ok.mp h
    obtain ⟨y, hy⟩ := g_soil_gap h1 hd
    rw [hy, bind_ok, g_snow_s, h2]
    exact ⟨_, rfl⟩

/-- The energy balance with blanks in dry weather completes if the one without does, and changes nothing of the snow but
the fluxes. -/
theorem energy_gap {c : Env} {dt : ℝ} {p : Phys} {q q' : Pysnobal.Phys} (h : Pysnobal.energy_balance c dt q = .ok q')
    (hs : p.snow = Snow.ofReal q.snow) (hi : p.input1.Gaps q.input1) (h1 : p.init_ustar = q.init_ustar.map some)
    (h2 : p.init_factor = q.init_factor.map some) (hp : q.input1.precip_now = false) (he : q.input1.e_a < c.P_a)
    (hT : (if c.relative_hts then c.z_t else c.z_t - q.snow.z_s) ≠ 5.9 * c.z_0)
    (hU : (if c.relative_hts then c.z_u else c.z_u - q.snow.z_s) ≠ 5.9 * c.z_0) :
    ∃ p' x en, energy_balance c dt p = .ok p' ∧ p'.snow = { Snow.ofReal q.snow with E := x, en := en } ∧
      p'.input1.t_g = p.input1.t_g ∧ p'.input1.precip_now = false := by
  unfold Pysnobal.energy_balance at h
  unfold energy_balance
  rw [hs, layer_count_s]
  split at h
  · rename_i hl
    rw [if_pos hl]
    dsimp only at h ⊢
    obtain ⟨⟨r, q1⟩, a1, h⟩ := bind_eq_ok.mp h
    obtain ⟨⟨G, G0⟩, a2, h⟩ := bind_eq_ok.mp h
    obtain ⟨r', p1, b1, b2, b3, b4⟩ := h_le_gap a1 hs hi h1 h2 he hT hU
    obtain ⟨sv, _, _, _, k1, k2, _⟩ := h_le_ok a1
    rw [b1, bind_ok]
    dsimp only at a2 ⊢
    rw [k2] at a2
    obtain ⟨⟨g, g0⟩, hg⟩ := heat_transfer_gap a2 (d := p1.input1) (by rw [b3, k1]; exact hi.t_g)
    rw [b2, hs, hg, bind_ok]
    have hM : advec p1.input1 dt (Snow.ofReal q.snow) = .ok 0 := by
      unfold advec
      rw [if_neg (by rw [b4, hi.now, hp]; simp)]
    rw [hM, bind_ok]
    exact ⟨_, _, _, rfl, rfl, b3, by rw [← hp, ← hi.now]; exact b4⟩
  · rename_i hl
    rw [if_neg hl]
    exact ⟨_, _, _, rfl, rfl, rfl, by rw [← hp, ← hi.now]⟩

end Nan

end

end Pysnobal
