import Verif.Lemmas.NanRun

/-! # What a run step does with a missing value -/

namespace Pysnobal

noncomputable section

open Classical

namespace Nan

theorem add_n (a : NVal) : a + (none : NVal) = none := NVal.add_none a
theorem n_add (a : NVal) : (none : NVal) + a = none := NVal.none_add a
theorem sub_n (a : NVal) : a - (none : NVal) = none := NVal.sub_none a
theorem n_sub (a : NVal) : (none : NVal) - a = none := NVal.none_sub a
theorem mul_n (a : NVal) : a * (none : NVal) = none := NVal.mul_none a
theorem n_mul (a : NVal) : (none : NVal) * a = none := NVal.none_mul a
theorem div_n (a : NVal) : a / (none : NVal) = none := by cases a <;> rfl
theorem n_div (a : NVal) : (none : NVal) / a = none := rfl
theorem neg_n : -(none : NVal) = none := rfl
theorem pow_n (k : ℕ) : (none : NVal) ^ k = none := rfl
theorem nexp_n : nexp none = none := rfl
theorem n10pow_n : n10pow none = none := rfl
theorem plog_n : plog none = .ok none := rfl
theorem psqrt_n : psqrt none = .ok none := rfl
theorem pdiv_n (a : NVal) : NVal.div a none = .ok none := rfl
theorem pdiv_nan {a b r : NVal} (h : NVal.div a b = .ok r) (hn : a = none ∨ b = none) : r = none := by
  rcases hn with rfl | rfl
  · unfold NVal.div at h
    cases b with
    | none => exact (Except.ok.inj h).symm
    | some y =>
      simp only at h
      split at h
      · cases h
      · exact (Except.ok.inj h).symm
  · exact (Except.ok.inj h).symm

theorem satw_n : satw none = .ok none := by
  unfold satw
  rw [if_neg (NVal.none_lt _)]
  simp only [pdiv, pdiv_n, bind_ok, plog_n, pure_ok]
  unfold satwExp
  simp only [n_sub, n_mul, mul_n, n_add, n_div, add_n, sub_n, n10pow_n]
theorem sati_n : sati none = .ok none := by
  unfold sati
  rw [if_neg (NVal.none_lt _), if_neg (NVal.lt_none _)]
  simp only [pdiv, pdiv_n, bind_ok, plog_n, pure_ok]
  unfold satiExp
  simp only [n_sub, n_mul, mul_n, n_add, n_div, add_n, sub_n, n10pow_n]
theorem spec_hum_n (P : NVal) : spec_hum none P = .ok none := by
  unfold spec_hum
  simp only [n_mul, add_n, pdiv, pdiv_n]

/-! ### The turbulent fluxes -/

theorem psiAt_n (z : NVal) (code : PsiCode) : psiAt z none code = .ok 0 := by
  unfold psiAt psi
  nnum [map_ok]
  simp

theorem hleStep_nan {k : HleConst} {s s' : HleSt} (h : hleStep k s = .ok s')
    (hn : k.q_diff = none ∨ k.dens = none ∨ k.wind_speed = none) : s'.e = none := by
  unfold hleStep at h
  obtain ⟨pm, _, h⟩ := bind_eq_ok.mp h
  obtain ⟨us, hu, h⟩ := bind_eq_ok.mp h
  obtain ⟨pv, _, h⟩ := bind_eq_ok.mp h
  obtain ⟨e, he, h⟩ := bind_eq_ok.mp h
  obtain ⟨ph, _, h⟩ := bind_eq_ok.mp h
  obtain ⟨hh, _, h⟩ := bind_eq_ok.mp h
  cases h
  refine pdiv_nan he (.inl ?_)
  rcases hn with hn | hn | hn
  · rw [hn]; simp only [n_mul]
  · rw [hn]; simp only [n_mul, mul_n]
  · have : us = none := pdiv_nan hu (.inl (by rw [hn, mul_n]))
    rw [this]; simp only [n_mul, mul_n]

theorem hleLoop_nan {k : HleConst} (hn : k.q_diff = none ∨ k.dens = none ∨ k.wind_speed = none) :
    ∀ (n it it' : ℕ) (s s' : HleSt), (0 < n ∨ s.e = none) → hleLoop k n it s = .ok (it', s') → s'.e = none := by
  intro n
  induction n with
  | zero =>
    intro it it' s s' h0 h
    unfold hleLoop at h
    cases h
    exact h0.resolve_left (lt_irrefl 0)
  | succ n ih =>
    intro it it' s s' _ h
    unfold hleLoop at h
    obtain ⟨s1, h1, h⟩ := bind_eq_ok.mp h
    have e1 := hleStep_nan h1 hn
    split at h
    · cases h; exact e1
    · exact ih _ _ _ _ (.inr e1) h

theorem hle1_nan {a : HleIn} {r : HleOut} (h : hle1 a = .ok r)
    (hn : a.wind_speed = none ∨ a.air_temp = none ∨ a.ea = none ∨ a.es = none ∨ a.surface_temp = none) :
    r.e = none ∧ r.le = none := by
  unfold hle1 at h
  obtain ⟨ea, hea, h⟩ := bind_eq_ok.mp h
  obtain ⟨k, hk, h⟩ := bind_eq_ok.mp h
  obtain ⟨⟨it, s⟩, hs, h⟩ := bind_eq_ok.mp h
  have hea' : a.ea = none → ea = none := by
    intro hx
    unfold hleCheck at hea
    split at hea
    · cases hea
    · split at hea
      · cases hea
      · split at hea
        · cases hea
        · obtain ⟨w, _, hea⟩ := bind_eq_ok.mp hea
          rw [hx] at hea
          simp only [n_sub, NVal.lt_none, if_false, bind_ok, pure_ok, Except.ok.injEq] at hea
          exact hea.symm
  have hk' : k.q_diff = none ∨ k.dens = none ∨ k.wind_speed = none := by
    unfold hleConst at hk
    obtain ⟨l1, _, hk⟩ := bind_eq_ok.mp hk
    obtain ⟨l2, _, hk⟩ := bind_eq_ok.mp hk
    obtain ⟨l3, _, hk⟩ := bind_eq_ok.mp hk
    obtain ⟨qa, hqa, hk⟩ := bind_eq_ok.mp hk
    obtain ⟨qs, hqs, hk⟩ := bind_eq_ok.mp hk
    obtain ⟨gt, hgt, hk⟩ := bind_eq_ok.mp hk
    obtain ⟨ge, hge, hk⟩ := bind_eq_ok.mp hk
    obtain ⟨vt, hvt, hk⟩ := bind_eq_ok.mp hk
    obtain ⟨de, hde, hk⟩ := bind_eq_ok.mp hk
    cases hk
    have hd : gt = none → de = none := by
      rintro rfl
      unfold virtual_temperature at hvt
      obtain ⟨_, _, hvt⟩ := bind_eq_ok.mp hvt
      have := pdiv_nan hvt (.inl rfl)
      subst this
      unfold gas_density at hde
      exact pdiv_nan hde (.inr (mul_n _))
    rcases hn with hn | hn | hn | hn | hn
    · exact .inr (.inr hn)
    · refine .inr (.inl (hd ?_))
      rw [hn] at hgt
      simp only [n_add, n_mul, psqrt_n] at hgt
      exact (Except.ok.inj hgt).symm
    · left
      rw [hea' hn, spec_hum_n] at hqa
      cases hqa
      exact n_sub _
    · left
      rw [hn, spec_hum_n] at hqs
      cases hqs
      exact sub_n _
    · refine .inr (.inl (hd ?_))
      rw [hn] at hgt
      simp only [mul_n, psqrt_n] at hgt
      exact (Except.ok.inj hgt).symm
  unfold hleSolve at hs
  split at hs
  · obtain ⟨_, _, hs⟩ := bind_eq_ok.mp hs
    obtain ⟨_, _, hs⟩ := bind_eq_ok.mp hs
    obtain ⟨_, _, hs⟩ := bind_eq_ok.mp hs
    cases hs
    unfold hleFinish at h
    cases h
  · dsimp only at hs
    have key : ∀ (us : NVal), (do
        let e ← pdiv (k.q_diff * (match a.init_factor with | none => some VON_KARMAN * us * k.dens | some f => f) * some AV) k.ltsv
        let h ← pdiv (k.t_diff * (match a.init_factor with | none => some VON_KARMAN * us * k.dens | some f => f) * some CP_AIR * some AH) k.ltsh
        let (it, s) ← hleLoop k ITMAX 0 { lo := none, ustar := us, factor := (match a.init_factor with | none => some VON_KARMAN * us * k.dens | some f => f), e := e, h := h }
        pure (some it, s) : Except Err (Option ℕ × HleSt)) = .ok (it, s) → r.e = none ∧ r.le = none := by
      intro us hs
      obtain ⟨_, _, hs⟩ := bind_eq_ok.mp hs
      obtain ⟨_, _, hs⟩ := bind_eq_ok.mp hs
      obtain ⟨⟨it', s'⟩, hl, hs⟩ := bind_eq_ok.mp hs
      cases hs
      have := hleLoop_nan hk' _ _ _ _ _ (.inl (by unfold ITMAX; norm_num)) hl
      unfold hleFinish at h
      cases h
      exact ⟨this, by dsimp only; rw [this, mul_n]⟩
    split at hs
    · obtain ⟨us, _, hs⟩ := bind_eq_ok.mp hs
      exact key us hs
    · exact key _ hs

theorem h_le_nan {c : Env} {p p' : Phys} {r : HleOut} (h : h_le c p = .ok (r, p'))
    (hn : p.input1.u = none ∨ p.input1.t_a = none ∨ p.input1.e_a = none ∨ p.snow.t_s_0 = none) :
    r.e = none ∧ r.le = none := by
  unfold h_le at h
  obtain ⟨sv, hsv, h⟩ := bind_eq_ok.mp h
  obtain ⟨es, hes, h⟩ := bind_eq_ok.mp h
  obtain ⟨r', hr, h⟩ := bind_eq_ok.mp h
  dsimp only at h
  have hr' : r' = r := by
    split at h
    · cases h
    · cases h; rfl
  subst hr'
  refine hle1_nan hr ?_
  dsimp only
  rcases hn with hn | hn | hn | hn
  · left; split <;> exact hn
  · right; left; split <;> exact hn
  · right; right; left
    rw [if_neg (by rw [hn]; exact NVal.lt_none _)]
    exact hn
  · right; right; right; right; exact hn

/-! ### Does snow lie: the flag `snowcover`, the layers and the mass -/

/-- During a run step: the flag is set and there is a layer, or the flag is not set and the mass is zero if there is no
layer; `w` says whether snow falls, without which there is then no layer. -/
def Cov (w : Prop) (s : Snow) : Prop :=
  (s.snowcover = true ∧ 0 < s.layer_count) ∨
  (s.snowcover = false ∧ (s.layer_count = 0 → s.m_s = some 0) ∧ (¬w → s.layer_count = 0))

variable {w : Prop} {c : Env} {dt : ℝ} {i : NInput}

theorem Cov.congr {s t : Snow} (h : Cov w s) (h1 : t.snowcover = s.snowcover) (h2 : t.layer_count = s.layer_count)
    (h3 : t.m_s = s.m_s) : Cov w t := by
  unfold Cov at *
  rw [h1, h2, h3]
  exact h

theorem adj_layers_cov {s : Snow} (h : s.snowcover = true) : Cov w (adj_layers c s) := by
  have h' : (s.calc_layers c).snowcover = true := by
    unfold Snow.calc_layers
    split <;> exact h
  unfold adj_layers
  dsimp only
  revert h'
  generalize s.calc_layers c = t
  intro h'
  by_cases h0 : t.layer_count = 0
  · rw [if_pos h0]
    right
    split <;> exact ⟨rfl, fun _ => rfl, fun _ => h0⟩
  · rw [if_neg h0]
    left
    have : 0 < t.layer_count := Nat.pos_of_ne_zero h0
    split
    · exact ⟨h', this⟩
    · split
      · exact ⟨h', this⟩
      · exact ⟨h', this⟩

theorem adj_snow_cov {s : Snow} (dz dm : NVal) (h : s.snowcover = true) (hl : 0 < s.layer_count) :
    Cov w (adj_snow c dz dm s) := by
  unfold adj_snow
  dsimp only
  generalize (if ¬(s.z_s + dz) =ₙ 0 then (s.m_s + dm) / (s.z_s + dz) else 0) = ρ
  split
  · exact adj_layers_cov h
  · split
    · exact adj_layers_cov h
    · exact .inl ⟨h, hl⟩

theorem time_compact_cov {s s' : Snow} (h : Cov w s) (e : time_compact c dt s = .ok s') : Cov w s' := by
  unfold time_compact at e
  split at e
  · cases e; exact h
  · rename_i hc
    obtain ⟨_, _, e⟩ := bind_eq_ok.mp e
    obtain ⟨_, _, e⟩ := bind_eq_ok.mp e
    obtain ⟨_, _, e⟩ := bind_eq_ok.mp e
    obtain ⟨_, _, e⟩ := bind_eq_ok.mp e
    cases e
    exact adj_layers_cov (by simpa using fun h => hc (.inl h))

theorem init_snow_bare {s s' : Snow} (e : init_snow c s = .ok s') : s'.snowcover = s.snowcover ∧
    (s'.layer_count = 0 → s'.m_s = some 0) := by
  unfold init_snow initLayers at e
  have hc : ∀ s : Snow, (s.calc_layers c).snowcover = s.snowcover := by
    intro s
    unfold Snow.calc_layers
    split <;> rfl
  split at e
  · cases e
    exact ⟨hc _, fun _ => rfl⟩
  · rename_i h0
    unfold initWater at e
    obtain ⟨_, _, e⟩ := bind_eq_ok.mp e
    cases e
    exact ⟨hc _, fun h => absurd h h0⟩

theorem precip_event_cov {s s' : Snow} (hw : i.precip_now = true → NVal.lt (some 0) i.m_snow → w) (h : Cov w s)
    (e : precip_event c i s = .ok s') : Cov w s' := by
  unfold precip_event at e
  split at e
  · rename_i hp
    split at e
    · rename_i hc
      rcases h with ⟨h1, h2⟩ | ⟨h1, _⟩
      · simp only [bind_ok, pure_ok] at e
        cases e
        exact (adj_snow_cov i.z_snow i.m_pp h1 h2).congr rfl rfl rfl
      · rw [h1] at hc; cases hc
    · rename_i hc
      split at e
      · rename_i hm
        obtain ⟨t, ht, e⟩ := bind_eq_ok.mp e
        cases e
        obtain ⟨k1, k2⟩ := init_snow_bare ht
        exact .inr ⟨k1.trans (by simpa using hc), k2, fun hn => absurd (hw hp hm) hn⟩
      · simp only [bind_ok, pure_ok] at e
        cases e
        exact h.congr rfl rfl rfl
  · cases e
    exact h.congr rfl rfl rfl

/-- Fields that the steps before evaporation leave alone. -/
def Same (s t : Snow) : Prop :=
  t.snowcover = s.snowcover ∧ t.layer_count = s.layer_count ∧ t.m_s = s.m_s ∧ t.E = s.E

theorem Same.trans {s t u : Snow} (h : Same s t) (k : Same t u) : Same s u :=
  ⟨k.1.trans h.1, k.2.1.trans h.2.1, k.2.2.1.trans h.2.2.1, k.2.2.2.trans h.2.2.2⟩

theorem meltLayers_same (s : Snow) : Same s (meltLayers dt s) := by
  unfold meltLayers
  dsimp only
  split_ifs <;> exact ⟨rfl, rfl, rfl, rfl⟩

theorem refreezeSurf_same {q : NVal} {s : Snow} {t : Snow × NVal} (e : refreezeSurf q s = .ok t) : Same s t.1 := by
  unfold refreezeSurf at e
  split at e
  · obtain ⟨_, _, e⟩ := bind_eq_ok.mp e
    dsimp only at e
    split at e <;> cases e <;> exact ⟨rfl, rfl, rfl, rfl⟩
  · cases e; exact ⟨rfl, rfl, rfl, rfl⟩

theorem refreezeLower_same {q r : NVal} {s : Snow} {t : Snow × NVal} (e : refreezeLower q s r = .ok t) : Same s t.1 := by
  unfold refreezeLower at e
  split at e
  · obtain ⟨_, _, e⟩ := bind_eq_ok.mp e
    dsimp only at e
    split at e <;> cases e <;> exact ⟨rfl, rfl, rfl, rfl⟩
  · cases e; exact ⟨rfl, rfl, rfl, rfl⟩

theorem refreezeSnap_same {r : NVal} {s : Snow} : Same s (refreezeSnap s r) := by
  unfold refreezeSnap
  split <;> exact ⟨rfl, rfl, rfl, rfl⟩

/-- What `snowmelt` does to a snowcover: the same layers, or a call of `adj_snow`. -/
theorem snowmelt_ok {s s' : Snow} (hc : s.snowcover = true) (e : snowmelt c dt s = .ok s') :
    ∃ t, Same s t ∧ (s' = t ∨ ∃ q, s' = adj_snow c q 0 t) := by
  unfold snowmelt at e
  rw [if_neg (by simp [hc])] at e
  obtain ⟨⟨t1, r1⟩, e1, e⟩ := bind_eq_ok.mp e
  obtain ⟨⟨t2, r2⟩, e2, e⟩ := bind_eq_ok.mp e
  dsimp only at e e2
  have hs := ((meltLayers_same s).trans (refreezeSurf_same e1)).trans (refreezeLower_same e2)
  have hs := hs.trans (refreezeSnap_same (r := r2) (s := t2))
  split at e
  · obtain ⟨q, _, e⟩ := bind_eq_ok.mp e
    cases e
    exact ⟨_, hs, .inr ⟨q, rfl⟩⟩
  · cases e
    exact ⟨_, hs, .inl rfl⟩

theorem snowmelt_cov {s s' : Snow} (h : Cov w s) (e : snowmelt c dt s = .ok s') : Cov w s' := by
  rcases h with ⟨h1, h2⟩ | h
  · obtain ⟨t, ⟨k1, k2, _, _⟩, rfl | ⟨q, rfl⟩⟩ := snowmelt_ok h1 e
    · exact .inl ⟨k1.trans h1, k2 ▸ h2⟩
    · exact adj_snow_cov _ _ (k1.trans h1) (k2 ▸ h2)
  · unfold snowmelt at e
    rw [if_pos h.1] at e
    cases e
    exact .inr h

theorem evap_cond_cov {s s' : Snow} (h : Cov w s) (e : evap_cond c i dt s = .ok s') : Cov w s' := by
  rcases h with ⟨h1, h2⟩ | h
  · rw [evap_cond_some c i dt s h1 h2.ne'] at e
    obtain ⟨_, _, e⟩ := bind_eq_ok.mp e
    obtain ⟨_, _, e⟩ := bind_eq_ok.mp e
    cases e
    exact adj_snow_cov _ _ h1 h2
  · unfold evap_cond at e
    rw [if_pos h.1] at e
    cases e
    exact .inr h

theorem h2o_compact_cov {s s' : Snow} (h : Cov w s) (e : h2o_compact c i s = .ok s') : Cov w s' := by
  unfold h2o_compact at e
  split at e
  · cases e; exact h
  · rename_i hc
    obtain ⟨_, _, e⟩ := bind_eq_ok.mp e
    split at e
    · obtain ⟨_, _, e⟩ := bind_eq_ok.mp e
      obtain ⟨_, _, e⟩ := bind_eq_ok.mp e
      obtain ⟨_, _, e⟩ := bind_eq_ok.mp e
      cases e
      exact adj_layers_cov (by simpa using fun h => hc (.inl h))
    · cases e; exact h

theorem runoff_cov {s s' : Snow} (h : Cov w s) (e : runoff c s = .ok s') : Cov w s' := by
  unfold runoff at e
  split at e
  · cases e; exact h.congr rfl rfl rfl
  · rename_i hc
    obtain ⟨_, _, e⟩ := bind_eq_ok.mp e
    dsimp only at e
    split at e
    · cases e
      exact adj_snow_cov _ _ (by simpa using fun h => hc (.inl h)) (Nat.pos_of_ne_zero fun h => hc (.inr h))
    · obtain ⟨_, _, e⟩ := bind_eq_ok.mp e
      cases e
      exact h.congr rfl rfl rfl

theorem adjust_layer_temps_same {s s' : Snow} (e : s.adjust_layer_temps = .ok s') : Same s s' := by
  unfold Snow.adjust_layer_temps at e
  split at e
  · obtain ⟨_, _, e⟩ := bind_eq_ok.mp e
    cases e; exact ⟨rfl, rfl, rfl, rfl⟩
  · split at e
    · split at e
      · cases e; exact ⟨rfl, rfl, rfl, rfl⟩
      · obtain ⟨_, _, e⟩ := bind_eq_ok.mp e
        obtain ⟨_, _, e⟩ := bind_eq_ok.mp e
        obtain ⟨_, _, e⟩ := bind_eq_ok.mp e
        cases e; exact ⟨rfl, rfl, rfl, rfl⟩
    · cases e; exact ⟨rfl, rfl, rfl, rfl⟩

theorem mass_balance_cov {s s' : Snow} (hw : i.precip_now = true → NVal.lt (some 0) i.m_snow → w) (h : Cov w s)
    (e : mass_balance c i dt s = .ok s') : Cov w s' := by
  unfold mass_balance at e
  obtain ⟨s1, e1, e⟩ := bind_eq_ok.mp e
  obtain ⟨s2, e2, e⟩ := bind_eq_ok.mp e
  obtain ⟨s3, e3, e⟩ := bind_eq_ok.mp e
  obtain ⟨s4, e4, e⟩ := bind_eq_ok.mp e
  obtain ⟨s5, e5, e⟩ := bind_eq_ok.mp e
  obtain ⟨s6, e6, e⟩ := bind_eq_ok.mp e
  have h6 := runoff_cov (h2o_compact_cov (evap_cond_cov (snowmelt_cov (precip_event_cov hw (time_compact_cov h e1) e2) e3) e4) e5) e6
  split at e
  · obtain ⟨k1, k2, k3, _⟩ := adjust_layer_temps_same e
    exact h6.congr k1 k2 k3
  · cases e
    exact h6

/-! ### The end of a snowcover with a missing value -/

/-- The state variables after the snow has gone. -/
def Bare (s : Snow) : Prop :=
  s.layer_count = 0 ∧ s.snowcover = false ∧ s.m_s = some 0 ∧ s.m_s_0 = some 0 ∧ s.rho = some 0 ∧ s.h2o = some 0 ∧
  s.h2o_sat = some 0 ∧ s.cc_s_0 = some 0 ∧ s.t_s = some (MIN_SNOW_TEMP + FREEZE) ∧ s.t_s_0 = some (MIN_SNOW_TEMP + FREEZE)

theorem calc_layers_nan {s : Snow} (hz : s.z_s = none) (hm : ¬s.m_s ≤ₙ some c.small_threshold) :
    s.calc_layers c = { s with z_s := none, z_s_0 := none, z_s_l := some 0 } := by
  unfold Snow.calc_layers
  rw [if_neg hm, hz]
  simp only [n_sub, NVal.lt_none, if_false, ite_self]
  rfl

theorem adj_layers_nan {s : Snow} (hz : s.z_s = none) (hm : ¬s.m_s ≤ₙ some c.small_threshold) :
    Bare (adj_layers c s) ∧ (adj_layers c s).z_s = none ∧ (adj_layers c s).E_s = s.E_s ∧
    (adj_layers c s).melt = s.melt ∧
    (adj_layers c s).h2o_total = if (some 0 : NVal) <ₙ s.m_s then s.h2o_total + s.m_s else s.h2o_total := by
  have h0 : Snow.layer_count { s with z_s := none, z_s_0 := none, z_s_l := some 0 } = 0 := by
    unfold Snow.layer_count
    simp only [NVal.lt_none, if_false]
    rw [if_neg]
    · intro h
      exact absurd ((NVal.lt_some 0 0).mp h) (lt_irrefl 0)
  unfold adj_layers
  dsimp only
  rw [calc_layers_nan hz hm, if_pos h0]
  split <;> exact ⟨⟨h0, rfl, rfl, rfl, rfl, rfl, rfl, rfl, rfl, rfl⟩, rfl, rfl, rfl, rfl⟩

theorem adj_snow_nan {s : Snow} {dz dm : NVal} (hz : dz = none) (hm : dm = none) :
    Bare (adj_snow c dz dm s) ∧ (adj_snow c dz dm s).z_s = none ∧ (adj_snow c dz dm s).E_s = s.E_s ∧
    (adj_snow c dz dm s).melt = s.melt ∧ (adj_snow c dz dm s).h2o_total = s.h2o_total := by
  subst hz hm
  have e : adj_snow c none none s = adj_layers c { s with z_s := none, m_s := none, rho := none } := by
    unfold adj_snow
    simp only [add_n, NVal.none_eq, not_false_eq_true, if_true, div_n, NVal.lt_none, if_false]
  rw [e]
  obtain ⟨h1, h2, h3, h4, h5⟩ := adj_layers_nan (c := c) (s := { s with z_s := none, m_s := none, rho := none }) rfl
    (NVal.none_le _)
  refine ⟨h1, h2, h3, h4, h5.trans (if_neg (NVal.lt_none _))⟩

theorem soilEvap_nan {s : Snow} {l : NVal} (hg : i.t_g = none) (e : soilEvap c i dt s = .ok l) : l = none := by
  unfold soilEvap at e
  dsimp only at e
  split at e
  all_goals
    obtain ⟨es, _, e⟩ := bind_eq_ok.mp e
    obtain ⟨q1, _, e⟩ := bind_eq_ok.mp e
    obtain ⟨eg, heg, e⟩ := bind_eq_ok.mp e
    obtain ⟨qg, hqg, e⟩ := bind_eq_ok.mp e
    obtain ⟨ra, _, e⟩ := bind_eq_ok.mp e
    obtain ⟨k, _, e⟩ := bind_eq_ok.mp e
    obtain ⟨l', hl, ef⟩ := bind_eq_ok.mp e
    clear e
    rw [hg, sati_n] at heg
    cases heg
    rw [spec_hum_n] at hqg
    cases hqg
    have e' : l' * (some dt : NVal) = l := Except.ok.inj ef
    subst e'
    unfold vapor_flux at hl
    obtain ⟨r, hr, hl⟩ := bind_eq_ok.mp hl
    cases hl
    have := pdiv_nan hr (.inl (n_sub _))
    rw [this, mul_n, n_mul]

/-- Water after evaporation of an unknown amount: never a positive number. -/
theorem evapH2o_nan (h : NVal) : ¬(some 0 : NVal) <ₙ evapH2o h none ∧ (h = some 0 → evapH2o h none = some 0) ∧
    ((some 0 : NVal) <ₙ h → evapH2o h none = none) := by
  have z : (0 : NVal) = some 0 := rfl
  unfold evapH2o
  dsimp only
  rw [z]
  refine ⟨?_, ?_, ?_⟩
  · split
    · simp only [n_mul, add_n, NVal.none_le, if_false]
      exact NVal.lt_none _
    · assumption
  · rintro rfl
    rw [if_neg (by simp)]
  · intro h
    rw [if_pos h]
    simp only [n_mul, add_n, NVal.none_le, if_false]

theorem evap_cond_nan {s s' : Snow} (hc : s.snowcover = true) (hl : 0 < s.layer_count)
    (hn : s.E = none ∨ i.t_g = none) (e : evap_cond c i dt s = .ok s') :
    Bare s' ∧ s'.z_s = none ∧ s'.E_s = none ∧ s'.melt = s.melt ∧ ¬(some 0 : NVal) <ₙ s'.h2o_total ∧
    (s.E = none → s.h2o_total = some 0 → s'.h2o_total = some 0) ∧
    (s.E = none → (some 0 : NVal) <ₙ s.h2o_total → s'.h2o_total = none) := by
  rw [evap_cond_some c i dt s hc hl.ne'] at e
  obtain ⟨l, hl', e⟩ := bind_eq_ok.mp e
  obtain ⟨q, hq, e⟩ := bind_eq_ok.mp e
  cases e
  have hE : s.E * (some dt : NVal) + l = none := by
    rcases hn with hn | hn
    · rw [hn, n_mul, n_add]
    · rw [soilEvap_nan hn hl', add_n]
  have hq' : q = none := pdiv_nan hq (.inl (by rw [hE, n_add, n_sub]))
  subst hq'
  obtain ⟨h1, h2, h3, h4, h5⟩ := adj_snow_nan (c := c) (s := { s with h2o_total := evapH2o (evapH2o s.h2o_total (s.E * some dt)) l, E_s := s.E * some dt + l }) (n_div (2 : NVal)) hE
  have key : ∀ b : NVal, ¬(some 0 : NVal) <ₙ b → ∀ x, evapH2o b x = b := by
    intro b hb x
    unfold evapH2o
    exact if_neg hb
  refine ⟨h1, h2, h3.trans hE, h4, ?_, ?_, ?_⟩
  · rw [h5]
    dsimp only
    rcases hn with hn | hn
    · have := (evapH2o_nan s.h2o_total).1
      rw [hn, n_mul, key _ this]
      exact this
    · rw [soilEvap_nan hn hl']
      exact (evapH2o_nan _).1
  · intro hn hz
    rw [h5]
    dsimp only
    rw [hn, n_mul, key _ (evapH2o_nan s.h2o_total).1]
    exact (evapH2o_nan _).2.1 hz
  · intro hn hz
    rw [h5]
    dsimp only
    rw [hn, n_mul, key _ (evapH2o_nan s.h2o_total).1]
    exact (evapH2o_nan _).2.2 hz

theorem adj_layers_E (s : Snow) : (adj_layers c s).E = s.E := by
  have : (s.calc_layers c).E = s.E := by unfold Snow.calc_layers; split <;> rfl
  unfold adj_layers
  dsimp only
  split_ifs <;> exact this

theorem adj_snow_E (dz dm : NVal) (s : Snow) : (adj_snow c dz dm s).E = s.E := by
  unfold adj_snow
  dsimp only
  generalize (if ¬(s.z_s + dz) =ₙ 0 then (s.m_s + dm) / (s.z_s + dz) else 0) = ρ
  split
  · exact adj_layers_E _
  · split
    · exact adj_layers_E _
    · rfl

theorem time_compact_E {s s' : Snow} (e : time_compact c dt s = .ok s') : s'.E = s.E := by
  unfold time_compact at e
  split at e
  · cases e; rfl
  · obtain ⟨_, _, e⟩ := bind_eq_ok.mp e
    obtain ⟨_, _, e⟩ := bind_eq_ok.mp e
    obtain ⟨_, _, e⟩ := bind_eq_ok.mp e
    obtain ⟨_, _, e⟩ := bind_eq_ok.mp e
    cases e
    exact adj_layers_E _

theorem init_snow_E {s s' : Snow} (e : init_snow c s = .ok s') : s'.E = s.E := by
  have hc : ∀ s : Snow, (s.calc_layers c).E = s.E := by intro s; unfold Snow.calc_layers; split <;> rfl
  unfold init_snow initLayers at e
  split at e
  · cases e; exact hc _
  · unfold initWater at e
    obtain ⟨_, _, e⟩ := bind_eq_ok.mp e
    cases e; exact hc _

theorem precip_event_E {s s' : Snow} (e : precip_event c i s = .ok s') : s'.E = s.E := by
  unfold precip_event at e
  split at e
  · split at e
    · simp only [bind_ok, pure_ok] at e
      cases e
      exact adj_snow_E _ _ _
    · split at e
      · obtain ⟨t, ht, e⟩ := bind_eq_ok.mp e
        cases e
        have := init_snow_E ht
        exact this
      · simp only [bind_ok, pure_ok] at e
        cases e
        rfl
  · cases e
    rfl

theorem snowmelt_E {s s' : Snow} (e : snowmelt c dt s = .ok s') : s'.E = s.E := by
  cases hc : s.snowcover with
  | true =>
    obtain ⟨t, k, rfl | ⟨q, rfl⟩⟩ := snowmelt_ok hc e
    · exact k.2.2.2
    · exact (adj_snow_E _ _ _).trans k.2.2.2
  | false =>
    unfold snowmelt at e
    rw [if_pos hc] at e
    cases e; rfl

theorem h2o_compact_bare {s s' : Snow} (hc : s.snowcover = false) (e : h2o_compact c i s = .ok s') : s' = s := by
  unfold h2o_compact at e
  rw [if_pos (.inl hc)] at e
  exact (Except.ok.inj e).symm

theorem runoff_bare {s s' : Snow} (hc : s.snowcover = false) (e : runoff c s = .ok s') :
    s' = { s with swi := s.h2o_total } := by
  unfold runoff at e
  rw [if_pos (.inl hc)] at e
  exact (Except.ok.inj e).symm

/-- The end of a step in which evaporation is missing. -/
theorem mass_balance_nan {s s' : Snow} (hw : i.precip_now = true → ¬(some 0 : NVal) <ₙ i.m_snow)
    (h : Cov False s) (hn : s.E = none ∨ i.t_g = none) (e : mass_balance c i dt s = .ok s') :
    s'.layer_count = 0 ∧ s'.m_s = some 0 ∧
    ((s'.E_s = some 0) ∨ (Bare s' ∧ s'.z_s = none ∧ s'.E_s = none ∧ ¬(some 0 : NVal) <ₙ s'.swi)) := by
  unfold mass_balance at e
  obtain ⟨s1, e1, e⟩ := bind_eq_ok.mp e
  obtain ⟨s2, e2, e⟩ := bind_eq_ok.mp e
  obtain ⟨s3, e3, e⟩ := bind_eq_ok.mp e
  obtain ⟨s4, e4, e⟩ := bind_eq_ok.mp e
  obtain ⟨s5, e5, e⟩ := bind_eq_ok.mp e
  obtain ⟨s6, e6, e⟩ := bind_eq_ok.mp e
  have h3 := snowmelt_cov (precip_event_cov (fun a b => hw a b) (time_compact_cov h e1) e2) e3
  have hE : s3.E = s.E := (snowmelt_E e3).trans ((precip_event_E e2).trans (time_compact_E e1))
  rcases h3 with ⟨k1, k2⟩ | ⟨k1, k2, k3⟩
  · obtain ⟨b, bz, be, _, bh, _⟩ := evap_cond_nan k1 k2 (by rw [hE]; exact hn) e4
    have h5 := h2o_compact_bare b.2.1 e5
    subst h5
    have h6 := runoff_bare b.2.1 e6
    subst h6
    have hb : Bare { s5 with swi := s5.h2o_total } := b
    rw [if_neg (by rw [hb.2.1]; simp)] at e
    cases e
    exact ⟨b.1, b.2.2.1, .inr ⟨hb, bz, be, bh⟩⟩
  · unfold evap_cond at e4
    rw [if_pos k1] at e4
    cases e4
    have h5 := h2o_compact_bare (s := { s3 with E_s := 0 }) k1 e5
    subst h5
    have h6 := runoff_bare (s := { s3 with E_s := 0 }) k1 e6
    subst h6
    rw [if_neg (by rw [show s3.snowcover = false from k1]; simp)] at e
    cases e
    exact ⟨k3 not_false, k2 (k3 not_false), .inl rfl⟩

end Nan

end

end Pysnobal
