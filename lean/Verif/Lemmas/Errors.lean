import Verif.Lemmas.HleTotal
import Verif.Lemmas.Run
import Verif.Props.IceWater

/-! # Which exceptions a run step can raise -/

namespace Pysnobal

noncomputable section

/-- Exceptions that would mean a failure of the time stepping itself or of the iteration, or input of `hle1` that was checked
before; if `T`, exceptions of the record reader and of the accumulators; and, if `S`, numbers
that are not finite. -/
def Internal (S T : Prop) (e : Err) : Prop :=
  e = .noConverge ∨ e = .recursion ∨ e = .index ∨ e = .psiCode ∨ e = .exceedsSat ∨ e = .tempsNotK ∨ e = .outOfRange ∨
  e = .key ∨ e = .dupIndex ∨ T ∧ (e = .attribute ∨ e = .rhoSnow) ∨ S ∧ e = .nonFinite

/-- The computation raises no internal exception. -/
def Quiet (S T : Prop) {α : Type} (x : Except Err α) : Prop := ∀ e, x = .error e → ¬ Internal S T e

variable {S T : Prop}

theorem Quiet.ok {α : Type} (a : α) : Quiet S T (.ok a : Except Err α) := by
  intro e h; cases h

theorem Quiet.pure {α : Type} (a : α) : Quiet S T (pure a : Except Err α) := Quiet.ok a

theorem Quiet.bind {α β : Type} {x : Except Err α} {f : α → Except Err β} (h : Quiet S T x)
    (hf : ∀ a, x = .ok a → Quiet S T (f a)) : Quiet S T (x >>= f) := by
  intro e he
  rcases bind_eq_error.mp he with h1 | ⟨a, h1, h2⟩
  · exact h e h1
  · exact hf a h1 e h2

theorem Quiet.err {α : Type} {e : Err} (h : ¬ Internal S T e) : Quiet S T (.error e : Except Err α) := by
  intro e' he; cases he; exact h

theorem Quiet.throw {α : Type} {e : Err} (h : ¬ Internal S T e) : Quiet S T (throw e : Except Err α) :=
  Quiet.err h

theorem Quiet.ite {α : Type} {P : Prop} [Decidable P] {x y : Except Err α} (hx : P → Quiet S T x)
    (hy : ¬ P → Quiet S T y) : Quiet S T (if P then x else y) := by
  split
  · exact hx ‹_›
  · exact hy ‹_›

theorem quiet_pdiv (a b : ℝ) : Quiet S T (pdiv a b) := by
  unfold pdiv; exact Quiet.ite (fun _ => Quiet.err (by simp [Internal])) (fun _ => Quiet.ok _)

theorem quiet_plog (a : ℝ) : Quiet S T (plog a) := by
  unfold plog; exact Quiet.ite (fun _ => Quiet.err (by simp [Internal])) (fun _ => Quiet.ok _)

theorem quiet_psqrt (a : ℝ) : Quiet S T (psqrt a) := by
  unfold psqrt; exact Quiet.ite (fun _ => Quiet.err (by simp [Internal])) (fun _ => Quiet.ok _)

/-- Goal-directed search through a monadic program. -/
macro "quiet" : tactic => `(tactic|
  repeat' (first
    | assumption
    | exact Quiet.ok _
    | exact Quiet.pure _
    | exact quiet_pdiv _ _
    | exact quiet_plog _
    | exact quiet_psqrt _
    | (refine Quiet.err ?_; simp [Internal]; done)
    | (refine Quiet.throw ?_; simp [Internal]; done)
    | refine Quiet.ite (fun _ => ?_) (fun _ => ?_)
    | refine Quiet.bind ?_ (fun _ _ => ?_)))

theorem quiet_satw (t : ℝ) : Quiet S T (satw t) := by unfold satw; quiet

theorem quiet_sati (t : ℝ) : Quiet S T (sati t) := by
  have := quiet_satw (S := S) (T := T) t
  unfold sati; quiet

theorem quiet_psi (z : ℝ) (code : PsiCode) (h : code ≠ .other) : Quiet S T (psi z code) := by
  unfold psi
  cases code
  · quiet
  · quiet
  · quiet
  · exact absurd rfl h

theorem quiet_psiAt (z : ℝ) (lo : Option ℝ) (code : PsiCode) (h : code ≠ .other) :
    Quiet False T (psiAt z lo code) := by
  unfold psiAt
  have := fun z => quiet_psi (S := False) (T := T) z code h
  cases lo with
  | none => exact this 0
  | some l => exact Quiet.ite (fun _ => Quiet.err (by simp [Internal])) (fun _ => this _)

theorem quiet_hleStep (k : HleConst) (s : HleSt) : Quiet False T (hleStep k s) := by
  have h1 := quiet_psiAt (T := T) k.zu (hleLo k s) .SM (by simp)
  have h2 := quiet_psiAt (T := T) k.zq (hleLo k s) .SV (by simp)
  have h3 := quiet_psiAt (T := T) k.za (hleLo k s) .SH (by simp)
  unfold hleStep; quiet

theorem quiet_hleLoop (k : HleConst) : ∀ (n it : ℕ) (s : HleSt), Quiet False T (hleLoop k n it s) := by
  intro n
  induction n with
  | zero => intro it s; exact Quiet.ok _
  | succ n ih =>
    intro it s
    unfold hleLoop
    refine Quiet.bind (quiet_hleStep _ _) (fun a _ => ?_)
    exact Quiet.ite (fun _ => Quiet.pure _) (fun _ => ih _ _)

/-- The Obukhov length of no pass of the loop vanishes. -/
theorem hleSolve_finite {a : HleIn} {ea : ℝ} {k : HleConst} (hk : hleConst a ea = .ok k)
    (hd : k.dens ≠ 0)
    (hg : ∀ u, a.init_ustar = some u → ∃ f, a.init_factor = some f ∧ (u = 0 → f = 0))
    (hg' : a.init_ustar = none → a.init_factor = none) :
    hleSolve a k ≠ .error .nonFinite := by
  have hp : ∀ z code, psi z code ≠ .error .nonFinite := by
    intro z code h
    unfold psi psqrt plog at h
    split at h
    · cases h
    split at h
    · rcases bind_eq_error.mp h with h | ⟨y, _, h⟩
      · split at h <;> cases h
      rcases bind_eq_error.mp h with h | ⟨x, _, h⟩
      · split at h <;> cases h
      cases code <;> simp only at h
      · rcases bind_eq_error.mp h with h | ⟨x, _, h⟩
        · split at h <;> cases h
        rcases bind_eq_error.mp h with h | ⟨x, _, h⟩
        · split at h <;> cases h
        cases h
      · rcases bind_eq_error.mp h with h | ⟨x, _, h⟩
        · split at h <;> cases h
        cases h
      · rcases bind_eq_error.mp h with h | ⟨x, _, h⟩
        · split at h <;> cases h
        cases h
      · cases h
    · cases h
  -- states in which a vanishing friction velocity goes with vanishing fluxes
  have hA : ∀ (lo : Option ℝ), (∀ l, lo = some l → l ≠ 0) → ∀ z code,
      psiAt z lo code ≠ .error .nonFinite := by
    intro lo hlo z code
    unfold psiAt
    cases lo with
    | none => exact hp _ _
    | some l => simp only [hlo l rfl, if_false]; exact hp _ _
  have hlo : ∀ s : HleSt, (s.ustar = 0 → s.e = 0 ∧ s.h = 0) → ∀ l, hleLo k s = some l → l ≠ 0 := by
    intro s hs l hl
    unfold hleLo at hl
    simp only at hl
    split at hl
    · cases hl
    · rename_i hne
      cases hl
      have hu : s.ustar ≠ 0 := by
        intro h
        obtain ⟨h1, h2⟩ := hs h
        apply hne
        rw [h1, h2]; simp
      exact div_ne_zero (mul_ne_zero (mul_ne_zero (mul_ne_zero hu hu) hu) hd) hne
  have hpd : ∀ x y, pdiv x y ≠ .error .nonFinite := by
    intro x y h
    unfold pdiv at h
    split at h <;> cases h
  have hstep : ∀ s : HleSt, (s.ustar = 0 → s.e = 0 ∧ s.h = 0) → hleStep k s ≠ .error .nonFinite := by
    intro s hs h
    have hl := hA _ (hlo s hs)
    unfold hleStep at h
    rcases bind_eq_error.mp h with h | ⟨_, _, h⟩
    · exact hl _ _ h
    rcases bind_eq_error.mp h with h | ⟨_, _, h⟩
    · exact hpd _ _ h
    rcases bind_eq_error.mp h with h | ⟨_, _, h⟩
    · exact hl _ _ h
    rcases bind_eq_error.mp h with h | ⟨_, _, h⟩
    · exact hpd _ _ h
    rcases bind_eq_error.mp h with h | ⟨_, _, h⟩
    · exact hl _ _ h
    rcases bind_eq_error.mp h with h | ⟨_, _, h⟩
    · exact hpd _ _ h
    cases h
  have hloop : ∀ (n it : ℕ) (s : HleSt), (s.ustar = 0 → s.e = 0 ∧ s.h = 0) →
      hleLoop k n it s ≠ .error .nonFinite := by
    intro n
    induction n with
    | zero => intro it s _ h; cases h
    | succ n ih =>
      intro it s hs h
      unfold hleLoop at h
      rcases bind_eq_error.mp h with h | ⟨s1, h1, h⟩
      · exact hstep s hs h
      · split at h
        · cases h
        · refine ih _ _ ?_ h
          obtain ⟨pm, pv, ph, _, _, _, _, _, _, _, f1, f2, f3, f4⟩ := hleStep_ok h1
          intro h0
          rw [f3, f4, f2, h0]
          simp
  intro h
  unfold hleSolve at h
  split at h
  · rcases bind_eq_error.mp h with h | ⟨_, _, h⟩
    · exact hpd _ _ h
    rcases bind_eq_error.mp h with h | ⟨_, _, h⟩
    · exact hpd _ _ h
    rcases bind_eq_error.mp h with h | ⟨_, _, h⟩
    · exact hpd _ _ h
    cases h
  · cases hu : a.init_ustar with
    | none =>
      rw [hu, hg' hu] at h
      simp only at h
      rcases bind_eq_error.mp h with h | ⟨us, _, h⟩
      · exact hpd _ _ h
      rcases bind_eq_error.mp h with h | ⟨e, he, h⟩
      · exact hpd _ _ h
      rcases bind_eq_error.mp h with h | ⟨hh, hhh, h⟩
      · exact hpd _ _ h
      rcases bind_eq_error.mp h with h | ⟨x, _, h⟩
      · refine hloop _ _ _ ?_ h
        intro h0
        rw [pdiv_eq_ok] at he hhh
        simp only at h0
        rw [he.2, hhh.2, h0]
        simp
      · cases h
    | some u =>
      obtain ⟨f, hf, hf0⟩ := hg u hu
      rw [hu, hf] at h
      simp only [pure_ok, bind_ok] at h
      rcases bind_eq_error.mp h with h | ⟨e, he, h⟩
      · exact hpd _ _ h
      rcases bind_eq_error.mp h with h | ⟨hh, hhh, h⟩
      · exact hpd _ _ h
      rcases bind_eq_error.mp h with h | ⟨x, _, h⟩
      · refine hloop _ _ _ ?_ h
        intro h0
        rw [pdiv_eq_ok] at he hhh
        rw [he.2, hhh.2, hf0 h0]
        simp
      · cases h

theorem hleConst_heights {a : HleIn} {ea : ℝ} {k : HleConst} (h : hleConst a ea = .ok k) :
    0 < (a.zu - 2 * PAESCHKE * a.z0 / 3) / a.z0 ∧ 0 < (a.za - 2 * PAESCHKE * a.z0 / 3) / a.z0 ∧
    0 < (a.zq - 2 * PAESCHKE * a.z0 / 3) / a.z0 := by
  unfold hleConst at h
  obtain ⟨l1, h1, h⟩ := bind_eq_ok.mp h
  obtain ⟨l2, h2, h⟩ := bind_eq_ok.mp h
  obtain ⟨l3, h3, h⟩ := bind_eq_ok.mp h
  have key : ∀ {x l : ℝ}, plog x = .ok l → 0 < x := by
    intro x l hx
    unfold plog at hx
    split at hx
    · cases hx
    · rename_i h0; exact not_le.mp h0
  exact ⟨by simpa using key h1, by simpa using key h2, by simpa using key h3⟩

/-- What the checks leave. -/
theorem check_valid {a : HleIn} {ea : ℝ} {k : HleConst} (h1 : hleCheck a = .ok ea) (h2 : hleConst a ea = .ok k) : HleValid a := by
  obtain ⟨c1, c2, c3, c4, c5, c6, c7, c8, c9, c10, c11, w, hw, c12, _⟩ := hleCheck_ok h1
  obtain ⟨g1, g2, g3⟩ := hleConst_heights h2
  have key : ∀ z : ℝ, 0 < (z - 2 * PAESCHKE * a.z0 / 3) / a.z0 → 4.9 * a.z0 < z := by
    intro z hz
    rw [div_pos_iff_of_pos_right c1] at hz
    unfold PAESCHKE at hz
    linarith
  refine ⟨c1, key _ g1, key _ g3, key _ g2, c5, c6, c7, c8, c10, c11, fun w' hw' => ?_⟩
  rw [hw] at hw'
  cases hw'
  exact c12

theorem Quiet.upgrade {α : Type} {x : Except Err α} (h : Quiet False T x) (hn : S → x ≠ .error .nonFinite) : Quiet S T x := by
  intro e he hi
  have := h e he
  subst he
  unfold Internal at hi this
  rcases hi with hi | hi | hi | hi | hi | hi | hi | hi | hi | hi | ⟨hS, hi⟩
  · exact this (.inl hi)
  all_goals first
    | exact this (by simp only [hi]; tauto)
    | exact hn hS (by rw [hi])

/-- First guesses as the model passes them on. -/
def GuessFinite (u f : Option ℝ) : Prop :=
  (∀ x, u = some x → ∃ y, f = some y ∧ (x = 0 → y = 0)) ∧ (u = none → f = none)

theorem quiet_hle1 (a : HleIn) (hs : ∀ w, satw a.air_temp = .ok w → a.ea - 25 ≤ w) (h1 : 0 < a.air_temp)
    (h2 : 0 < a.surface_temp) (hg : S → GuessFinite a.init_ustar a.init_factor) : Quiet S T (hle1 a) := by
  unfold hle1
  refine Quiet.bind ?_ (fun ea hc => Quiet.bind ?_ (fun k hk => Quiet.bind ?_ (fun x _ => ?_)))
  · unfold hleCheck
    rw [if_neg (show ¬ (a.air_temp ≤ 0 ∨ a.surface_temp ≤ 0) by rw [not_or, not_le, not_le]; exact ⟨h1, h2⟩)]
    refine Quiet.ite (fun _ => Quiet.throw (by simp [Internal])) fun _ => 
      Quiet.ite (fun _ => Quiet.throw (by simp [Internal])) fun _ => Quiet.bind (quiet_satw _) fun w hw => ?_
    have := hs w hw
    rw [if_neg (by linarith)]
    quiet
  · unfold hleConst spec_hum virtual_temperature gas_density; quiet
  · refine Quiet.upgrade ?_ fun hS => ?_
    · unfold hleSolve
      refine Quiet.ite (fun _ => by quiet) (fun _ => ?_)
      cases a.init_ustar with
      | none =>
        refine Quiet.bind (quiet_pdiv _ _) fun _ _ => Quiet.bind (quiet_pdiv _ _) fun _ _ =>
          Quiet.bind (quiet_pdiv _ _) fun _ _ => Quiet.bind (quiet_hleLoop _ _ _ _) fun _ _ => Quiet.pure _
      | some u =>
        refine Quiet.bind (Quiet.pure _) fun _ _ => Quiet.bind (quiet_pdiv _ _) fun _ _ =>
          Quiet.bind (quiet_pdiv _ _) fun _ _ => Quiet.bind (quiet_hleLoop _ _ _ _) fun _ _ => Quiet.pure _
    · obtain ⟨k', hk', hd, _⟩ := hleConst_of (check_valid hc hk) hc
      rw [hk] at hk'
      cases hk'
      exact hleSolve_finite hk hd.ne' (hg hS).1 (hg hS).2
  · obtain ⟨it, s⟩ := x
    cases it with
    | none => exact Quiet.err (by simp [Internal])
    | some n => exact Quiet.ok _

/-- The status `hle1` returns is always 0: the loop variable never reaches `ITMAX`. -/
theorem hle1_status {a : HleIn} {r : HleOut} (h : hle1 a = .ok r) : r.status = 0 := by
  obtain ⟨ea, k, it, s, _, _, h3, _, _, _, _, h4, _⟩ := hle1_ok h
  obtain ⟨_, s0, _, h5⟩ := hleSolve_some h3
  have := (hleLoop_last (n := 49) h5).2.2
  rw [h4, if_neg]
  unfold ITMAX
  omega

theorem quiet_h_le (c : Env) (p : Phys) (hg : S → GuessFinite p.init_ustar p.init_factor) : Quiet S T (h_le c p) := by
  unfold h_le InputData.sat_vp Snow.e_s_0
  refine Quiet.bind (quiet_sati _) fun sv hsv => Quiet.bind (quiet_sati _) fun _ hes =>
    Quiet.bind (quiet_hle1 _ ?_ ?_ ?_ hg) fun r hr => ?_
  · dsimp only
    intro w hw
    split at hw
    · rename_i hlt
      rw [if_pos hlt]
      exact C35_ice_within_tolerance _ _ _ hsv hw
    · rename_i hlt
      rw [if_neg hlt]
      have := C35_ice_within_tolerance _ _ _ hsv hw
      linarith [not_lt.mp hlt]
  · have := sati_ok_iff.mp ⟨_, hsv⟩
    dsimp only
    split <;> exact this
  · exact sati_ok_iff.mp ⟨_, hes⟩
  rw [if_neg (by simp [hle1_status hr])]
  exact Quiet.pure _

theorem quiet_efcon (k t p : ℝ) (e : Option ℝ) : Quiet S T (efcon k t p e) := by
  have := quiet_sati (S := S) (T := T) t
  unfold efcon diffusion_coef mix_ratio
  cases e <;> quiet

theorem quiet_g_soil (c : Env) (i : InputData) (b : Bool) (s : Snow) : Quiet S T (g_soil c i b s) := by
  have h0 := quiet_sati (S := S) (T := T) s.t_s_0
  have h1 := quiet_sati (S := S) (T := T) s.t_s_l
  have h2 := quiet_sati (S := S) (T := T) i.t_g
  unfold g_soil ssxfr Snow.e_s_0 Snow.e_s_l InputData.e_g
  have he := quiet_efcon (S := S) (T := T)
  dsimp only
  cases b
  · simp only [Bool.false_eq_true, if_false]
    exact Quiet.bind h1 fun _ _ => Quiet.bind h2 fun _ _ =>
      Quiet.bind (he _ _ _ _) fun _ _ => Quiet.bind (he _ _ _ _) fun _ _ => quiet_pdiv _ _
  · simp only [if_true]
    exact Quiet.bind h0 fun _ _ => Quiet.bind h2 fun _ _ =>
      Quiet.bind (he _ _ _ _) fun _ _ => Quiet.bind (he _ _ _ _) fun _ _ => quiet_pdiv _ _

theorem quiet_g_snow (c : Env) (s : Snow) : Quiet S T (g_snow c s) := by
  unfold g_snow ssxfr Snow.e_s_0 Snow.e_s_l
  refine Quiet.ite (fun _ => Quiet.ok _) fun _ => Quiet.bind (quiet_sati _) fun _ _ =>
    Quiet.bind (quiet_efcon _ _ _ _) fun _ _ => Quiet.bind (quiet_sati _) fun _ _ =>
    Quiet.bind (quiet_efcon _ _ _ _) fun _ _ => quiet_pdiv _ _

theorem quiet_energy (c : Env) (dt : ℝ) (p : Phys) (hg : S → GuessFinite p.init_ustar p.init_factor) : Quiet S T (energy_balance c dt p) := by
  unfold energy_balance
  refine Quiet.ite (fun _ => Quiet.bind (quiet_h_le _ _ hg) fun _ _ => Quiet.bind ?_ fun _ _ =>
    Quiet.bind ?_ fun _ _ => Quiet.pure _) fun _ => Quiet.ok _
  · unfold heat_transfer
    exact Quiet.ite (fun _ => Quiet.bind (quiet_g_soil _ _ _ _) fun _ _ => Quiet.pure _) fun _ =>
      Quiet.bind (quiet_g_soil _ _ _ _) fun _ _ => Quiet.bind (quiet_g_snow _ _) fun _ _ => Quiet.pure _
  · unfold advec
    exact Quiet.ite (fun _ => quiet_pdiv _ _) fun _ => Quiet.ok _

theorem quiet_init (c : Env) (s : Snow) : Quiet S T (init_snow c s) := by
  unfold init_snow initLayers initWater Snow.dry_snow_density
  quiet

theorem quiet_tsno (a b d : ℝ) : Quiet S T (new_tsno a b d) := by
  unfold new_tsno; quiet

theorem quiet_mass (c : Env) (i : InputData) (dt : ℝ) (s : Snow) : Quiet S T (mass_balance c i dt s) := by
  unfold mass_balance
  refine Quiet.bind ?_ fun s _ => Quiet.bind ?_ fun s _ => Quiet.bind ?_ fun s _ =>
    Quiet.bind ?_ fun s _ => Quiet.bind ?_ fun s _ => Quiet.bind ?_ fun s _ =>
    Quiet.ite (fun _ => ?_) fun _ => Quiet.pure _
  · unfold time_compact compactRate; quiet
  · have := quiet_init (S := S) (T := T) c
    unfold precip_event
    dsimp only
    refine Quiet.ite (fun _ => Quiet.ite (fun _ => Quiet.pure _) fun _ => Quiet.ite (fun _ =>
      Quiet.bind (this _) fun _ _ => Quiet.pure _) fun _ => Quiet.pure _) fun _ => Quiet.ok _
  · unfold snowmelt refreezeSurf refreezeLower; quiet
  · have hsoil : ∀ t, Quiet S T (soilEvap c i dt t) := by
      intro t
      have h0 := quiet_sati (S := S) (T := T) t.t_s_0
      have h1 := quiet_sati (S := S) (T := T) t.t_s_l
      have h2 := quiet_sati (S := S) (T := T) i.t_g
      unfold soilEvap spec_hum gas_density diffusion_coef vapor_flux Snow.e_s_0 Snow.e_s_l InputData.e_g
      dsimp only
      quiet
    unfold evap_cond
    dsimp only
    refine Quiet.ite (fun _ => Quiet.ok _) fun _ => Quiet.ite (fun _ => ?_) fun _ =>
      Quiet.bind (hsoil _) fun _ _ => ?_
    · simp only [pure_ok, bind_ok]; quiet
    · simp only [pure_ok, bind_ok]; quiet
  · unfold h2o_compact h2oAdded; quiet
  · unfold runoff; quiet
  · have := quiet_tsno (S := S) (T := T)
    unfold Snow.adjust_layer_temps
    refine Quiet.ite (fun _ => Quiet.bind (quiet_tsno _ _ _) fun _ _ => Quiet.pure _) fun _ =>
      Quiet.ite (fun _ => Quiet.ite (fun _ => Quiet.pure _) fun _ => Quiet.bind (quiet_tsno _ _ _)
        fun _ _ => Quiet.bind (quiet_tsno _ _ _) fun _ _ => Quiet.bind (quiet_tsno _ _ _)
        fun _ _ => Quiet.pure _) fun _ => Quiet.ok _

theorem quiet_stepPhys (c : Env) (dt : ℝ) (dl : InputData) (p : Phys)
    (hg : S → GuessFinite p.init_ustar p.init_factor) : Quiet S T (stepPhys c dt dl p) := by
  unfold stepPhys
  exact Quiet.bind (quiet_energy _ _ _ (by split <;> exact hg)) fun _ _ => Quiet.bind (quiet_mass _ _ _ _) fun _ _ => Quiet.pure _

theorem quiet_iterM {σ : Type} {f : σ → Except Err σ} (h : ∀ s, Quiet S T (f s)) :
    ∀ (n : ℕ) (s : σ), Quiet S T (iterM f n s) := by
  intro n
  induction n with
  | zero => intro s; exact Quiet.ok _
  | succ n ih => intro s; exact Quiet.bind (h s) fun a _ => ih a

theorem quiet_new (r : Rec) : Quiet S False (InputData.new r) := by
  rw [new_eq]; quiet

/-- No data time step raises an internal exception. -/
theorem quiet_data (c : Env) (ts : Tsteps) (all : Bool) (i1 i2 : InputData) (m : Model) :
    Quiet False False (do_data_tstep c ts all i1 i2 m) := by
  unfold do_data_tstep
  have hd : ∀ t, Quiet False False (deltaFor i1 i2 t) := by
    intro t
    rw [deltaFor_eq]
    exact Quiet.ite (fun _ => Quiet.err (by simp [Internal])) fun _ => quiet_new _
  refine Quiet.bind ?_ fun dl _ => ?_
  · unfold inputDeltas
    exact Quiet.bind (hd _) fun _ _ => Quiet.bind (hd _) fun _ _ => Quiet.bind (hd _) fun _ _ =>
      Quiet.pure _
  · have ho : ∀ st, Quiet False False ((snobalSim c ts all dl).output st) := by
      intro st
      unfold Sim.output
      refine Quiet.bind ?_ fun _ _ => Quiet.pure _
      show Quiet False False (snapshot _ _ _)
      unfold snapshot
      split
      · exact Quiet.err (by simp [Internal])
      · exact Quiet.ok _
    have ht : ∀ lv st, Quiet False False ((snobalSim c ts all dl).do_tstep lv st) := by
      intro lv st
      unfold Sim.do_tstep
      dsimp only
      refine Quiet.bind (quiet_stepPhys _ _ _ _ False.elim) fun _ _ => Quiet.bind ?_ fun _ _ =>
        Quiet.ite (fun _ => Quiet.bind (ho _) fun _ _ => Quiet.pure _) fun _ => Quiet.pure _
      show Quiet False False (accumulate _ _ _)
      unfold accumulate Acc.time_average Energy.average time_average
      refine Quiet.ite (fun _ => Quiet.bind (Quiet.bind (by quiet) fun _ _ => ?_) fun _ _ => Quiet.pure _)
        fun _ => Quiet.ok _
      split
      · exact Quiet.throw (by simp [Internal])
      · exact Quiet.pure _
    have hs : ∀ st, Quiet False False ((snobalSim c ts all dl).smallBlock st) := fun st => by
      unfold Sim.smallBlock
      exact quiet_iterM (fun s => ht _ _) _ _
    have hm : ∀ st, Quiet False False ((snobalSim c ts all dl).mediumBlock st) := fun st => by
      unfold Sim.mediumBlock
      exact quiet_iterM (fun s => Quiet.ite (fun _ => hs _) fun _ => ht _ _) _ _
    have hn : ∀ st, Quiet False False ((snobalSim c ts all dl).normalBlock st) := fun st => by
      unfold Sim.normalBlock
      exact quiet_iterM (fun s => Quiet.ite (fun _ => hm _) fun _ => ht _ _) _ _
    rw [data_tstep_eq]
    first
      | exact Quiet.bind (hn _) fun _ _ => Quiet.ite (fun _ => Quiet.pure _) fun _ => ho _
      | exact Quiet.bind (hn _) fun _ _ => Quiet.ite (fun _ => ho _) fun _ => Quiet.pure _
      | exact Quiet.bind (hn _) fun _ _ => Quiet.ite (fun _ => ho _) fun _ => Quiet.ok _

theorem quiet_runSteps (c : Env) (ts : Tsteps) (all : Bool) : ∀ (rs : List Rec) (i : InputData)
    (m : Model), Quiet False False (runSteps c ts all i rs m) := by
  intro rs
  induction rs with
  | nil => intro i m; exact Quiet.ok _
  | cons r rs ih =>
    intro i m
    unfold runSteps
    exact Quiet.bind (quiet_new _) fun _ _ => Quiet.bind (quiet_data _ _ _ _ _ _) fun _ _ => ih _ _

end

end Pysnobal
