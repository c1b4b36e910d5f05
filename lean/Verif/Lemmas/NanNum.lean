import Verif.NanDriver
import Verif.Props.Missing

/-! # On numbers, the functions with missing values are the functions without: `NanFunctions.lean` -/

namespace Pysnobal

noncomputable section

open Classical

theorem NVal.eq_some (x y : ℝ) : NVal.eq (some x) (some y) ↔ x = y := by
  constructor
  · rintro ⟨_, h1, h2⟩; cases h1; cases h2; rfl
  · rintro rfl; exact ⟨x, rfl, rfl⟩
theorem NVal.eq_none (a : NVal) : ¬NVal.eq a none := by rintro ⟨_, _, h⟩; cases h
theorem NVal.none_eq (a : NVal) : ¬NVal.eq none a := by rintro ⟨_, h, _⟩; cases h
theorem NVal.le_some (x y : ℝ) : NVal.le (some x) (some y) ↔ x ≤ y := by
  constructor
  · rintro ⟨_, _, h1, h2, h⟩; cases h1; cases h2; exact h
  · intro h; exact ⟨x, y, rfl, rfl, h⟩
theorem NVal.le_none (a : NVal) : ¬NVal.le a none := by rintro ⟨_, _, _, h, _⟩; cases h
theorem NVal.none_le (a : NVal) : ¬NVal.le none a := by rintro ⟨_, _, h, _⟩; cases h

theorem map_ok {α β : Type} (g : α → β) (a : α) : Except.map g (Except.ok a : Except Err α) = .ok (g a) := rfl
theorem map_error {α β : Type} (g : α → β) (e : Err) : Except.map g (Except.error e : Except Err α) = .error e := rfl
theorem map_bind {α β γ : Type} (g : β → γ) (m : Except Err α) (k : α → Except Err β) :
    Except.map g (m >>= k) = m >>= fun a => (k a).map g := by cases m <;> rfl
theorem bind_map {α β γ : Type} (g : α → β) (m : Except Err α) (k : β → Except Err γ) :
    (Except.map g m >>= k) = m >>= fun a => k (g a) := by cases m <;> rfl
theorem map_map {α β γ : Type} (g : α → β) (f : β → γ) (m : Except Err α) :
    Except.map f (Except.map g m) = m.map fun a => f (g a) := by cases m <;> rfl
theorem map_ite {α β : Type} (g : α → β) (p : Prop) [Decidable p] (a b : Except Err α) :
    Except.map g (if p then a else b) = if p then a.map g else b.map g := by split <;> rfl
theorem map_throw {α β : Type} (g : α → β) (e : Err) : Except.map g (throw e : Except Err α) = .error e := rfl
theorem map_pure {α β : Type} (g : α → β) (a : α) : Except.map g (pure a : Except Err α) = .ok (g a) := rfl

namespace Nan

theorem add_s (x y : ℝ) : (some x : NVal) + (some y : NVal) = some (x + y) := rfl
theorem sub_s (x y : ℝ) : (some x : NVal) - (some y : NVal) = some (x - y) := rfl
theorem mul_s (x y : ℝ) : (some x : NVal) * (some y : NVal) = some (x * y) := rfl
theorem div_s (x y : ℝ) : (some x : NVal) / (some y : NVal) = some (x / y) := rfl
theorem neg_s (x : ℝ) : -(some x : NVal) = some (-x) := rfl
theorem pow_s (x : ℝ) (n : ℕ) : (some x : NVal) ^ n = some (x ^ n) := rfl
theorem ofNat_s (n : ℕ) [OfNat ℝ n] : (OfNat.ofNat n : NVal) = some (OfNat.ofNat n) := rfl
theorem zero_s : (0 : NVal) = some 0 := rfl
theorem one_s : (1 : NVal) = some 1 := rfl
theorem sci_s (m : ℕ) (s : Bool) (e : ℕ) :
    (OfScientific.ofScientific m s e : NVal) = some (OfScientific.ofScientific m s e) := rfl
theorem pdiv_s (x y : ℝ) : NVal.div (some x) (some y) = (Pysnobal.pdiv x y).map some := NVal.div_some x y
theorem plog_s (x : ℝ) : plog (some x) = (Pysnobal.plog x).map some := rfl
theorem psqrt_s (x : ℝ) : psqrt (some x) = (Pysnobal.psqrt x).map some := rfl
theorem nexp_s (x : ℝ) : nexp (some x) = some (Real.exp x) := rfl
theorem ncos_s (x : ℝ) : ncos (some x) = some (Real.cos x) := rfl
theorem narctan_s (x : ℝ) : narctan (some x) = some (Real.arctan x) := rfl
theorem n10pow_s (x : ℝ) : n10pow (some x) = some ((10 : ℝ) ^ x) := rfl
theorem nabs_s (x : ℝ) : nabs (some x) = some |x| := rfl
theorem ite_s (p : Prop) [Decidable p] (x y : ℝ) : (if p then (some x : NVal) else some y) = some (if p then x else y) := by
  split <;> rfl

/-- Rewriting on numbers. -/
macro "nnum" "[" ls:term,* "]" : tactic =>
  `(tactic| simp only [$[$ls:term],*, NVal.eq_some, NVal.le_some, NVal.lt_some, map_ok, map_error, map_bind, bind_map, map_map, map_ite,
    map_throw, map_pure, bind_ok, pure_ok, bind_error, throw_err,
    add_s, sub_s, mul_s, div_s, neg_s, pow_s, zero_s, one_s, ofNat_s, sci_s, pdiv, pdiv_s, plog_s, psqrt_s, nexp_s, ncos_s, narctan_s,
    n10pow_s, nabs_s, ite_s])

theorem cp_ice_s (t : ℝ) : cp_ice (some t) = some (Pysnobal.cp_ice t) := rfl
theorem cp_water_s (t : ℝ) : cp_water (some t) = some (Pysnobal.cp_water t) := rfl
theorem time_average_s (a t v d : ℝ) :
    time_average (some a) (some t) (some v) (some d) = (Pysnobal.time_average a t v d).map some := by
  unfold time_average Pysnobal.time_average; nnum [map_ok]
theorem gas_density_s (a b t : ℝ) :
    gas_density (some a) (some b) (some t) = (Pysnobal.gas_density a b t).map some := by
  unfold gas_density Pysnobal.gas_density; nnum [map_ok]
theorem virtual_temperature_s (a b t : ℝ) :
    virtual_temperature (some a) (some b) (some t) = (Pysnobal.virtual_temperature a b t).map some := by
  unfold virtual_temperature Pysnobal.virtual_temperature; nnum [map_ok]
theorem lh_vap_s (t : ℝ) : lh_vap (some t) = some (Pysnobal.lh_vap t) := rfl
theorem lh_fus_s (t : ℝ) : lh_fus (some t) = some (Pysnobal.lh_fus t) := rfl
theorem lh_sub_s (t : ℝ) : lh_sub (some t) = some (Pysnobal.lh_sub t) := rfl
theorem mix_ratio_s (a b : ℝ) : mix_ratio (some a) (some b) = (Pysnobal.mix_ratio a b).map some := by
  unfold mix_ratio Pysnobal.mix_ratio; nnum [map_ok]
theorem diffusion_coef_s (a b : ℝ) : diffusion_coef (some a) (some b) = (Pysnobal.diffusion_coef a b).map some := by
  unfold diffusion_coef Pysnobal.diffusion_coef; nnum [map_ok]
theorem vapor_flux_s (a b c d : ℝ) :
    vapor_flux (some a) (some b) (some c) (some d) = (Pysnobal.vapor_flux a b c d).map some := by
  unfold vapor_flux Pysnobal.vapor_flux; nnum [map_ok]
theorem h2o_left_s (a b c : ℝ) : h2o_left (some a) (some b) (some c) = some (Pysnobal.h2o_left a b c) := rfl
theorem melt_s (q : ℝ) : melt (some q) = some (Pysnobal.melt q) := rfl
theorem new_tsno_s (a b c : ℝ) : new_tsno (some a) (some b) (some c) = (Pysnobal.new_tsno a b c).map some := by
  unfold new_tsno Pysnobal.new_tsno; nnum [cp_ice_s]
theorem heat_stor_s (a b c : ℝ) : heat_stor (some a) (some b) (some c) = some (Pysnobal.heat_stor a b c) := rfl

theorem satwExp_s (a b c : ℝ) : satwExp (some a) (some b) (some c) = some (Pysnobal.satwExp a b c) := rfl
theorem satiExp_s (a b c : ℝ) : satiExp (some a) (some b) (some c) = some (Pysnobal.satiExp a b c) := rfl
theorem satw_s (t : ℝ) : satw (some t) = (Pysnobal.satw t).map some := by
  unfold satw Pysnobal.satw; nnum [satwExp_s]
theorem sati_s (t : ℝ) : sati (some t) = (Pysnobal.sati t).map some := by
  unfold sati Pysnobal.sati; nnum [satiExp_s, satw_s]
theorem spec_hum_s (a b : ℝ) : spec_hum (some a) (some b) = (Pysnobal.spec_hum a b).map some := by
  unfold spec_hum Pysnobal.spec_hum; nnum [map_ok]
theorem psi_s (z : ℝ) (code : PsiCode) : psi (some z) code = (Pysnobal.psi z code).map some := by
  unfold psi Pysnobal.psi
  cases code <;> nnum [map_ok]
theorem psi_nan (code : PsiCode) : psi none code = .ok (some 0) := by
  unfold psi
  rw [if_neg (NVal.lt_none _), if_neg (NVal.none_lt _)]
  rfl
theorem psiAt_s (z : ℝ) (lo : Option ℝ) (code : PsiCode) :
    psiAt (some z) lo code = (Pysnobal.psiAt z lo code).map some := by
  unfold psiAt Pysnobal.psiAt
  cases lo with
  | none => nnum [psi_s]
  | some l => nnum [psi_s, ne_eq, reduceCtorEq, not_false_eq_true, and_true]

/-- Numbers only. -/
def HleConst.ofReal (k : Pysnobal.HleConst) : HleConst :=
  { ltsm := some k.ltsm, ltsh := some k.ltsh, ltsv := some k.ltsv, q_diff := some k.q_diff, t_diff := some k.t_diff,
    dens := some k.dens, air_temp := some k.air_temp, za := some k.za, zq := some k.zq, zu := some k.zu,
    wind_speed := some k.wind_speed }
/-- Numbers only. -/
def HleSt.ofReal (s : Pysnobal.HleSt) : HleSt :=
  { lo := s.lo, ustar := some s.ustar, factor := some s.factor, e := some s.e, h := some s.h }
/-- Numbers only. -/
def HleIn.ofReal (a : Pysnobal.HleIn) : HleIn :=
  { press := some a.press, air_temp := some a.air_temp, surface_temp := some a.surface_temp, za := some a.za,
    ea := some a.ea, es := some a.es, zq := some a.zq, wind_speed := some a.wind_speed, zu := some a.zu,
    z0 := some a.z0, init_ustar := a.init_ustar.map some, init_factor := a.init_factor.map some }
/-- Numbers only. -/
def HleOut.ofReal (o : Pysnobal.HleOut) : HleOut :=
  { h := some o.h, le := some o.le, e := some o.e, status := o.status, ustar := some o.ustar, factor := some o.factor }

theorem HleSt.ofReal_lo (s : Pysnobal.HleSt) : (HleSt.ofReal s).lo = s.lo := rfl

theorem hleLo_s (k : Pysnobal.HleConst) (s : Pysnobal.HleSt) :
    hleLo (.ofReal k) (.ofReal s) = Pysnobal.hleLo k s := by
  unfold hleLo Pysnobal.hleLo HleConst.ofReal HleSt.ofReal
  nnum [map_ok]
theorem hleStep_s (k : Pysnobal.HleConst) (s : Pysnobal.HleSt) :
    hleStep (.ofReal k) (.ofReal s) = (Pysnobal.hleStep k s).map HleSt.ofReal := by
  unfold hleStep Pysnobal.hleStep
  rw [hleLo_s]
  nnum [HleConst.ofReal, psiAt_s]
  rfl
theorem hleConverged_s (a b : Option ℝ) : hleConverged a b = Pysnobal.hleConverged a b := by
  unfold hleConverged Pysnobal.hleConverged
  cases a <;> cases b <;> simp
theorem hleLoop_s (k : Pysnobal.HleConst) (n it : ℕ) (s : Pysnobal.HleSt) :
    hleLoop (.ofReal k) n it (.ofReal s) = (Pysnobal.hleLoop k n it s).map fun r => (r.1, HleSt.ofReal r.2) := by
  induction n generalizing it s with
  | zero => rfl
  | succ n ih =>
    unfold hleLoop Pysnobal.hleLoop
    nnum [hleStep_s, hleConverged_s, ih, HleSt.ofReal_lo]
theorem hleCheck_s (a : Pysnobal.HleIn) : hleCheck (.ofReal a) = (Pysnobal.hleCheck a).map some := by
  unfold hleCheck Pysnobal.hleCheck HleIn.ofReal
  nnum [satw_s]
theorem hleConst_s (a : Pysnobal.HleIn) (ea : ℝ) :
    hleConst (.ofReal a) (some ea) = (Pysnobal.hleConst a ea).map HleConst.ofReal := by
  unfold hleConst Pysnobal.hleConst HleIn.ofReal
  nnum [spec_hum_s, virtual_temperature_s, gas_density_s]
  rfl
theorem hleSolve_s (a : Pysnobal.HleIn) (k : Pysnobal.HleConst) :
    hleSolve (.ofReal a) (.ofReal k) = (Pysnobal.hleSolve a k).map fun r => (r.1, HleSt.ofReal r.2) := by
  unfold hleSolve Pysnobal.hleSolve
  have hl := fun n it lo u f e h => hleLoop_s k n it { lo := lo, ustar := u, factor := f, e := e, h := h }
  unfold HleConst.ofReal HleSt.ofReal at *
  cases h1 : a.init_ustar <;> cases h2 : a.init_factor <;>
    nnum [HleIn.ofReal, h1, h2, Option.map, hl]
theorem hleFinish_s (a : Pysnobal.HleIn) (it : Option ℕ) (s : Pysnobal.HleSt) :
    hleFinish (.ofReal a) it (.ofReal s) = (Pysnobal.hleFinish a it s).map HleOut.ofReal := by
  unfold hleFinish Pysnobal.hleFinish
  cases it with
  | none => rfl
  | some it => nnum [HleIn.ofReal, HleSt.ofReal, lh_vap_s, lh_fus_s, HleOut.ofReal]
theorem hle1_s (a : Pysnobal.HleIn) : hle1 (.ofReal a) = (Pysnobal.hle1 a).map HleOut.ofReal := by
  unfold hle1 Pysnobal.hle1
  nnum [hleCheck_s, hleConst_s, hleSolve_s, hleFinish_s]
theorem efcon_s (k t p : ℝ) (e : Option ℝ) :
    efcon (some k) (some t) (some p) (e.map some) = (Pysnobal.efcon k t p e).map some := by
  unfold efcon Pysnobal.efcon
  cases e <;> nnum [Option.map, diffusion_coef_s, lh_vap_s, lh_sub_s, sati_s, mix_ratio_s]
theorem ssxfr_s (a b c d e f : ℝ) :
    ssxfr (some a) (some b) (some c) (some d) (some e) (some f) = (Pysnobal.ssxfr a b c d e f).map some := by
  unfold ssxfr Pysnobal.ssxfr; nnum [map_ok]

end Nan

end

end Pysnobal
