import Verif.Missing

/-! # The physics with missing values: numbers, `core/functions.py`, `core/snow.py`, `point/libsnobal.py`

The definitions of `Functions.lean` and `Libsnobal.lean` once more, over `NVal`: a float that may be NaN (`none`).
Arithmetic with a NaN operand gives NaN; `math.log`, `math.sqrt`, `np.exp`, `np.power` … of NaN are NaN and raise
nothing; every comparison with NaN is false, `!=` is true.  Infinities are treated as in the rest of the model.
`Lemmas/NanNum.lean`, `NanSnow.lean` and `NanRun.lean` prove that on numbers these definitions
agree with the others. -/

namespace Pysnobal

noncomputable section

open Classical

/-! ### Python arithmetic and comparison on floats that may be NaN -/

/-- `a <= b`: false if either operand is NaN. -/
def NVal.le (a b : NVal) : Prop := ∃ x y, a = some x ∧ b = some y ∧ x ≤ y
/-- `a == b`: false if either operand is NaN. -/
def NVal.eq (a b : NVal) : Prop := ∃ x, a = some x ∧ b = some x

namespace Nan

/-- Python `+` -/
scoped instance : Add NVal := ⟨NVal.add⟩
/-- Python `-` -/
scoped instance : Sub NVal := ⟨NVal.sub⟩
/-- Python `*` -/
scoped instance : Mul NVal := ⟨NVal.mul⟩
/-- Python unary `-` -/
scoped instance : Neg NVal := ⟨fun a => a.map fun x => -x⟩
/-- Python `/` where the divisor is known not to be zero; `pdiv` elsewhere. -/
scoped instance : Div NVal := ⟨fun a b => a.bind fun x => b.map fun y => x / y⟩
/-- Python `**` with a natural number. -/
scoped instance : Pow NVal ℕ := ⟨fun a n => a.map fun x => x ^ n⟩
/-- Python integer literals -/
scoped instance (n : ℕ) [OfNat ℝ n] : OfNat NVal n := ⟨some (OfNat.ofNat n)⟩
/-- Python float literals -/
scoped instance : OfScientific NVal := ⟨fun m s e => some (OfScientific.ofScientific m s e)⟩

@[inherit_doc NVal.lt] scoped infix:50 " <ₙ " => NVal.lt
@[inherit_doc NVal.le] scoped infix:50 " ≤ₙ " => NVal.le
@[inherit_doc NVal.eq] scoped infix:50 " =ₙ " => NVal.eq
/-- `a > b` -/
scoped notation:50 a:51 " >ₙ " b:51 => NVal.lt b a
/-- `a >= b` -/
scoped notation:50 a:51 " ≥ₙ " b:51 => NVal.le b a

/-- Python `a / b`. -/
abbrev pdiv (a b : NVal) : Except Err NVal := NVal.div a b
/-- Python `math.log(x)`. -/
def plog (x : NVal) : Except Err NVal :=
  match x with
  | none => .ok none
  | some y => (Pysnobal.plog y).map some
/-- Python `math.sqrt(x)`. -/
def psqrt (x : NVal) : Except Err NVal :=
  match x with
  | none => .ok none
  | some y => (Pysnobal.psqrt y).map some
/-- `np.exp` -/
def nexp (x : NVal) : NVal := x.map Real.exp
/-- `np.cos` -/
def ncos (x : NVal) : NVal := x.map Real.cos
/-- `math.atan` -/
def narctan (x : NVal) : NVal := x.map Real.arctan
/-- `np.power(10, x)` -/
def n10pow (x : NVal) : NVal := x.map fun y => (10 : ℝ) ^ y
/-- `np.abs` -/
def nabs (x : NVal) : NVal := x.map fun y => |y|

/-! ### `core/functions.py`, `core/snow.py` -/
/-- core/functions.py:41–51 -/
def cp_ice (t : NVal) : NVal := CAL_TO_J * (0.024928 + (0.00176 * t)) / 0.001

/-- core/functions.py:54–65 -/
def cp_water (t : NVal) : NVal := CP_W0 - 2.55 * (t - FREEZE)

/-- core/functions.py:68–81 -/
def time_average (avg total_time value time_incr : NVal) : Except Err NVal :=
  pdiv (avg * total_time + value * time_incr) (total_time + time_incr)

/-- core/functions.py:84–96 -/
def gas_density (pressure mole_air temp : NVal) : Except Err NVal :=
  pdiv (pressure * mole_air) (RGAS * temp)

/-- core/functions.py:99–113 -/
def virtual_temperature (temp vapor_pressure pressure : NVal) : Except Err NVal := do
  let r ← pdiv vapor_pressure pressure
  pdiv temp (1 - (1 - MOL_H2O / MOL_AIR) * r)

/-- core/functions.py:116–125 -/
def lh_vap (temp : NVal) : NVal := 2500000 - 2955.73 * (temp - FREEZE)

/-- core/functions.py:128–137 -/
def lh_fus (temp : NVal) : NVal := 333600 + 166.67 * (FREEZE - temp)

/-- core/functions.py:140–149 -/
def lh_sub (temp : NVal) : NVal := lh_vap temp + lh_fus temp

/-- core/functions.py:152–162 -/
def mix_ratio (vapor_pressure pressure : NVal) : Except Err NVal :=
  pdiv ((MOL_H2O / MOL_AIR) * vapor_pressure) (pressure - vapor_pressure)

/-- core/functions.py:165–178.  The exponent `14.0` is integral, so `np.power` is defined for every
base and agrees with the natural-number power. -/
def diffusion_coef (pressure temp : NVal) : Except Err NVal := do
  let r ← pdiv SEA_LEVEL pressure
  pure (0.65 * r * (temp / FREEZE) ^ 14 * (0.01 * 0.01))

/-- core/functions.py:181–193 -/
def vapor_flux (air_density k q_dif z_dif : NVal) : Except Err NVal := do
  let r ← pdiv q_dif z_dif
  pure (air_density * k * r)

/-- core/snow.py:5–16 (the divisor is the non-zero constant `RHO_ICE`) -/
def h2o_left (d rhos sat : NVal) : NVal := (sat * d * RHO_W0 * (RHO_ICE - rhos)) / RHO_ICE

/-- core/snow.py:19–28 (the divisor `lh_fus(FREEZE)` is the non-zero constant 333600) -/
def melt (Q : NVal) : NVal := Q / lh_fus FREEZE

/-- core/snow.py:31–52 -/
def new_tsno (spm t0 ccon : NVal) : Except Err NVal := do
  let cp := cp_ice t0
  let tdif ← pdiv ccon (spm * cp)
  pure (tdif + FREEZE)

/-- core/snow.py:55–64 -/
def heat_stor (cp spm tdif : NVal) : NVal := cp * spm * tdif

/-! ### `point/libsnobal.py` -/

/-- The exponent computed by `satw`, libsnobal.py:92–97 (after `btk` and its log are known). -/
def satwExp (tk btk lbtk : NVal) : NVal :=
  -7.90298 * (btk - 1) +
    5.02808 * lbtk / LOG_10 -
    1.3816e-7 * (n10pow (11.344 * (1 - tk / BOIL)) - 1) +
    8.1328e-3 * (n10pow (-3.49149 * (btk - 1)) - 1) +
    some (LOG_SEA_LEVEL / LOG_10)

/-- libsnobal.py:83–101 -/
def satw (tk : NVal) : Except Err NVal :=
  if tk <ₙ 0 then .error .negTemp
  else do
    let btk ← pdiv BOIL tk
    let l ← plog btk
    pure (n10pow (satwExp tk btk l))

/-- The exponent computed by `sati` below freezing, libsnobal.py:121–126. -/
def satiExp (tk ftk lftk : NVal) : NVal :=
  -9.09718 * (ftk - 1) -
    3.56654 * lftk / LOG_10 +
    0.876793 * (1 - tk / FREEZE) +
    some (Real.log 6.1071 / LOG_10)

/-- libsnobal.py:105–128 -/
def sati (tk : NVal) : Except Err NVal :=
  if tk <ₙ 0 then .error .negTemp
  else if tk >ₙ FREEZE then satw tk
  else do
    let ftk ← pdiv FREEZE tk
    let l ← plog ftk
    pure (100 * n10pow (satiExp tk ftk l))

/-- libsnobal.py:131–139 -/
def spec_hum (e P : NVal) : Except Err NVal :=
  pdiv (e * MOL_H2O) (MOL_AIR * P + e * (MOL_H2O - MOL_AIR))

/-- libsnobal.py:143–173 -/
def psi (zeta : NVal) (code : PsiCode) : Except Err NVal :=
  if zeta >ₙ 0 then
    let z := if zeta >ₙ 1 then 1 else zeta
    .ok (-BETA_S * z)
  else if zeta <ₙ 0 then do
    let y ← psqrt (1 - BETA_U * zeta)
    let x ← psqrt y
    match code with
    | .SM => do
        let l1 ← plog ((1 + x) / 2)
        let l2 ← plog ((1 + x * x) / 2)
        pure (2 * l1 + l2 - 2 * narctan x + some (Real.pi / 2))
    | .SH | .SV => do
        let l ← plog ((1 + x * x) / 2)
        pure (2 * l)
    | .other => throw .psiCode
  else .ok 0

/-- `psi(z / lo, code)` where `lo` is a numpy scalar: `none` stands for an infinite or NaN `lo`, as in
`Pysnobal.psiAt` (libsnobal.py:298–306).  A NaN `z` gives a NaN quotient. -/
def psiAt (z : NVal) (lo : NVal) (code : PsiCode) : Except Err NVal :=
  match lo with
  | none => psi 0 code
  | some l => if l = 0 ∧ z ≠ none then .error .nonFinite else psi (z / some l) code

/-- The quantities `hle1` computes before its loop (libsnobal.py:238–259). -/
structure HleConst where
  ltsm : NVal
  ltsh : NVal
  ltsv : NVal
  q_diff : NVal
  t_diff : NVal
  dens : NVal
  /-- potential air temperature (`air_temp` after libsnobal.py:252) -/
  air_temp : NVal
  za : NVal
  zq : NVal
  zu : NVal
  wind_speed : NVal

/-- The loop variables of `hle1` (libsnobal.py:274–312); `lo = none` is the initial `1e500`
(infinity) or a later non-finite value. -/
structure HleSt where
  lo : NVal
  ustar : NVal
  factor : NVal
  e : NVal
  h : NVal

/-- The new Obukhov length, libsnobal.py:295–296; `none` if it is infinite or NaN. -/
def hleLo (k : HleConst) (s : HleSt) : NVal :=
  let den := VON_KARMAN * GRAVITY * (s.h / (k.air_temp * CP_AIR) + 0.61 * s.e)
  if den =ₙ 0 then none else s.ustar * s.ustar * s.ustar * k.dens / den

/-- One pass of the loop body without the convergence test, libsnobal.py:291–309. -/
def hleStep (k : HleConst) (s : HleSt) : Except Err HleSt := do
  let lo := hleLo k s
  let pm ← psiAt k.zu lo .SM
  let ustar ← pdiv (VON_KARMAN * k.wind_speed) (k.ltsm - pm)
  let factor := VON_KARMAN * ustar * k.dens
  let pv ← psiAt k.zq lo .SV
  let e ← pdiv (k.q_diff * factor * AV) (k.ltsv - pv)
  let ph ← psiAt k.za lo .SH
  let h ← pdiv (k.t_diff * factor * AH * CP_AIR) (k.ltsh - ph)
  pure { lo, ustar, factor, e, h }

/-- The convergence test, libsnobal.py:309–312; comparisons with inf or NaN are false. -/
def hleConverged (last lo : NVal) : Bool :=
  match last, lo with
  | some a, some l => decide (|a - l| < THRESH ∧ |(a - l) / l| < THRESH)
  | _, _ => false

/-- `for it in range(ITMAX)`, libsnobal.py:290–315, from iteration `it` with `n` iterations left.
Returns the last value of the loop variable `it` together with the loop state. -/
def hleLoop (k : HleConst) : ℕ → ℕ → HleSt → Except Err (ℕ × HleSt)
  | 0, it, s => .ok (it - 1, s)
  | n + 1, it, s => do
      let s' ← hleStep k s
      if hleConverged s.lo s'.lo then pure (it, s')
      else hleLoop k n (it + 1) s'

/-- Return value of `hle1`, libsnobal.py:327. -/
structure HleOut where
  h : NVal
  le : NVal
  e : NVal
  status : ℤ
  ustar : NVal
  factor : NVal

/-- Arguments of `hle1`, libsnobal.py:177–178. -/
structure HleIn where
  press : NVal
  air_temp : NVal
  surface_temp : NVal
  za : NVal
  ea : NVal
  es : NVal
  zq : NVal
  wind_speed : NVal
  zu : NVal
  z0 : NVal
  init_ustar : Option NVal
  init_factor : Option NVal

/-- Input checks of `hle1`, libsnobal.py:208–236; returns the vapour pressure after capping. -/
def hleCheck (a : HleIn) : Except Err NVal :=
  if a.z0 ≤ₙ 0 ∨ a.zq ≤ₙ a.z0 ∨ a.zu ≤ₙ a.z0 ∨ a.za ≤ₙ a.z0 then .error .heights
  else if a.air_temp ≤ₙ 0 ∨ a.surface_temp ≤ₙ 0 then .error .tempsNotK
  else if a.ea ≤ₙ 0 ∨ a.es ≤ₙ 0 ∨ a.press ≤ₙ 0 ∨ a.ea ≥ₙ a.press ∨ a.es ≥ₙ a.press then .error .pressures
  else do
    let ea_w ← satw a.air_temp
    if a.ea - 25 >ₙ ea_w then throw .exceedsSat
    pure (if a.ea >ₙ ea_w then ea_w else a.ea)

/-- libsnobal.py:238–259: displacement height, log profiles, humidity and temperature differences, air
density. -/
def hleConst (a : HleIn) (ea : NVal) : Except Err HleConst := do
  let d0 := 2 * PAESCHKE * a.z0 / 3
  let ltsm ← plog ((a.zu - d0) / a.z0)
  let ltsh ← plog ((a.za - d0) / a.z0)
  let ltsv ← plog ((a.zq - d0) / a.z0)
  let qa ← spec_hum ea a.press
  let qs ← spec_hum a.es a.press
  let air_temp := a.air_temp + DALR * a.za
  let gt ← psqrt (air_temp * a.surface_temp)
  let ge ← psqrt (ea * a.es)
  let vt ← virtual_temperature gt ge a.press
  let dens ← gas_density a.press MOL_AIR vt
  pure { ltsm, ltsh, ltsv, q_diff := qa - qs, t_diff := air_temp - a.surface_temp, dens,
         air_temp, za := a.za, zq := a.zq, zu := a.zu, wind_speed := a.wind_speed }

/-- libsnobal.py:261–315: the neutral branch never assigns the loop variable `it` (`none`); the other
branch initialises and iterates. -/
def hleSolve (a : HleIn) (k : HleConst) : Except Err (Option ℕ × HleSt) :=
  if k.air_temp =ₙ a.surface_temp then do
    let ustar ← pdiv (VON_KARMAN * a.wind_speed) k.ltsm
    let factor := VON_KARMAN * ustar * k.dens
    let e ← pdiv (k.q_diff * factor * AV) k.ltsv
    let h ← pdiv (k.t_diff * factor * CP_AIR * AH) k.ltsh
    pure (none, { lo := none, ustar, factor, e, h })
  else do
    let ustar ← match a.init_ustar with
      | none => pdiv (VON_KARMAN * a.wind_speed) k.ltsm
      | some u => pure u
    let factor := match a.init_factor with
      | none => VON_KARMAN * ustar * k.dens
      | some f => f
    let e ← pdiv (k.q_diff * factor * AV) k.ltsv
    let h ← pdiv (k.t_diff * factor * CP_AIR * AH) k.ltsh
    let (it, s) ← hleLoop k ITMAX 0 { lo := none, ustar, factor, e, h }
    pure (some it, s)

/-- libsnobal.py:317–327 -/
def hleFinish (a : HleIn) (it : Option ℕ) (s : HleSt) : Except Err HleOut :=
  match it with
  | none => .error .unboundLocal
  | some it =>
    let ier : ℤ := if it ≥ ITMAX then -1 else 0
    let xlh := lh_vap a.surface_temp
    let xlh := if a.surface_temp ≤ₙ FREEZE then xlh + lh_fus a.surface_temp else xlh
    .ok { h := s.h, le := xlh * s.e, e := s.e, status := ier, ustar := s.ustar, factor := s.factor }

/-- libsnobal.py:177–327 -/
def hle1 (a : HleIn) : Except Err HleOut := do
  let ea ← hleCheck a
  let k ← hleConst a ea
  let (it, s) ← hleSolve a k
  hleFinish a it s

/-- libsnobal.py:330–364; `es_layer` is the optional argument. -/
def efcon (k layer_temp p_a : NVal) (es_layer : Option NVal) : Except Err NVal := do
  let de ← diffusion_coef p_a layer_temp
  let lh :=
    if layer_temp >ₙ FREEZE then lh_vap layer_temp
    else if layer_temp =ₙ FREEZE then (lh_vap layer_temp + lh_sub layer_temp) / 2
    else lh_sub layer_temp
  let es ← match es_layer with
    | none => sati layer_temp
    | some e => pure e
  let q ← mix_ratio es p_a
  pure (k + (lh * de * q))

/-- libsnobal.py:367–384 -/
def ssxfr (k1 k2 t1 t2 d1 d2 : NVal) : Except Err NVal :=
  pdiv (2 * (k1 * k2 * (t2 - t1))) ((k2 * d1) + (k1 * d2))

end Nan

end

end Pysnobal
