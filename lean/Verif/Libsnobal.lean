import Verif.Functions

/-! # `pysnobal/point/libsnobal.py` -/

namespace Pysnobal

noncomputable section

/-- The exponent computed by `satw`, libsnobal.py:92–97 (after `btk` and its log are known). -/
def satwExp (tk btk lbtk : ℝ) : ℝ :=
  -7.90298 * (btk - 1) +
    5.02808 * lbtk / LOG_10 -
    1.3816e-7 * ((10 : ℝ) ^ (11.344 * (1 - tk / BOIL)) - 1) +
    8.1328e-3 * ((10 : ℝ) ^ (-3.49149 * (btk - 1)) - 1) +
    LOG_SEA_LEVEL / LOG_10

/-- libsnobal.py:83–101 -/
def satw (tk : ℝ) : Except Err ℝ :=
  if tk < 0 then .error .negTemp
  else do
    let btk ← pdiv BOIL tk
    let l ← plog btk
    pure ((10 : ℝ) ^ satwExp tk btk l)

/-- The exponent computed by `sati` below freezing, libsnobal.py:121–126. -/
def satiExp (tk ftk lftk : ℝ) : ℝ :=
  -9.09718 * (ftk - 1) -
    3.56654 * lftk / LOG_10 +
    0.876793 * (1 - tk / FREEZE) +
    Real.log 6.1071 / LOG_10

/-- libsnobal.py:105–128 -/
def sati (tk : ℝ) : Except Err ℝ :=
  if tk < 0 then .error .negTemp
  else if tk > FREEZE then satw tk
  else do
    let ftk ← pdiv FREEZE tk
    let l ← plog ftk
    pure (100 * (10 : ℝ) ^ satiExp tk ftk l)

/-- libsnobal.py:131–139 -/
def spec_hum (e P : ℝ) : Except Err ℝ :=
  pdiv (e * MOL_H2O) (MOL_AIR * P + e * (MOL_H2O - MOL_AIR))

/-- The `code` argument of `psi` (a Python string). -/
inductive PsiCode where
  | SM | SH | SV
  /-- any other string -/
  | other
  deriving DecidableEq, Repr

/-- libsnobal.py:143–173 -/
def psi (zeta : ℝ) (code : PsiCode) : Except Err ℝ :=
  if zeta > 0 then
    let z := if zeta > 1 then 1 else zeta
    .ok (-BETA_S * z)
  else if zeta < 0 then do
    let y ← psqrt (1 - BETA_U * zeta)
    let x ← psqrt y
    match code with
    | .SM => do
        let l1 ← plog ((1 + x) / 2)
        let l2 ← plog ((1 + x * x) / 2)
        pure (2 * l1 + l2 - 2 * Real.arctan x + Real.pi / 2)
    | .SH | .SV => do
        let l ← plog ((1 + x * x) / 2)
        pure (2 * l)
    | .other => throw .psiCode
  else .ok 0

/-- `psi(z / lo, code)` where `lo` is a numpy scalar: `none` stands for an infinite or NaN `lo`;
then `z / lo` is a signed zero or NaN, and `psi` falls through to its neutral branch (both comparisons
in libsnobal.py:151, 156 are false) and returns 0.  A finite `lo = 0` would give an infinite argument,
which the model does not follow (C34 shows it cannot arise in a simulation). -/
def psiAt (z : ℝ) (lo : Option ℝ) (code : PsiCode) : Except Err ℝ :=
  match lo with
  | none => psi 0 code
  | some l => if l = 0 then .error .nonFinite else psi (z / l) code

/-- The quantities `hle1` computes before its loop (libsnobal.py:238–259). -/
structure HleConst where
  ltsm : ℝ
  ltsh : ℝ
  ltsv : ℝ
  q_diff : ℝ
  t_diff : ℝ
  dens : ℝ
  /-- potential air temperature (`air_temp` after libsnobal.py:252) -/
  air_temp : ℝ
  za : ℝ
  zq : ℝ
  zu : ℝ
  wind_speed : ℝ

/-- The loop variables of `hle1` (libsnobal.py:274–312); `lo = none` is the initial `1e500`
(infinity) or a later non-finite value. -/
structure HleSt where
  lo : Option ℝ
  ustar : ℝ
  factor : ℝ
  e : ℝ
  h : ℝ

/-- The new Obukhov length, libsnobal.py:295–296.  `dens` is a numpy scalar, so division by zero gives
a non-finite value instead of raising. -/
def hleLo (k : HleConst) (s : HleSt) : Option ℝ :=
  let den := VON_KARMAN * GRAVITY * (s.h / (k.air_temp * CP_AIR) + 0.61 * s.e)
  if den = 0 then none else some (s.ustar * s.ustar * s.ustar * k.dens / den)

/-- One pass of the loop body without the convergence test, libsnobal.py:291–309. -/
def hleStep (k : HleConst) (s : HleSt) : Except Err HleSt := do
  let lo := hleLo k s
  let pm ← psiAt k.zu lo .SM
  let ustar ← pdiv (VON_KARMAN * k.wind_speed) (k.ltsm - pm)
  let factor := VON_KARMAN * ustar * k.dens
  let pv ← psiAt k.zq lo .SV
  let e ← pdiv (k.q_diff * factor * AV) (k.ltsv - pv)
  let ph ← psiAt k.za lo .SH
  let h ← pdiv (k.t_diff * factor * AH * CP_AIR) (k.ltsh - ph)
  pure { lo, ustar, factor, e, h }

/-- The convergence test, libsnobal.py:309–312; comparisons with inf or NaN are false. -/
def hleConverged (last lo : Option ℝ) : Bool :=
  match last, lo with
  | some a, some l => decide (|a - l| < THRESH ∧ |(a - l) / l| < THRESH)
  | _, _ => false

/-- `for it in range(ITMAX)`, libsnobal.py:290–315, from iteration `it` with `n` iterations left.
Returns the last value of the loop variable `it` together with the loop state. -/
def hleLoop (k : HleConst) : ℕ → ℕ → HleSt → Except Err (ℕ × HleSt)
  | 0, it, s => .ok (it - 1, s)
  | n + 1, it, s => do
      let s' ← hleStep k s
      if hleConverged s.lo s'.lo then pure (it, s')
      else hleLoop k n (it + 1) s'

/-- Return value of `hle1`, libsnobal.py:327. -/
structure HleOut where
  h : ℝ
  le : ℝ
  e : ℝ
  status : ℤ
  ustar : ℝ
  factor : ℝ

/-- Arguments of `hle1`, libsnobal.py:177–178. -/
structure HleIn where
  press : ℝ
  air_temp : ℝ
  surface_temp : ℝ
  za : ℝ
  ea : ℝ
  es : ℝ
  zq : ℝ
  wind_speed : ℝ
  zu : ℝ
  z0 : ℝ
  init_ustar : Option ℝ
  init_factor : Option ℝ

/-- Input checks of `hle1`, libsnobal.py:208–236; returns the vapour pressure after capping. -/
def hleCheck (a : HleIn) : Except Err ℝ :=
  if a.z0 ≤ 0 ∨ a.zq ≤ a.z0 ∨ a.zu ≤ a.z0 ∨ a.za ≤ a.z0 then .error .heights
  else if a.air_temp ≤ 0 ∨ a.surface_temp ≤ 0 then .error .tempsNotK
  else if a.ea ≤ 0 ∨ a.es ≤ 0 ∨ a.press ≤ 0 ∨ a.ea ≥ a.press ∨ a.es ≥ a.press then .error .pressures
  else do
    let ea_w ← satw a.air_temp
    if a.ea - 25 > ea_w then throw .exceedsSat
    pure (if a.ea > ea_w then ea_w else a.ea)

/-- libsnobal.py:238–259: displacement height, log profiles, humidity and temperature differences, air
density. -/
def hleConst (a : HleIn) (ea : ℝ) : Except Err HleConst := do
  let d0 := 2 * PAESCHKE * a.z0 / 3
  let ltsm ← plog ((a.zu - d0) / a.z0)
  let ltsh ← plog ((a.za - d0) / a.z0)
  let ltsv ← plog ((a.zq - d0) / a.z0)
  let qa ← spec_hum ea a.press
  let qs ← spec_hum a.es a.press
  let air_temp := a.air_temp + DALR * a.za
  let gt ← psqrt (air_temp * a.surface_temp)
  let ge ← psqrt (ea * a.es)
  let vt ← virtual_temperature gt ge a.press
  let dens ← gas_density a.press MOL_AIR vt
  pure { ltsm, ltsh, ltsv, q_diff := qa - qs, t_diff := air_temp - a.surface_temp, dens,
         air_temp, za := a.za, zq := a.zq, zu := a.zu, wind_speed := a.wind_speed }

/-- libsnobal.py:261–315: the neutral branch never assigns the loop variable `it` (`none`); the other
branch initialises and iterates. -/
def hleSolve (a : HleIn) (k : HleConst) : Except Err (Option ℕ × HleSt) :=
  if k.air_temp = a.surface_temp then do
    let ustar ← pdiv (VON_KARMAN * a.wind_speed) k.ltsm
    let factor := VON_KARMAN * ustar * k.dens
    let e ← pdiv (k.q_diff * factor * AV) k.ltsv
    let h ← pdiv (k.t_diff * factor * CP_AIR * AH) k.ltsh
    pure (none, { lo := none, ustar, factor, e, h })
  else do
    let ustar ← match a.init_ustar with
      | none => pdiv (VON_KARMAN * a.wind_speed) k.ltsm
      | some u => pure u
    let factor := match a.init_factor with
      | none => VON_KARMAN * ustar * k.dens
      | some f => f
    let e ← pdiv (k.q_diff * factor * AV) k.ltsv
    let h ← pdiv (k.t_diff * factor * CP_AIR * AH) k.ltsh
    let (it, s) ← hleLoop k ITMAX 0 { lo := none, ustar, factor, e, h }
    pure (some it, s)

/-- libsnobal.py:317–327 -/
def hleFinish (a : HleIn) (it : Option ℕ) (s : HleSt) : Except Err HleOut :=
  match it with
  | none => .error .unboundLocal
  | some it =>
    let ier : ℤ := if it ≥ ITMAX then -1 else 0
    let xlh := lh_vap a.surface_temp
    let xlh := if a.surface_temp ≤ FREEZE then xlh + lh_fus a.surface_temp else xlh
    .ok { h := s.h, le := xlh * s.e, e := s.e, status := ier, ustar := s.ustar, factor := s.factor }

/-- libsnobal.py:177–327 -/
def hle1 (a : HleIn) : Except Err HleOut := do
  let ea ← hleCheck a
  let k ← hleConst a ea
  let (it, s) ← hleSolve a k
  hleFinish a it s

/-- libsnobal.py:330–364; `es_layer` is the optional argument. -/
def efcon (k layer_temp p_a : ℝ) (es_layer : Option ℝ) : Except Err ℝ := do
  let de ← diffusion_coef p_a layer_temp
  let lh :=
    if layer_temp > FREEZE then lh_vap layer_temp
    else if layer_temp = FREEZE then (lh_vap layer_temp + lh_sub layer_temp) / 2
    else lh_sub layer_temp
  let es ← match es_layer with
    | none => sati layer_temp
    | some e => pure e
  let q ← mix_ratio es p_a
  pure (k + (lh * de * q))

/-- libsnobal.py:367–384 -/
def ssxfr (k1 k2 t1 t2 d1 d2 : ℝ) : Except Err ℝ :=
  pdiv (2 * (k1 * k2 * (t2 - t1))) ((k2 * d1) + (k1 * d2))

end

end Pysnobal
