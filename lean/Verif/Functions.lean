import Verif.Constants

/-! # `pysnobal/core/functions.py`, `pysnobal/core/snow.py`, `pysnobal/utils.py` -/

namespace Pysnobal

noncomputable section

/-- core/functions.py:7–26.  `np.power` of a negative base with a non-integral exponent is NaN
(`Err.nonFinite`). -/
def hysat (pb tb L h g m : ℝ) : Except Err ℝ := do
  if L = 0 then
    let q ← pdiv (-g * m * h * 1000) (RGAS * tb)
    pure (pb * Real.exp q)
  else
    let base ← pdiv tb (tb + L * h)
    let ex ← pdiv (g * m) (RGAS * L * 0.001)
    if base < 0 then throw .nonFinite
    pure (pb * base ^ ex)

/-- core/functions.py:29–38 -/
def k_to_c (x : ℝ) : ℝ := x - FREEZE

/-- core/functions.py:41–51 -/
def cp_ice (t : ℝ) : ℝ := CAL_TO_J * (0.024928 + (0.00176 * t)) / 0.001

/-- core/functions.py:54–65 -/
def cp_water (t : ℝ) : ℝ := CP_W0 - 2.55 * (t - FREEZE)

/-- core/functions.py:68–81 -/
def time_average (avg total_time value time_incr : ℝ) : Except Err ℝ :=
  pdiv (avg * total_time + value * time_incr) (total_time + time_incr)

/-- core/functions.py:84–96 -/
def gas_density (pressure mole_air temp : ℝ) : Except Err ℝ :=
  pdiv (pressure * mole_air) (RGAS * temp)

/-- core/functions.py:99–113 -/
def virtual_temperature (temp vapor_pressure pressure : ℝ) : Except Err ℝ := do
  let r ← pdiv vapor_pressure pressure
  pdiv temp (1 - (1 - MOL_H2O / MOL_AIR) * r)

/-- core/functions.py:116–125 -/
def lh_vap (temp : ℝ) : ℝ := 2500000 - 2955.73 * (temp - FREEZE)

/-- core/functions.py:128–137 -/
def lh_fus (temp : ℝ) : ℝ := 333600 + 166.67 * (FREEZE - temp)

/-- core/functions.py:140–149 -/
def lh_sub (temp : ℝ) : ℝ := lh_vap temp + lh_fus temp

/-- core/functions.py:152–162 -/
def mix_ratio (vapor_pressure pressure : ℝ) : Except Err ℝ :=
  pdiv ((MOL_H2O / MOL_AIR) * vapor_pressure) (pressure - vapor_pressure)

/-- core/functions.py:165–178.  The exponent `14.0` is integral, so `np.power` is defined for every
base and agrees with the natural-number power. -/
def diffusion_coef (pressure temp : ℝ) : Except Err ℝ := do
  let r ← pdiv SEA_LEVEL pressure
  pure (0.65 * r * (temp / FREEZE) ^ 14 * (0.01 * 0.01))

/-- core/functions.py:181–193 -/
def vapor_flux (air_density k q_dif z_dif : ℝ) : Except Err ℝ := do
  let r ← pdiv q_dif z_dif
  pure (air_density * k * r)

/-- core/snow.py:5–16 (the divisor is the non-zero constant `RHO_ICE`) -/
def h2o_left (d rhos sat : ℝ) : ℝ := (sat * d * RHO_W0 * (RHO_ICE - rhos)) / RHO_ICE

/-- core/snow.py:19–28 (the divisor `lh_fus(FREEZE)` is the non-zero constant 333600) -/
def melt (Q : ℝ) : ℝ := Q / lh_fus FREEZE

/-- core/snow.py:31–52 -/
def new_tsno (spm t0 ccon : ℝ) : Except Err ℝ := do
  let cp := cp_ice t0
  let tdif ← pdiv ccon (spm * cp)
  pure (tdif + FREEZE)

/-- core/snow.py:55–64 -/
def heat_stor (cp spm tdif : ℝ) : ℝ := cp * spm * tdif

/-- utils.py:4 -/
def min2sec (x : ℤ) : ℤ := x * 60

/-- utils.py:12–26 -/
def check_range (value min_val max_val : ℝ) : Except Err Bool :=
  if value < min_val ∨ value > max_val then .error .outOfRange else .ok true

end

end Pysnobal
