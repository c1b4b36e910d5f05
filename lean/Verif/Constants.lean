import Verif.Num

/-! # `pysnobal/core/constants.py` (lines 3–52) and the constants of `point/libsnobal.py` (lines 12–27) -/

namespace Pysnobal

noncomputable section

/-- constants.py:7 -/
def FREEZE : ℝ := 273.16
/-- constants.py:8 -/
def BOIL : ℝ := 373.15
/-- constants.py:10 -/
def STD_LAPSE : ℝ := -6.5
/-- constants.py:11 -/
def STD_AIRTMP : ℝ := 288
/-- constants.py:12 -/
def SEA_LEVEL : ℝ := 101324.6
/-- constants.py:13 -/
def LOG_SEA_LEVEL : ℝ := Real.log SEA_LEVEL
/-- constants.py:14 -/
def RGAS : ℝ := 8314.32
/-- constants.py:15 -/
def GRAVITY : ℝ := 9.80665
/-- constants.py:16 -/
def MOL_AIR : ℝ := 28.9644
/-- constants.py:17 -/
def MOL_H2O : ℝ := 18.0153
/-- constants.py:18 -/
def VON_KARMAN : ℝ := 0.41
/-- constants.py:22 -/
def MIN_SNOW_TEMP : ℝ := -75
/-- constants.py:23 -/
def KT_MOISTSAND : ℝ := 1.65
/-- constants.py:24 -/
def MAX_SNOW_DENSITY : ℝ := 600
/-- constants.py:27 -/
def RHO_W0 : ℝ := 999.87
/-- constants.py:30 -/
def CP_W0 : ℝ := 4217.7
/-- constants.py:33 -/
def RHO_ICE : ℝ := 917
/-- constants.py:36 -/
def VAP_SUB : ℝ := 2.501 / 2.835
/-- constants.py:39 -/
def CAL_TO_J : ℝ := 4.186798188
/-- constants.py:41 -/
def SNOW_EMISSIVITY : ℝ := 0.98
/-- constants.py:42 -/
def STEF_BOLTZ : ℝ := 5.67032e-8
/-- constants.py:46 -/
def RHO_MAX : ℝ := 550
/-- constants.py:49 -/
def R1 : ℝ := 23.5
/-- constants.py:50 -/
def R2 : ℝ := 24.5
/-- constants.py:52 -/
def SWE_MAX : ℝ := 2000

/-- libsnobal.py:12 -/
def CP_AIR : ℝ := 1005
/-- libsnobal.py:13 -/
def DALR : ℝ := GRAVITY / CP_AIR
/-- libsnobal.py:15 -/
def AH : ℝ := 1
/-- libsnobal.py:16 -/
def AV : ℝ := 1
/-- libsnobal.py:17 -/
def ITMAX : ℕ := 50
/-- libsnobal.py:18 -/
def PAESCHKE : ℝ := 7.35
/-- libsnobal.py:19 -/
def THRESH : ℝ := 1e-5
/-- libsnobal.py:24 -/
def BETA_S : ℝ := 5.2
/-- libsnobal.py:25 -/
def BETA_U : ℝ := 16
/-- libsnobal.py:27 -/
def LOG_10 : ℝ := Real.log 10

end

end Pysnobal
