import Verif.PySnobal

/-! # Cached properties of `InputData` and `SnowState`

The Python objects cache saturation vapour pressures and the layer count behind boolean flags.  This
file models the flags; C38 shows that the physics model may compute the values afresh. -/

namespace Pysnobal

noncomputable section

/-- A temperature attribute with its cached saturation vapour pressure.  The same code occurs four
times: `t_a/sat_vp` (input.py:72–92), `t_g/e_g` (input.py:94–114), `t_s_0/e_s_0`
(snow_state.py:95–115) and `t_s_l/e_s_l` (snow_state.py:117–137). -/
structure VpCell where
  temp : ℝ
  flag : Bool
  cached : ℝ

/-- The setter: store the temperature and clear the flag (e.g. input.py:76–79). -/
def VpCell.set (x : VpCell) (v : ℝ) : VpCell := { x with temp := v, flag := false }

/-- The getter of the vapour pressure (e.g. input.py:89–92).  When `sati` raises nothing is stored. -/
def VpCell.read (x : VpCell) : Except Err ℝ × VpCell :=
  if x.flag = false then
    match sati x.temp with
    | .error e => (.error e, x)
    | .ok v => (.ok v, { x with cached := v, flag := true })
  else (.ok x.cached, x)

/-- Operations on such an attribute. -/
inductive VpOp where
  | set (v : ℝ)
  | read

/-- Run operations and collect what the reads return. -/
def VpCell.exec : VpCell → List VpOp → List (Except Err ℝ)
  | _, [] => []
  | x, .set v :: ops => (x.set v).exec ops
  | x, .read :: ops => x.read.1 :: x.read.2.exec ops

/-- The constructor: the first assignment goes through the setter (input.py:51, snow_state.py:33). -/
def VpCell.new (v garbage : ℝ) : VpCell := { temp := v, flag := false, cached := garbage }

/-- Layer depths with the cached layer count, snow_state.py:151–157, 287–291. -/
structure LayerCell where
  z_s_0 : ℝ
  z_s_l : ℝ
  flag : Bool
  cached : ℕ

/-- Operations: `calc` is the end of `calc_layers` (snow_state.py:288–291) storing new depths; `poke`
is a direct assignment to the depth attributes, which no code in the package does. -/
inductive LayerOp where
  | calc (z0 zl : ℝ)
  | poke (z0 zl : ℝ)
  | read

/-- snow_state.py:153–157 -/
def LayerCell.read (x : LayerCell) : ℕ × LayerCell :=
  if x.flag = false then
    let n := (if x.z_s_0 > 0 then 1 else 0) + (if x.z_s_l > 0 then 1 else 0)
    (n, { x with cached := n, flag := true })
  else (x.cached, x)

/-- Run operations and collect what the reads return. -/
def LayerCell.exec : LayerCell → List LayerOp → List ℕ
  | _, [] => []
  | x, .calc a b :: ops => LayerCell.exec { x with z_s_0 := a, z_s_l := b, flag := false } ops
  | x, .poke a b :: ops => LayerCell.exec { x with z_s_0 := a, z_s_l := b } ops
  | x, .read :: ops => x.read.1 :: x.read.2.exec ops

end

end Pysnobal
