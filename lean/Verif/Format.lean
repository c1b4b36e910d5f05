import Verif.PySnobal
import Mathlib.Data.Int.Log

/-! # Number formatting of the output table, `pysnobal.py: output_to_file` with `format_output`

A printed number is modelled by the decimal it denotes.  `'%.df' % x` prints the integer multiple of `10⁻ᵈ` closest to
`x`, the even one when two are equally close; `'%.9e' % x` prints ten significant digits in the same way.  (The exact
real value is rounded, as C does with the exact value of a double; the sign of a printed `-0.000` is not modelled.) -/

namespace Pysnobal

noncomputable section

/-- Rounding to the nearest integer, ties to even (IEEE 754 `roundTiesToEven`, the rounding of `%f`). -/
def roundEven (x : ℝ) : ℤ :=
  if Int.fract x < 1 / 2 then ⌊x⌋
  else if 1 / 2 < Int.fract x then ⌊x⌋ + 1
  else if Even ⌊x⌋ then ⌊x⌋ else ⌊x⌋ + 1

/-- `'%.df' % x` -/
def fmtFixed (d : ℕ) (x : ℝ) : ℝ := roundEven (x * 10 ^ d) / 10 ^ d

/-- `'%.de' % x`: the exponent is that of the leading digit of `x`. -/
def fmtSci (d : ℕ) (x : ℝ) : ℝ :=
  if x = 0 then 0
  else
    let e : ℤ := Int.log 10 |x|
    roundEven (x * (10 : ℝ) ^ ((d : ℤ) - e)) / (10 : ℝ) ^ ((d : ℤ) - e)

/-- pysnobal.py:360–388: the formats of the 25 columns. -/
def formatRow (r : OutRow) : OutRow :=
  { date_time := r.date_time
    R_n := fmtFixed 3 r.R_n, H := fmtFixed 3 r.H, L_v_E := fmtFixed 3 r.L_v_E, G := fmtFixed 3 r.G,
    M := fmtFixed 3 r.M, delta_Q := fmtFixed 3 r.delta_Q, G_0 := fmtFixed 3 r.G_0,
    delta_Q_0 := fmtFixed 3 r.delta_Q_0,
    cc_s_0 := fmtSci 9 r.cc_s_0, cc_s_l := fmtSci 9 r.cc_s_l, cc_s := fmtSci 9 r.cc_s,
    E_s := fmtFixed 8 r.E_s, melt := fmtFixed 8 r.melt, swi := fmtFixed 8 r.swi,
    z_s_0 := fmtFixed 6 r.z_s_0, z_s_l := fmtFixed 6 r.z_s_l, z_s := fmtFixed 6 r.z_s,
    rho := fmtFixed 3 r.rho,
    m_s_0 := fmtFixed 3 r.m_s_0, m_s_l := fmtFixed 3 r.m_s_l, m_s := fmtFixed 3 r.m_s,
    h2o := fmtFixed 3 r.h2o,
    t_s_0 := fmtFixed 5 r.t_s_0, t_s_l := fmtFixed 5 r.t_s_l, t_s := fmtFixed 5 r.t_s }

/-- `PySnobal(config_file)` followed by `.run()` with `format_output` set to `fmt` (pysnobal.py:357–390): the table is
formatted after it has been built and before it is written. -/
def runFormatted (g : Config) (fmt : Bool) (rows : List RawRow) (file : Option (List OutRow)) :
    Except Err Bool × Option (List OutRow) :=
  match runTable g rows file with
  | (.ok b, some t) => (.ok b, some (if fmt then t.map formatRow else t))
  | x => x

end

end Pysnobal
