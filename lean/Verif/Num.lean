import Mathlib.Data.Real.Basic
import Mathlib.Analysis.SpecialFunctions.Pow.Real
import Mathlib.Analysis.SpecialFunctions.Sqrt
import Mathlib.Analysis.SpecialFunctions.Trigonometric.Arctan
import Mathlib.Tactic.NormNum
import Mathlib.Tactic.Linarith
import Mathlib.Tactic.Ring
import Mathlib.Tactic.FieldSimp
import Mathlib.Tactic.Positivity

/-!
# Numbers and exceptions

Python `float` is modelled by `ℝ`; exceptions are values of `Err`.  See DESIGN.md for what this leaves out.
-/

namespace Pysnobal

/-- The ways a call can fail.  Each constructor is one Python exception the code can raise
(or one place where a numpy scalar would become inf/nan and the model stops tracking). -/
inductive Err where
  /-- Python `ZeroDivisionError` (with numpy scalars: inf/nan plus a warning). -/
  | zeroDivision
  /-- `ValueError: math domain error` from `math.log` / `math.sqrt`. -/
  | mathDomain
  /-- `ValueError('tk < 0')`, libsnobal.py:90, 112. -/
  | negTemp
  /-- `ValueError('rho_snow is <= 0.0 with percent_snow > 0.0')`, input.py:131. -/
  | rhoSnow
  /-- `ValueError("height not positive ...")`, libsnobal.py:211. -/
  | heights
  /-- `ValueError("temps not K ...")`, libsnobal.py:217. -/
  | tempsNotK
  /-- `ValueError("press < 0 ...")`, libsnobal.py:223. -/
  | pressures
  /-- `ValueError("vapor pressure exceeds air saturation ...")`, libsnobal.py:229. -/
  | exceedsSat
  /-- `ValueError("psi-function code not of these ...")`, libsnobal.py:168. -/
  | psiCode
  /-- `UnboundLocalError` for the loop variable `it`, libsnobal.py:317. -/
  | unboundLocal
  /-- `Exception("hle1 did not converge ...")`, snobal.py:1087. -/
  | noConverge
  /-- numpy produced NaN or an infinity that the model does not follow any further. -/
  | nonFinite
  /-- `AttributeError` (`swi_sum` read before it was ever assigned, snobal.py:1275). -/
  | attribute
  /-- `IndexError`. -/
  | index
  /-- `RecursionError` (never reached, see C11). -/
  | recursion
  /-- `ValueError` of `utils.check_range`, utils.py:24. -/
  | outOfRange
  /-- `KeyError: 'date_time'` (no record was ever emitted, pysnobal.py:324). -/
  | key
  /-- `ValueError: DataFrame index must be unique` from `to_dict('index')`, pysnobal.py:285. -/
  | dupIndex
  deriving DecidableEq, Repr

noncomputable section

/-- Python `a / b` on floats. -/
def pdiv (a b : ℝ) : Except Err ℝ :=
  if b = 0 then .error .zeroDivision else .ok (a / b)

/-- Python `math.log(x)`. -/
def plog (x : ℝ) : Except Err ℝ :=
  if x ≤ 0 then .error .mathDomain else .ok (Real.log x)

/-- Python `math.sqrt(x)`. -/
def psqrt (x : ℝ) : Except Err ℝ :=
  if x < 0 then .error .mathDomain else .ok (Real.sqrt x)

/-! ### Rewriting lemmas for the exception monad -/

@[simp] theorem bind_ok {α β : Type} (a : α) (f : α → Except Err β) :
    (Except.ok a >>= f) = f a := rfl

@[simp] theorem bind_error {α β : Type} (e : Err) (f : α → Except Err β) :
    (Except.error e >>= f) = Except.error e := rfl

@[simp] theorem pure_ok {α : Type} (a : α) : (pure a : Except Err α) = Except.ok a := rfl

@[simp] theorem throw_err {α : Type} (e : Err) : (throw e : Except Err α) = Except.error e := rfl

theorem bind_eq_ok {α β : Type} {m : Except Err α} {f : α → Except Err β} {b : β} :
    (m >>= f) = Except.ok b ↔ ∃ a, m = Except.ok a ∧ f a = Except.ok b := by
  cases m <;> simp

theorem bind_eq_error {α β : Type} {m : Except Err α} {f : α → Except Err β} {e : Err} :
    (m >>= f) = Except.error e ↔
      m = Except.error e ∨ ∃ a, m = Except.ok a ∧ f a = Except.error e := by
  cases m <;> simp

theorem pdiv_eq_ok {a b c : ℝ} : pdiv a b = Except.ok c ↔ b ≠ 0 ∧ c = a / b := by
  unfold pdiv; split <;> simp_all [eq_comm]

theorem pdiv_of_ne {a b : ℝ} (h : b ≠ 0) : pdiv a b = Except.ok (a / b) := by simp [pdiv, h]

theorem plog_eq_ok {x y : ℝ} : plog x = Except.ok y ↔ 0 < x ∧ y = Real.log x := by
  unfold plog; split <;> simp_all [eq_comm]

theorem plog_of_pos {x : ℝ} (h : 0 < x) : plog x = Except.ok (Real.log x) := by
  simp [plog, not_le.mpr h]

theorem psqrt_eq_ok {x y : ℝ} : psqrt x = Except.ok y ↔ 0 ≤ x ∧ y = Real.sqrt x := by
  unfold psqrt; split <;> simp_all [eq_comm]

theorem psqrt_of_nonneg {x : ℝ} (h : 0 ≤ x) : psqrt x = Except.ok (Real.sqrt x) := by
  simp [psqrt, not_lt.mpr h]

end

end Pysnobal
