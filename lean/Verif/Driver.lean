import Verif.Snobal

/-! # The time stepping of `pysnobal/point/snobal.py`

`do_data_tstep`, `divide_tstep`, `do_tstep` and `output`, first for an arbitrary physics (`Sim`), then
for the physics of `Snobal.lean`.  Properties of the clock, of the records and of the subdivision are
proved for every `Sim`, so they do not depend on real arithmetic. -/

namespace Pysnobal

/-- The three entries of `tstep_info` (constants.py:3–5: NORMAL 0, MEDIUM 1, SMALL 2). -/
inductive Level where
  | normal | medium | small
  deriving DecidableEq, Repr

/-- `'level'` of a `tstep_info` entry (pysnobal.py:134). -/
def Level.toNat : Level → ℕ
  | .normal => 0 | .medium => 1 | .small => 2

/-- `tstep_info[k]`: Python indexing (negative indices included) into the list of three levels. -/
def levelAt (k : ℤ) : Except Err Level :=
  if k = 0 ∨ k = -3 then .ok .normal
  else if k = 1 ∨ k = -2 then .ok .medium
  else if k = 2 ∨ k = -1 then .ok .small
  else .error .index

/-- What the time stepping needs to know about a model: `π` is the physical state, `α` the
accumulators, `ρ` an output record. -/
structure Sim (π α ρ : Type) where
  /-- `tstep['intervals']` -/
  intervals : Level → ℤ
  /-- `tstep['time_step_timedelta']` -/
  timedelta : Level → ℤ
  /-- `below_thold(tstep['threshold'])`, snobal.py:186 -/
  below : Level → π → Bool
  /-- snobal.py:176–178 -/
  enter : Level → π → π
  /-- snobal.py:235–252 -/
  phys : Level → π → Except Err π
  /-- snobal.py:256–262 -/
  accum : Level → π → α → Except Err α
  /-- snobal.py:277 -/
  finish : Level → π → π
  /-- snobal.py:1275–1277 -/
  snap : π → α → ℤ → Except Err ρ
  /-- snobal.py:1280 -/
  reset : α → α
  /-- `self.output_divided`, snobal.py:42–44 -/
  output_divided : Bool

/-- The rest of the `Snobal` object. -/
structure SimSt (π α ρ : Type) where
  phys : π
  acc : α
  current_datetime : ℤ
  output_list : List ρ

variable {π α ρ : Type}

/-- snobal.py:1270–1280 -/
def Sim.output (K : Sim π α ρ) (st : SimSt π α ρ) : Except Err (SimSt π α ρ) := do
  let r ← K.snap st.phys st.acc st.current_datetime
  pure { st with output_list := st.output_list ++ [r], acc := K.reset st.acc }

/-- snobal.py:205–279.  (Always returns `True` in Python.) -/
def Sim.do_tstep (K : Sim π α ρ) (lv : Level) (st : SimSt π α ρ) : Except Err (SimSt π α ρ) := do
  let p ← K.phys lv st.phys
  let a ← K.accum lv p st.acc
  let st := { st with phys := p, acc := a, current_datetime := st.current_datetime + K.timedelta lv }
  let st ← if K.output_divided then K.output st else pure st
  pure { st with phys := K.finish lv st.phys }

/-- `for i in range(n)` with a state. -/
def iterM {σ : Type} (f : σ → Except Err σ) : ℕ → σ → Except Err σ
  | 0, s => .ok s
  | n + 1, s => do
      let s ← f s
      iterM f n s

/-- snobal.py:136–202.  The first component of the state is `self.current_level`; `fuel` bounds the
recursion depth (C11 shows that three levels always suffice).  `next_level` and `divided_step` are
never read and are omitted. -/
def Sim.divide_tstep (K : Sim π α ρ) : ℕ → ℤ × SimSt π α ρ → Except Err (ℤ × SimSt π α ρ)
  | 0, _ => .error .recursion
  | fuel + 1, (cur, st) => do
      -- snobal.py:174–178
      let lv ← levelAt cur
      let st := if lv.toNat > 1 then { st with phys := K.enter lv st.phys } else st
      -- snobal.py:182–194
      let (cur, st) ← iterM (fun (cs : ℤ × SimSt π α ρ) =>
        if cs.1 ≠ 2 ∧ K.below lv cs.2.phys then K.divide_tstep fuel (cs.1 + 1, cs.2)
        else do
          let st ← K.do_tstep lv cs.2
          pure (cs.1, st)) (K.intervals lv).toNat (cur, st)
      -- snobal.py:196–200
      let st ← if cur = 0 ∧ K.output_divided = false then K.output st else pure st
      pure (cur - 1, st)

/-- snobal.py:132–134 -/
def Sim.data_tstep (K : Sim π α ρ) (st : SimSt π α ρ) : Except Err (SimSt π α ρ) := do
  let r ← K.divide_tstep 3 (0, st)
  pure r.2

/-! ## The instance for the physics of `Snobal.lean` -/

noncomputable section

/-- `tstep_info`: one entry per level. -/
abbrev Tsteps := Level → TstepInfo

/-- A record appended by `output()`, snobal.py:1251–1256 and 1275–1277. -/
structure OutRec where
  rho : ℝ
  t_s_0 : ℝ
  t_s_l : ℝ
  t_s : ℝ
  cc_s_0 : ℝ
  cc_s_l : ℝ
  cc_s : ℝ
  m_s : ℝ
  m_s_0 : ℝ
  m_s_l : ℝ
  z_s : ℝ
  z_s_0 : ℝ
  z_s_l : ℝ
  h2o_sat : ℝ
  layer_count : ℕ
  h2o : ℝ
  h2o_max : ℝ
  h2o_vol : ℝ
  h2o_total : ℝ
  R_n_bar : ℝ
  H_bar : ℝ
  L_v_E_bar : ℝ
  G_bar : ℝ
  G_0_bar : ℝ
  M_bar : ℝ
  delta_Q_bar : ℝ
  delta_Q_0_bar : ℝ
  E_s_sum : ℝ
  melt_sum : ℝ
  swi_sum : ℝ
  date_time : ℤ

/-- Accumulators together with `self.time_since_out`. -/
structure AccT where
  acc : Acc
  time_since_out : ℝ

/-- snobal.py:256–262 -/
def accumulate (dt : ℝ) (s : Snow) (a : AccT) : Except Err AccT :=
  if a.time_since_out > 0 then do
    let acc ← Acc.time_average s a.acc a.time_since_out dt
    pure { acc, time_since_out := a.time_since_out + dt }
  else .ok { acc := Acc.value_to_bar s a.acc, time_since_out := dt }

/-- snobal.py:1275–1277; reading the never-assigned `swi_sum` raises `AttributeError`. -/
def snapshot (s : Snow) (a : Acc) (t : ℤ) : Except Err OutRec :=
  match a.swi_sum with
  | none => .error .attribute
  | some x => .ok
      { rho := s.rho, t_s_0 := s.t_s_0, t_s_l := s.t_s_l, t_s := s.t_s, cc_s_0 := s.cc_s_0,
        cc_s_l := s.cc_s_l, cc_s := s.cc_s, m_s := s.m_s, m_s_0 := s.m_s_0, m_s_l := s.m_s_l,
        z_s := s.z_s, z_s_0 := s.z_s_0, z_s_l := s.z_s_l, h2o_sat := s.h2o_sat,
        layer_count := s.layer_count, h2o := s.h2o, h2o_max := s.h2o_max, h2o_vol := s.h2o_vol,
        h2o_total := s.h2o_total, R_n_bar := a.bar.R_n, H_bar := a.bar.H, L_v_E_bar := a.bar.L_v_E,
        G_bar := a.bar.G, G_0_bar := a.bar.G_0, M_bar := a.bar.M, delta_Q_bar := a.bar.delta_Q,
        delta_Q_0_bar := a.bar.delta_Q_0, E_s_sum := a.E_s_sum, melt_sum := a.melt_sum,
        swi_sum := x, date_time := t }

/-- A `Snobal` object. -/
abbrev Model := SimSt Phys AccT OutRec

/-- The time stepping of `Snobal` during one data time step with deltas `dl`. -/
def snobalSim (c : Env) (ts : Tsteps) (all : Bool) (dl : Level → InputData) : Sim Phys AccT OutRec where
  intervals lv := (ts lv).intervals
  timedelta lv := (ts lv).timedelta
  below lv p := below_thold (ts lv).threshold p.snow
  enter lv p :=
    if p.input1.precip_now then { p with input1 := p.input1.update_precip_deltas (dl lv) } else p
  phys lv p := stepPhys c (ts lv).time_step (dl lv) p
  accum lv p a := accumulate (ts lv).time_step p.snow a
  finish lv p := { p with input1 := p.input1.add_deltas (dl lv) }
  snap p a t := snapshot p.snow a.acc t
  reset a := { a with time_since_out := 0 }
  output_divided := all

/-- `InputDeltas(...).calculate()`, input.py:190–213: the deltas of the three levels, in order. -/
def inputDeltas (ts : Tsteps) (i1 i2 : InputData) : Except Err (Level → InputData) := do
  let n ← deltaFor i1 i2 (ts .normal)
  let m ← deltaFor i1 i2 (ts .medium)
  let s ← deltaFor i1 i2 (ts .small)
  pure (fun lv => match lv with | .normal => n | .medium => m | .small => s)

/-- snobal.py:72–134 -/
def do_data_tstep (c : Env) (ts : Tsteps) (all : Bool) (i1 i2 : InputData) (m : Model) :
    Except Err Model := do
  let dl ← inputDeltas ts i1 i2
  (snobalSim c ts all dl).data_tstep { m with phys := { m.phys with input1 := i1 } }

end

end Pysnobal
