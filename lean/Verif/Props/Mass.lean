import Verif.Lemmas.Water
import Verif.Lemmas.Records

/-! # C19, C21, C30: the mass ledger of run steps, data steps and runs -/

namespace Pysnobal

noncomputable section

/-- Precipitation that falls during an executed run step. -/
def RStep.precip (x : RStep Phys) : ℝ := if x.post.input1.precip_now then x.post.input1.m_pp else 0

/-- Every executed run step of every simulation is a physics step between consistent states. -/
theorem trace_step {g : Config} (hmax : 0 < g.max_active) {rows : List Rec}
    {ls : List (List (RStep Phys))} {m : Model} (h : RunTrace g rows ls m) :
    ∃ c ts, mkEnv g = .ok c ∧ parse_time_steps g = .ok ts ∧ 0 < c.max_z_s_0 ∧
      ∀ l ∈ ls, ∀ x ∈ l, ∃ d, Inv c x.pre.snow ∧ Inv c x.post.snow ∧
        stepPhys c (ts x.lv).time_step d x.pre = .ok x.post := by
  obtain ⟨c, ts, hc, hts⟩ := simulate_parts h.simulate
  have hm : 0 < c.max_z_s_0 := by rw [(mkEnv_ok hc).1]; exact hmax
  refine ⟨c, ts, hc, hts, hm, fun l hl x hx => ?_⟩
  obtain ⟨i, d, _, h1, h2, h3⟩ := RunRule.trace hc hts (invRule hm ts)
    (fun r i s _ _ hs => init_snow_inv hm hs rfl) (fun _ _ => trivial) h l hl x hx
  exact ⟨d, h1, h2, h3⟩

/-! ## C19 -/

theorem step_mass {c : Env} (hmax : 0 < c.max_z_s_0) {dt : ℝ} {dl : InputData} {p p' : Phys}
    (hi : Inv c p.snow) (h : stepPhys c dt dl p = .ok p') (hs : p'.snow.snowcover = true) :
    p'.snow.m_s = p.snow.m_s + stepPrecip p' + p'.snow.E_s - p'.snow.swi := by
  obtain ⟨s0, s1, s2, s3, s4, s5, s6, k⟩ := step_chain hmax hi h
  obtain ⟨f6, f5, f4, f3, f2, f1, f0, _⟩ := k.persist hmax hs
  obtain ⟨_, a1⟩ := k.flag1 hmax f1
  obtain ⟨_, a2⟩ := k.flag2 hmax f2
  obtain ⟨_, t, r, a3, a3'⟩ := k.flag3 hmax f3
  obtain ⟨_, _, el, w, _, _, _, a4, _⟩ := k.flag4 hmax f4
  obtain ⟨_, a5, _⟩ := k.flag5 hmax f5
  obtain ⟨_, _, _, d4, _, _, _, d8, _⟩ := k.drained hmax f5
  have e0 : s0.m_s = p.snow.m_s := by rw [k.start]
  have e7 : p'.snow.m_s = s6.m_s ∧ p'.snow.swi = s6.swi ∧ p'.snow.E_s = s6.E_s := by
    rw [k.frame7]; exact ⟨rfl, rfl, rfl⟩
  rw [e7.1, e7.2.1, e7.2.2, d4, a5.m_s, a4.m_s, a3'.m_s, a2.mass, a1.m_s, e0, d8, a5.E_s]
  rfl

/-- C19, run step: in every run step of every simulation through which the snow cover lasts, the snow
mass changes by exactly precipitation plus vapour exchange minus runoff. -/
theorem C19_mass_balance_step (g : Config) (hmax : 0 < g.max_active) (rows : List Rec)
    (ls : List (List (RStep Phys))) (m : Model) (h : RunTrace g rows ls m) :
    ∀ l ∈ ls, ∀ x ∈ l, x.post.snow.snowcover = true →
      x.post.snow.m_s = x.pre.snow.m_s + x.precip + x.post.snow.E_s - x.post.snow.swi := by
  obtain ⟨c, ts, hc, hts, hm, hx⟩ := trace_step hmax h
  intro l hl x hxl hs
  obtain ⟨d, h1, h2, h3⟩ := hx l hl x hxl
  exact step_mass hm h1 h3 hs

theorem sum_three {α : Type} (l : List α) (a b d : α → ℝ) :
    (l.map fun x => a x + b x - d x).sum = (l.map a).sum + (l.map b).sum - (l.map d).sum := by
  induction l with
  | nil => simp
  | cons x l ih => simp only [List.map_cons, List.sum_cons, ih]; ring

/-- The mass ledger over the data steps of a run. -/
theorem dataSteps_mass {g : Config} {ts : Tsteps} (ht : TileOK ts) {c : Env} {i1 : InputData} {r1 : Rec}
    (hn : InputData.new r1 = .ok i1) {rs : List Rec} {m m' : Model} {ls : List (List (RStep Phys))}
    (h : DataSteps c ts g.output_all i1 rs m ls m') (h0 : m.acc.time_since_out = 0)
    (hx : ∀ l ∈ ls, ∀ x ∈ l,
      x.post.snow.m_s = x.pre.snow.m_s + x.precip + x.post.snow.E_s - x.post.snow.swi) :
    ∃ out, m'.output_list = m.output_list ++ out ∧
      m'.phys.snow.m_s = m.phys.snow.m_s + ((r1 :: rs).dropLast.map fun r => max r.m_pp 0).sum +
        (out.map (·.E_s_sum)).sum - (out.map (·.swi_sum)).sum ∧
      (out = [] ∧ rs = [] ∨ ∃ o r, out = o ++ [r] ∧ r.m_s = m'.phys.snow.m_s) := by
  obtain ⟨out, k1, k2, _, k4, k5⟩ := dataSteps_records ht h h0
  have hp := dataSteps_precip ht hn h
  refine ⟨out, k1, ?_, k5⟩
  have := h.telescope (·.m_s) (fun x => x.precip + x.post.snow.E_s - x.post.snow.swi)
    (fun l hl x hx' => by rw [hx l hl x hx']; ring)
  rw [this, k2, k4, ← hp]
  have e : (fun l : List (RStep Phys) => (l.map fun x => x.precip + x.post.snow.E_s - x.post.snow.swi).sum)
      = fun l => (l.map fun x => x.precip).sum + (l.map fun x => x.post.snow.E_s).sum -
          (l.map fun x => x.post.snow.swi).sum := by
    funext l; exact sum_three _ _ _ _
  rw [e, sum_three]
  simp only [RStep.precip]
  ring

/-- A trace of a run that is one record longer. -/
theorem DataSteps.snoc {c : Env} {ts : Tsteps} {all : Bool} :
    ∀ {rs : List Rec} {i1 : InputData} {r2 : Rec} {m m' : Model} {ls : List (List (RStep Phys))},
      DataSteps c ts all i1 (rs ++ [r2]) m ls m' →
      ∃ ls0 l m0 iL i2, ls = ls0 ++ [l] ∧ DataSteps c ts all i1 rs m ls0 m0 ∧
        (rs = [] ∧ iL = i1 ∨ ∃ r ∈ rs.getLast?, InputData.new r = .ok iL) ∧
        InputData.new r2 = .ok i2 ∧ do_data_tstep c ts all iL i2 m0 = .ok m' ∧
        Executed c ts all iL i2 m0 l m' := by
  intro rs
  induction rs with
  | nil =>
    intro i1 r2 m m' ls h
    cases h with
    | cons h1 h2 h3 h4 =>
      cases h4
      exact ⟨[], _, _, _, _, rfl, .nil _ _, .inl ⟨rfl, rfl⟩, h1, h2, h3⟩
  | cons r rs ih =>
    intro i1 r2 m m' ls h
    cases h with
    | cons h1 h2 h3 h4 =>
      obtain ⟨ls0, l, m0, iL, i2, rfl, k1, k2, k3, k4, k5⟩ := ih h4
      refine ⟨_ :: ls0, l, m0, iL, i2, rfl, .cons h1 h2 h3 k1, .inr ?_, k3, k4, k5⟩
      rcases k2 with ⟨rfl, rfl⟩ | ⟨r', hr', hn⟩
      · exact ⟨r, by simp, h1⟩
      · refine ⟨r', ?_, hn⟩
        cases rs with
        | nil => simp at hr'
        | cons a as => simpa using hr'

theorem dropLast_snoc2 (rs : List Rec) (r : Rec) : (rs ++ [r]).dropLast = rs := by simp

/-- C19, data step: the last data step of any run (hence, since every initial segment of a run is a run,
C12, every data step of every run).  If the snow cover lasts through its run steps, the reported mass
changes by the record's precipitation plus the reported vapour exchange minus the reported runoff. -/
theorem C19_mass_balance_data_step (g : Config) (hg : g.Tiled) (hmax : 0 < g.max_active)
    (rs : List Rec) (r1 r2 : Rec) (ls : List (List (RStep Phys))) (m : Model)
    (h : RunTrace g (rs ++ [r1, r2]) ls m) :
    ∃ ls0 l m0, RunTrace g (rs ++ [r1]) ls0 m0 ∧ ls = ls0 ++ [l] ∧
      ((∀ x ∈ l, x.post.snow.snowcover = true) → ∃ out r,
        m.output_list = m0.output_list ++ (out ++ [r]) ∧
        r.m_s = m0.phys.snow.m_s + max r1.m_pp 0 + ((out ++ [r]).map (·.E_s_sum)).sum
          - ((out ++ [r]).map (·.swi_sum)).sum) := by
  have hstep := C19_mass_balance_step g hmax _ ls m h
  obtain ⟨c, ts, i1, mi, ra, ra', e0, e1, e2, e3, e4, e5⟩ := h
  have ht := parse_tile hg e1
  have hacc : ∀ {i1 : InputData} {rs : List Rec} {m m' : Model} {ls : List (List (RStep Phys))},
      DataSteps c ts g.output_all i1 rs m ls m' → m.acc.time_since_out = 0 →
      m'.acc.time_since_out = 0 := by
    intro i1 rs m m' ls h
    induction h with
    | nil => exact id
    | cons _ h2 _ _ ih => exact fun h0 => ih (data_time_since_out ht h0 h2)
  have hrest : ∃ rs', ra' = rs' ++ [r2] ∧ ra :: rs' = rs ++ [r1] := by
    cases rs with
    | nil => simp at e0; exact ⟨[], by rw [← e0.2]; rfl, by rw [← e0.1]; rfl⟩
    | cons a as =>
      simp at e0
      exact ⟨as ++ [r1], by rw [← e0.2]; simp, by rw [← e0.1]; simp⟩
  obtain ⟨rs', rfl, hrs⟩ := hrest
  obtain ⟨ls0, l, m0, iL, i2, rfl, k1, k2, k3, k4, k5⟩ := e5.snoc
  have hL : InputData.new r1 = .ok iL := by
    rcases k2 with ⟨rfl, rfl⟩ | ⟨r', hr', hn⟩
    · have : ra = r1 := by
        cases rs with
        | nil => simpa using hrs
        | cons a as => simp at hrs
      rw [← this]; exact e3
    · have : (ra :: rs').getLast? = some r' := by
        cases rs' with
        | nil => simp at hr'
        | cons a as => simpa using hr'
      rw [hrs] at this
      have h' : r1 = r' := by simpa using this
      rw [h']; exact hn
  refine ⟨ls0, l, m0, ⟨c, ts, i1, mi, ra, rs', hrs.symm, e1, e2, e3, e4, k1⟩, rfl, fun hs => ?_⟩
  have h0 := hacc k1 (mkModel_ok e4).2.2.1
  have hd : DataSteps c ts g.output_all iL [r2] m0 [l] m := .cons k3 k4 k5 (.nil _ _)
  obtain ⟨out, q1, q2, q3⟩ := dataSteps_mass (g := g) ht hL hd h0
    (fun l' hl' x hx => by
      rw [List.mem_singleton] at hl'
      subst hl'
      exact hstep l' (by simp) x hx (hs x hx))
  rcases q3 with ⟨_, h⟩ | ⟨o, r, rfl, e⟩
  · simp at h
  · refine ⟨o, r, q1, ?_⟩
    rw [e, q2]
    simp

/-- C19, run: if the snow cover lasts through a whole run, the mass in the last record is the initial
mass plus all precipitation plus all reported vapour exchange minus all reported runoff. -/
theorem C19_mass_balance_run (g : Config) (hg : g.Tiled) (hmax : 0 < g.max_active)
    (rows : List Rec) (ls : List (List (RStep Phys))) (m : Model) (h : RunTrace g rows ls m)
    (hs : ∀ l ∈ ls, ∀ x ∈ l, x.post.snow.snowcover = true) (r : OutRec)
    (hr : m.output_list.getLast? = some r) :
    r.m_s = g.init_rho * g.init_z_s + (rows.dropLast.map fun r => max r.m_pp 0).sum +
      (m.output_list.map (·.E_s_sum)).sum - (m.output_list.map (·.swi_sum)).sum := by
  have hstep := C19_mass_balance_step g hmax _ ls m h
  obtain ⟨c', ts', hc', hts', hm, hx'⟩ := trace_step hmax h
  obtain ⟨c, ts, i1, m0, ra, rs, rfl, e1, e2, e3, e4, e5⟩ := h
  rw [hc'] at e2
  cases e2
  have ht := parse_tile hg e1
  obtain ⟨k0, k1, k2, k3, _⟩ := mkModel_ok e4
  obtain ⟨out, q1, q2, q3⟩ := dataSteps_mass (g := g) ht e3 e5 k2
    (fun l hl x hx => hstep l hl x hx (hs l hl x hx))
  rw [k1, List.nil_append] at q1
  rcases q3 with ⟨rfl, _⟩ | ⟨o, r', rfl, e⟩
  · rw [q1] at hr; simp at hr
  · rw [q1] at hr
    have : r' = r := by simpa using hr
    subst this
    rw [e, q2, q1]
    congr 3
    -- the initial mass: the pack is there before the first run step
    rcases init_snow_out hm k3 with h | h
    · obtain ⟨_, _, _, _, _, h, _⟩ := h
      exact h
    · exfalso
      obtain ⟨_, _, _, _, hz0, hzl, _⟩ := h
      cases e5 with
      | nil => rw [k1] at q1; simp at q1
      | @cons i1 i2 r rs m m1 m' l ls h1 h2 h3 h4 =>
        obtain ⟨_, hne, _⟩ := executed_records ht k2 h3
        obtain ⟨dl, mid, hdl, hrn, _, _⟩ := h3.parts
        have key : ∀ {a b : Model} {l : List (RStep Phys)},
            (snobalSim c' ts g.output_all dl).Runs a l b → ∀ x ∈ l.head?, x.pre.snow = a.phys.snow := by
          intro a b l h
          induction h with
          | nil => simp
          | @enter st st' l h ih =>
            intro x hx
            rw [ih x hx]
            show (if st.phys.input1.precip_now then _ else _ : Phys).snow = _
            split <;> rfl
          | step => simp
        cases l with
        | nil => exact hne rfl
        | cons x l =>
          have e6 := key hrn x (by simp)
          obtain ⟨d, i1', _, hst⟩ := hx' (x :: l) (by simp) x (by simp)
          obtain ⟨s0, s1, s2, s3, s4, s5, s6, k⟩ := step_chain hm i1' hst
          have := (k.persist hm (hs (x :: l) (by simp) x (by simp))).2.2.2.2.2.2.2
          rw [e6] at this
          rw [lc_pos] at this
          rcases this with h | h
          · exact absurd h (not_lt.mpr hz0)
          · rw [show ({ m0 with phys := { m0.phys with input1 := i1 } } : Model).phys.snow.z_s_l = 0
              from hzl] at h
            exact absurd h (lt_irrefl _)

end

end Pysnobal
