import Verif.Props.Start
import Verif.Lemmas.Complete
import Verif.Lemmas.WitnessRun

/-! # C11, C57: which run steps a run executes is determined, and exactly when it subdivides -/

namespace Pysnobal

noncomputable section

/-! ## Specification -/

/-- Some snow layer is lighter than `thr`: the only one of a one-layer pack, or one of the two of a two-layer pack. -/
def Snow.Thin (thr : ℝ) (s : Snow) : Prop :=
  s.layer_count = 1 ∧ s.m_s < thr ∨ s.layer_count = 2 ∧ (s.m_s_0 < thr ∨ s.m_s_l < thr)

/-- The first run step of `l` starts with a layer lighter than `thr`. -/
def StartsThin (thr : ℝ) (l : List (RStep Phys)) : Prop := ∃ x, l.head? = some x ∧ x.pre.snow.Thin thr

/-- `l` is one run step at the level `lv`, and no layer is lighter than `thr` when it starts. -/
def Undivided (lv : Level) (thr : ℝ) (l : List (RStep Phys)) : Prop :=
  ∃ x, l = [x] ∧ x.lv = lv ∧ ¬ x.pre.snow.Thin thr

/-- A medium interval: one medium step if no layer is lighter than the medium threshold when it starts, and
otherwise as many small steps as fill it. -/
def MediumInterval (g : Config) (l : List (RStep Phys)) : Prop :=
  Undivided .medium g.medium_threshold l ∨
  StartsThin g.medium_threshold l ∧ (∀ x ∈ l, x.lv = .small) ∧ l.length * g.small_time_step = g.medium_time_step

/-- A data step: one normal step if no layer is lighter than the normal threshold when it starts, and otherwise as many
medium intervals as fill it. -/
def DataInterval (g : Config) (l : List (RStep Phys)) : Prop :=
  Undivided .normal g.norm_threshold l ∨
  StartsThin g.norm_threshold l ∧ ∃ bs : List (List (RStep Phys)), l = bs.flatten ∧ (∀ b ∈ bs, MediumInterval g b) ∧
    bs.length * g.medium_time_step = g.norm_time_step

/-! ## Proofs -/

theorem below_thin {thr : ℝ} {s : Snow} : below_thold thr s = true ↔ s.Thin thr := by
  unfold below_thold Snow.Thin
  have := lc_le_two s
  by_cases h0 : s.layer_count = 0
  · rw [if_pos h0]; simp [h0]
  · rw [if_neg h0]
    by_cases h1 : s.layer_count = 1
    · rw [if_pos h1]; simp [h1]
    · rw [if_neg h1]
      have h2 : s.layer_count = 2 := by omega
      simp [h2]

theorem not_below_thin {thr : ℝ} {s : Snow} : below_thold thr s = false ↔ ¬ s.Thin thr := by
  rw [← below_thin]; simp

theorem mediumPart_interval {g : Config} {c : Env} {ts : Tsteps} (hts : parse_time_steps g = .ok ts) (ht : TileOK ts)
    {all : Bool} {dl : Level → InputData} {l : List (RStep Phys)} (h : (snobalSim c ts all dl).MediumPart l) :
    MediumInterval g l ∧ l ≠ [] := by
  obtain ⟨_, _, e1, e2, e3⟩ := parse_ok hts
  have hth := parse_threshold hts
  rcases h with ⟨x, rfl, h1, h2⟩ | ⟨h1, h2, h3⟩
  · refine ⟨.inl ⟨x, rfl, h1, ?_⟩, by simp⟩
    have : below_thold (ts .medium).threshold x.pre.snow = false := h2
    rw [hth.2.1] at this
    exact not_below_thin.mp this
  · change l.length = (ts .small).intervals.toNat at h1
    have hpos := ht.s_pos
    have hlen : (l.length : ℤ) = (ts .small).intervals := by rw [h1]; exact Int.toNat_of_nonneg hpos.le
    have hne : l ≠ [] := by
      rintro rfl
      simp at hlen
      omega
    refine ⟨.inr ⟨?_, h2, ?_⟩, hne⟩
    · obtain ⟨x, tl, rfl⟩ := List.exists_cons_of_ne_nil hne
      refine ⟨x, rfl, ?_⟩
      have : below_thold (ts .medium).threshold x.pre.snow = true := h3 x (by simp)
      rw [hth.2.1] at this
      exact below_thin.mp this
    · rw [hlen]
      have := ht.td_medium
      rw [show (ts .small).timedelta = g.small_time_step by rw [e3],
        show (ts .medium).timedelta = g.medium_time_step by rw [e2]] at this
      exact this

theorem executed_interval {g : Config} (hg : g.Tiled) {ts : Tsteps} (hts : parse_time_steps g = .ok ts) {c : Env}
    {all : Bool} {i1 i2 : InputData} {m m' : Model} {l : List (RStep Phys)} (h : Executed c ts all i1 i2 m l m') :
    DataInterval g l := by
  have ht := parse_tile hg hts
  obtain ⟨_, _, e1, e2, e3⟩ := parse_ok hts
  have hth := parse_threshold hts
  obtain ⟨dl, _, he⟩ := h
  obtain ⟨⟨bs, b1, b2, b3⟩, _⟩ := he.parts (snobal_enterKeeps c ts all dl)
  have hn : bs.length = 1 := by
    rw [b1]
    show (ts .normal).intervals.toNat = 1
    rw [ht.n_normal]; rfl
  obtain ⟨b, rfl⟩ := List.length_eq_one_iff.mp hn
  have hlb : l = b := by simpa using b3
  subst hlb
  rcases b2 l (by simp) with ⟨x, rfl, h1, h2⟩ | ⟨⟨ps, p1, p2, p3⟩, h2⟩
  · refine .inl ⟨x, rfl, h1, ?_⟩
    have : below_thold (ts .normal).threshold x.pre.snow = false := h2
    rw [hth.1] at this
    exact not_below_thin.mp this
  · have hpos := ht.m_pos
    have hlen : (ps.length : ℤ) = (ts .medium).intervals := by rw [p1]; exact Int.toNat_of_nonneg hpos.le
    have hi : ∀ b ∈ ps, MediumInterval g b ∧ b ≠ [] := fun b hb => mediumPart_interval hts ht (p2 b hb)
    refine .inr ⟨?_, ps, p3, fun b hb => (hi b hb).1, ?_⟩
    · have hne : l ≠ [] := by
        cases ps with
        | nil => simp at hlen; omega
        | cons b bs =>
          obtain ⟨x, tl, rfl⟩ := List.exists_cons_of_ne_nil (hi b (by simp)).2
          rw [p3]; simp
      obtain ⟨x, tl, rfl⟩ := List.exists_cons_of_ne_nil hne
      refine ⟨x, rfl, ?_⟩
      have : below_thold (ts .normal).threshold x.pre.snow = true := h2 x (by simp)
      rw [hth.1] at this
      exact below_thin.mp this
    · rw [hlen]
      have := ht.td_normal
      rw [show (ts .normal).timedelta = g.norm_time_step by rw [e1],
        show (ts .medium).timedelta = g.medium_time_step by rw [e2]] at this
      exact this

theorem DataSteps.forall {c : Env} {ts : Tsteps} {all : Bool} {i1 : InputData} {rs : List Rec} {m m' : Model}
    {ls : List (List (RStep Phys))} (h : DataSteps c ts all i1 rs m ls m') :
    ∀ l ∈ ls, ∃ i1 i2 m m', Executed c ts all i1 i2 m l m' := by
  induction h with
  | nil => simp
  | cons _ _ h3 _ ih =>
    intro l hl
    rcases List.mem_cons.mp hl with rfl | hl
    · exact ⟨_, _, _, _, h3⟩
    · exact ih l hl

/-- C11: every data step of a completed run executes one normal step if at its start no layer is lighter than the normal
threshold; otherwise it consists of exactly as many medium intervals as fill it, and each of these executes one medium
step if at its start no layer is lighter than the medium threshold, and otherwise exactly as many small steps as fill it. -/
theorem C11_exact_subdivision (g : Config) (hg : g.Tiled) (rows : List Rec) (ls : List (List (RStep Phys))) (m : Model)
    (h : RunTrace g rows ls m) : ∀ l ∈ ls, DataInterval g l := by
  obtain ⟨c, ts, i1, m0, r, rs, rfl, e1, e2, e3, e4, e5⟩ := h
  intro l hl
  obtain ⟨_, _, _, _, he⟩ := e5.forall l hl
  exact executed_interval hg e1 he

theorem DataSteps.unique {c : Env} {ts : Tsteps} {all : Bool} {i1 : InputData} {rs : List Rec} {m m1 m2 : Model}
    {l1 l2 : List (List (RStep Phys))} (h1 : DataSteps c ts all i1 rs m l1 m1) (h2 : DataSteps c ts all i1 rs m l2 m2) :
    l1 = l2 ∧ m1 = m2 := by
  induction h1 generalizing l2 m2 with
  | nil => cases h2; exact ⟨rfl, rfl⟩
  | cons a1 a2 a3 a4 ih =>
    cases h2 with
    | cons b1 b2 b3 b4 =>
      rw [a1] at b1
      cases b1
      obtain ⟨q1, q2⟩ := a3.unique b3
      subst q1 q2
      obtain ⟨q3, q4⟩ := ih b4
      exact ⟨by rw [q3], q4⟩

/-- C57: a run completes exactly if it has a history, and it has at most one: the configuration and the records determine
which run steps are executed, from which states, and the object the run leaves. -/
theorem C57_one_history (g : Config) (rows : List Rec) :
    (∀ m, simulate g rows = .ok m ↔ ∃ ls, RunTrace g rows ls m) ∧
    ∀ ls ls' m m', RunTrace g rows ls m → RunTrace g rows ls' m' → ls = ls' ∧ m = m' := by
  refine ⟨fun m => ⟨simulate_trace, fun ⟨_, h⟩ => h.simulate⟩, ?_⟩
  rintro ls ls' m m' ⟨c, ts, i1, m0, r, rs, rfl, e1, e2, e3, e4, e5⟩ ⟨c', ts', i1', m0', r', rs', he, f1, f2, f3, f4, f5⟩
  cases he
  rw [e1] at f1; cases f1
  rw [e2] at f2; cases f2
  rw [e3] at f3; cases f3
  rw [e4] at f4; cases f4
  exact e5.unique f5

/-! ## A run that subdivides -/

/-- A saturated ripe pack of 100 kg/m² with thresholds above (normal) and `thr` (medium). -/
def divCfg (thr : ℝ) : Config := { calmCfg 200 0.01 (1 / 6) 600 1 with medium_threshold := thr }

theorem divCfg_tiled (thr : ℝ) : (divCfg thr).Tiled := defaultSteps_tiled

/-- The rule for the resting pack: every run step, of whatever length, leaves it as it is. -/
theorem settled_rule {ts : Tsteps} (ht : TileOK ts) : RunRule (calmEnv 0.01) ts (fun r => r = calmRec 0 0 0 0)
    (fun _ p => Settled 0.01 100 p ∧ p.input1 = (calmRec 0 0 0 0).toInput)
    (fun _ d => (calmRec 0 0 0 0).toInput.add_deltas d = (calmRec 0 0 0 0).toInput) (fun s => s.m_s = 100) where
  record := by
    rintro r i0 i p rfl hn ⟨h, _⟩
    exact ⟨⟨h.ripe, h.rho, h.m, h.cap, h.wet, h.start⟩, (new_ok hn).1⟩
  delta := by
    rintro r1 r2 i1 i2 lv d rfl rfl n1 n2 hd
    rw [(deltaFor_ok hd).2, (new_ok n1).1, (new_ok n2).1]
    simp [InputData.add_deltas, InputData.update_precip_deltas, Rec.toInput, calmRec, deltaRec]
  enter := by
    rintro i d p _ ⟨_, h⟩ hp
    rw [h] at hp
    simp [Rec.toInput, calmRec] at hp
  step := by
    rintro lv i d p p' hd ⟨h, hi⟩ hs
    obtain ⟨q, k1, k2, _, _, _, _, _, _, k9⟩ := settled_step (dt := (ts lv).time_step) (dl := d) h hi
    rw [hs] at k1
    cases k1
    refine ⟨k2.m, ⟨k2.ripe, k2.rho, k2.m, k2.cap, k2.wet, k2.start⟩, ?_⟩
    show p'.input1.add_deltas d = _
    rw [k9, hi, hd]
  idle := .inl ht

theorem div_start (thr : ℝ) : ∃ s, init_snow (calmEnv 0.01) (recordSnow (divCfg thr)) = .ok s ∧
    ∀ i, Settled 0.01 100 { snow := s, input1 := i, init_ustar := none, init_factor := none } := by
  have hinit := init_calm (thr := 200) (vol := 0.01) (z := 1 / 6) (rho := 600) (sat := 1) (d := _)
    (by norm_num) (by norm_num) (by norm_num) (by norm_num [RHO_W0, RHO_ICE]) rfl
  refine ⟨_, hinit, fun i => ⟨⟨?_, rfl, rfl, ?_, ?_, rfl, rfl, rfl, rfl, rfl, rfl, rfl⟩, ?_, ?_, ?_, ?_, .inl ⟨rfl, rfl⟩⟩⟩
  · norm_num
  · norm_num
  · norm_num
  · norm_num
  · norm_num
  · norm_num [h2o_left, RHO_W0, RHO_ICE]
  · norm_num [h2o_left, RHO_W0, RHO_ICE]

/-- The run over `n` data steps completes, and all its snow weighs 100 kg/m². -/
theorem div_run (thr : ℝ) (n : ℕ) : ∃ ls m, RunTrace (divCfg thr) (List.replicate (n + 1) (calmRec 0 0 0 0)) ls m ∧
    ls.length = n ∧ ∀ l ∈ ls, ∀ x ∈ l, x.pre.snow.layer_count = 1 ∧ x.pre.snow.m_s = 100 := by
  have hg := divCfg_tiled thr
  obtain ⟨ts, hts⟩ := parse_of_ne (g := divCfg thr) hg.2.1.ne' hg.2.2.1.ne'
  have ht := parse_tile hg hts
  have hc : mkEnv (divCfg thr) = .ok (calmEnv 0.01) := calmCfg_env 200 0.01 (1 / 6) 600 1
  obtain ⟨s, hs, hset⟩ := div_start thr
  have R := settled_rule ht
  have h0 : ∀ r i t, r = calmRec 0 0 0 0 → InputData.new r = .ok i →
      init_snow (calmEnv 0.01) (recordSnow (divCfg thr)) = .ok t →
      Settled 0.01 100 { snow := t, input1 := i, init_ustar := none, init_factor := none } ∧
        i = (calmRec 0 0 0 0).toInput := by
    rintro r i t rfl hn hi
    rw [hs] at hi
    cases hi
    exact ⟨hset i, (new_ok hn).1⟩
  have hnew : ∀ r, r = calmRec 0 0 0 0 → ∃ i, InputData.new r = .ok i := by
    rintro r rfl
    rw [new_eq, if_neg (by rintro ⟨h, _⟩; exact lt_irrefl _ h)]
    exact ⟨_, rfl⟩
  obtain ⟨m, hm⟩ := R.simulates hg hc hts h0 (fun lv i d p _ hI => by
    obtain ⟨q, k1, _⟩ := settled_step (dt := (ts lv).time_step) (dl := d) hI.1 hI.2
    exact ⟨q, k1⟩) hnew hs (rows := List.replicate (n + 1) (calmRec 0 0 0 0)) (by simp)
    (fun r hr => List.eq_of_mem_replicate hr)
  obtain ⟨ls, hls⟩ := simulate_trace hm
  refine ⟨ls, m, hls, ?_, ?_⟩
  · have := (C57_history (divCfg thr) (by norm_num [divCfg, calmCfg, defaultSteps]) _ _ _ hls).1
    simpa using this
  · intro l hl x hx
    obtain ⟨_, _, _, hI, _⟩ := R.trace hc hts h0 (fun r hr => List.eq_of_mem_replicate hr) hls l hl x hx
    exact ⟨hI.1.ripe.lc, hI.1.m⟩

/-- With a medium threshold above the mass of the pack every data step executes 60 small steps … -/
example (n : ℕ) : ∃ ls m, RunTrace (divCfg 150) (List.replicate (n + 1) (calmRec 0 0 0 0)) ls m ∧ ls.length = n ∧
    ∀ l ∈ ls, ∃ bs : List (List (RStep Phys)), l = bs.flatten ∧ bs.length = 4 ∧
      ∀ b ∈ bs, b.length = 15 ∧ ∀ x ∈ b, x.lv = .small := by
  obtain ⟨ls, m, h1, h2, h3⟩ := div_run 150 n
  refine ⟨ls, m, h1, h2, fun l hl => ?_⟩
  rcases C11_exact_subdivision _ (divCfg_tiled 150) _ _ _ h1 l hl with ⟨x, rfl, _, h⟩ | ⟨_, bs, e, hb, hn⟩
  · exfalso
    obtain ⟨e1, e2⟩ := h3 _ hl x (by simp)
    exact h (.inl ⟨e1, by rw [e2]; norm_num [divCfg, calmCfg]⟩)
  · refine ⟨bs, e, ?_, fun b hb' => ?_⟩
    · change (bs.length : ℤ) * 15 = 60 at hn
      omega
    · rcases hb b hb' with ⟨x, rfl, _, h⟩ | ⟨_, h4, h5⟩
      · exfalso
        obtain ⟨e1, e2⟩ := h3 _ hl x (by rw [e]; exact List.mem_flatten.mpr ⟨_, hb', by simp⟩)
        exact h (.inl ⟨e1, by rw [e2]; norm_num [divCfg]⟩)
      · change (b.length : ℤ) * 1 = 15 at h5
        exact ⟨by omega, h4⟩

/-- … and with one below it, four medium steps. -/
example (n : ℕ) : ∃ ls m, RunTrace (divCfg 10) (List.replicate (n + 1) (calmRec 0 0 0 0)) ls m ∧ ls.length = n ∧
    ∀ l ∈ ls, ∃ bs : List (List (RStep Phys)), l = bs.flatten ∧ bs.length = 4 ∧
      ∀ b ∈ bs, ∃ x, b = [x] ∧ x.lv = .medium := by
  obtain ⟨ls, m, h1, h2, h3⟩ := div_run 10 n
  refine ⟨ls, m, h1, h2, fun l hl => ?_⟩
  rcases C11_exact_subdivision _ (divCfg_tiled 10) _ _ _ h1 l hl with ⟨x, rfl, _, h⟩ | ⟨_, bs, e, hb, hn⟩
  · exfalso
    obtain ⟨e1, e2⟩ := h3 _ hl x (by simp)
    exact h (.inl ⟨e1, by rw [e2]; norm_num [divCfg, calmCfg]⟩)
  · refine ⟨bs, e, ?_, fun b hb' => ?_⟩
    · change (bs.length : ℤ) * 15 = 60 at hn
      omega
    · rcases hb b hb' with ⟨x, rfl, h, _⟩ | ⟨⟨x, hx, h⟩, _, _⟩
      · exact ⟨x, rfl, h⟩
      · exfalso
        have hxb : x ∈ b := List.mem_of_mem_head? (by rw [hx]; rfl)
        obtain ⟨e1, e2⟩ := h3 _ hl x (by rw [e]; exact List.mem_flatten.mpr ⟨_, hb', hxb⟩)
        rcases h with ⟨_, h⟩ | ⟨h, _⟩
        · rw [e2] at h
          norm_num [divCfg] at h
        · omega

end

end Pysnobal
