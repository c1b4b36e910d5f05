import Verif.Lemmas.Thresholds
import Verif.Props.Subdivision

/-! # C94: the mass thresholds only choose the subdivision -/

namespace Pysnobal

noncomputable section

/-! ## Specification -/

/-- The same configuration with other mass thresholds for normal and medium steps. -/
def Config.withThresholds (g : Config) (normal medium : ℝ) : Config :=
  { g with norm_threshold := normal, medium_threshold := medium }

/-! ## Proof -/

/-- The table of time steps with other thresholds. -/
def tsThold (n d : ℝ) (ts : Tsteps) : Tsteps := fun lv => match lv with
  | .normal => { ts .normal with threshold := n }
  | .medium => { ts .medium with threshold := d }
  | .small => ts .small

theorem parse_thold {g : Config} {ts : Tsteps} (n d : ℝ) (h : parse_time_steps g = .ok ts) :
    parse_time_steps (g.withThresholds n d) = .ok (tsThold n d ts) := by
  unfold parse_time_steps at h ⊢
  obtain ⟨m, e1, h⟩ := bind_eq_ok.mp h
  obtain ⟨s, e2, h⟩ := bind_eq_ok.mp h
  obtain ⟨w, e3, h⟩ := bind_eq_ok.mp h
  cases h
  unfold Config.withThresholds
  dsimp only
  rw [e1, bind_ok, e2, bind_ok, e3, bind_ok]
  refine congrArg Except.ok ?_
  funext lv
  cases lv <;> rfl

theorem sim_thold (c : Env) (ts : Tsteps) (all : Bool) (n d : ℝ) (dl : Level → InputData) :
    snobalSim c (tsThold n d ts) all dl =
      (snobalSim c ts all dl).tests fun lv p => below_thold (tsThold n d ts lv).threshold p.snow := by
  unfold snobalSim Sim.tests
  congr 1 <;> (funext lv; cases lv <;> rfl)

theorem mediumPart_of {g : Config} {n d : ℝ} {c : Env} {ts : Tsteps} (hts : parse_time_steps g = .ok ts) (ht : TileOK ts)
    {all : Bool} {dl : Level → InputData} {l : List (RStep Phys)} (h : MediumInterval (g.withThresholds n d) l) :
    (snobalSim c (tsThold n d ts) all dl).MediumPart l := by
  obtain ⟨_, _, e1, e2, e3⟩ := parse_ok hts
  rcases h with ⟨x, rfl, h1, h2⟩ | ⟨⟨x, hx, h1⟩, h2, h3⟩
  · exact .inl ⟨x, rfl, h1, not_below_thin.mpr h2⟩
  · refine .inr ⟨?_, h2, fun y hy => ?_⟩
    · show l.length = (ts .small).intervals.toNat
      have h4 := ht.td_medium
      rw [show (ts .small).timedelta = g.small_time_step by rw [e3],
        show (ts .medium).timedelta = g.medium_time_step by rw [e2]] at h4
      have h5 : (l.length : ℤ) * g.small_time_step = g.medium_time_step := h3
      have h6 := ht.td_pos .small
      rw [show (ts .small).timedelta = g.small_time_step by rw [e3]] at h6
      have : (l.length : ℤ) = (ts .small).intervals := mul_right_cancel₀ h6.ne' (h5.trans h4.symm)
      omega
    · rw [hx] at hy
      cases hy
      exact below_thin.mpr h1

theorem normalPart_of {g : Config} {n d : ℝ} {c : Env} {ts : Tsteps} (hts : parse_time_steps g = .ok ts) (ht : TileOK ts)
    {all : Bool} {dl : Level → InputData} {l : List (RStep Phys)} (h : DataInterval (g.withThresholds n d) l) :
    (snobalSim c (tsThold n d ts) all dl).NormalPart l := by
  obtain ⟨_, _, e1, e2, e3⟩ := parse_ok hts
  rcases h with ⟨x, rfl, h1, h2⟩ | ⟨⟨x, hx, h1⟩, bs, rfl, h2, h3⟩
  · exact .inl ⟨x, rfl, h1, not_below_thin.mpr h2⟩
  · refine .inr ⟨⟨bs, ?_, fun b hb => mediumPart_of hts ht (h2 b hb), rfl⟩, fun y hy => ?_⟩
    · show bs.length = (ts .medium).intervals.toNat
      have h4 := ht.td_normal
      rw [show (ts .normal).timedelta = g.norm_time_step by rw [e1],
        show (ts .medium).timedelta = g.medium_time_step by rw [e2]] at h4
      have h5 : (bs.length : ℤ) * g.medium_time_step = g.norm_time_step := h3
      have h6 := ht.td_pos .medium
      rw [show (ts .medium).timedelta = g.medium_time_step by rw [e2]] at h6
      have : (bs.length : ℤ) = (ts .medium).intervals := mul_right_cancel₀ h6.ne' (h5.trans h4.symm)
      omega
    · rw [hx] at hy
      cases hy
      exact below_thin.mpr h1

theorem executed_thold {g : Config} {n d : ℝ} {c : Env} {ts : Tsteps} (hts : parse_time_steps g = .ok ts) (ht : TileOK ts)
    {all : Bool} {i1 i2 : InputData} {m m' : Model} {l : List (RStep Phys)} (h : Executed c ts all i1 i2 m l m')
    (hl : DataInterval (g.withThresholds n d) l) :
    Executed c (tsThold n d ts) all i1 i2 m l m' ∧ do_data_tstep c (tsThold n d ts) all i1 i2 m = .ok m' := by
  obtain ⟨dl, h1, h2⟩ := h
  have e : inputDeltas (tsThold n d ts) i1 i2 = .ok dl := by
    rw [← h1]
    show _ = inputDeltas ts i1 i2
    rfl
  have hx : (snobalSim c (tsThold n d ts) all dl).Executes { m with phys := { m.phys with input1 := i1 } } l m' := by
    have hk := snobal_enterKeeps c (tsThold n d ts) all dl
    have hp := normalPart_of (c := c) (all := all) (dl := dl) hts ht hl
    rw [sim_thold] at hk hp ⊢
    refine h2.tests (snobal_enterKeeps c ts all dl) hk ?_ ?_ ?_ hp
    · show 0 < (ts .small).intervals.toNat
      have := ht.s_pos
      omega
    · show 0 < (ts .medium).intervals.toNat
      have := ht.m_pos
      omega
    · show (ts .normal).intervals.toNat = 1
      rw [ht.n_normal]
      rfl
  refine ⟨⟨dl, e, hx⟩, ?_⟩
  unfold do_data_tstep
  rw [e, bind_ok]
  exact executes_iff.mpr ⟨l, hx⟩

theorem dataSteps_thold {g : Config} {n d : ℝ} {c : Env} {ts : Tsteps} (hts : parse_time_steps g = .ok ts) (ht : TileOK ts)
    {all : Bool} {i1 : InputData} {rs : List Rec} {m m' : Model} {ls : List (List (RStep Phys))}
    (h : DataSteps c ts all i1 rs m ls m') (hl : ∀ l ∈ ls, DataInterval (g.withThresholds n d) l) :
    DataSteps c (tsThold n d ts) all i1 rs m ls m' := by
  induction h with
  | nil => exact .nil _ _
  | cons k1 k2 k3 k4 ih =>
    obtain ⟨q1, q2⟩ := executed_thold hts ht k3 (hl _ (by simp))
    exact .cons k1 q2 q1 (ih fun l h => hl l (by simp [h]))

/-- C94: the mass thresholds of normal and medium steps act in no other way than by choosing the subdivision.  A run's history is also
the history of the same run with other thresholds – same run steps, same records, same object in the end – exactly if the other
thresholds ask for the subdivision it shows: normal steps from where no layer is lighter than the normal threshold, medium steps from
where one is but none is lighter than the medium threshold, small steps from where one is. -/
theorem C94_thresholds_only_choose (g : Config) (hg : g.Tiled) (n d : ℝ) (rows : List Rec) (ls : List (List (RStep Phys))) (m : Model)
    (h : RunTrace g rows ls m) :
    RunTrace (g.withThresholds n d) rows ls m ↔ ∀ l ∈ ls, DataInterval (g.withThresholds n d) l := by
  refine ⟨fun h' => C11_exact_subdivision (g.withThresholds n d) hg rows ls m h', fun hl => ?_⟩
  obtain ⟨c, ts, i1, m0, r, rs, rfl, e1, e2, e3, e4, e5⟩ := h
  exact ⟨c, tsThold n d ts, i1, m0, r, rs, rfl, parse_thold n d e1, e2, e3, e4, dataSteps_thold e1 (parse_tile hg e1) e5 hl⟩

/-- C94, in terms of layer masses: if at the start of every data step the old and the new normal threshold agree on whether there is a
layer too light, and at every medium or small step so do the medium thresholds, the run is the same. -/
theorem C94_same_thin_layers (g : Config) (hg : g.Tiled) (n d : ℝ) (rows : List Rec) (ls : List (List (RStep Phys))) (m : Model)
    (h : RunTrace g rows ls m) (hn : ∀ l ∈ ls, ∀ x ∈ l.head?, x.pre.snow.Thin g.norm_threshold ↔ x.pre.snow.Thin n)
    (hd : ∀ l ∈ ls, ∀ x ∈ l, x.lv ≠ .normal → (x.pre.snow.Thin g.medium_threshold ↔ x.pre.snow.Thin d)) :
    RunTrace (g.withThresholds n d) rows ls m ∧ simulate (g.withThresholds n d) rows = .ok m := by
  have key : RunTrace (g.withThresholds n d) rows ls m := by
    refine (C94_thresholds_only_choose g hg n d rows ls m h).mpr fun l hl => ?_
    rcases C11_exact_subdivision g hg rows ls m h l hl with ⟨x, rfl, h1, h2⟩ | ⟨⟨x, hx, h1⟩, bs, e, h2, h3⟩
    · exact .inl ⟨x, rfl, h1, fun q => h2 ((hn _ hl x (by simp)).mpr q)⟩
    · refine .inr ⟨⟨x, hx, (hn l hl x (by rw [hx]; rfl)).mp h1⟩, bs, e, fun b hb => ?_, h3⟩
      have hm : ∀ y ∈ b, y ∈ l := fun y hy => by
        rw [e]
        exact List.mem_flatten.mpr ⟨b, hb, hy⟩
      rcases h2 b hb with ⟨y, rfl, h4, h5⟩ | ⟨⟨y, hy, h4⟩, h5, h6⟩
      · exact .inl ⟨y, rfl, h4, fun q => h5 ((hd l hl y (hm y (by simp)) (by rw [h4]; simp)).mpr q)⟩
      · have hyb : y ∈ b := List.mem_of_mem_head? (by rw [hy]; rfl)
        exact .inr ⟨⟨y, hy, (hd l hl y (hm y hyb) (by rw [h5 y hyb]; simp)).mp h4⟩, h5, h6⟩
  exact ⟨key, key.simulate⟩

/-! ## The hypotheses are met -/

/-- A pack of 100 kg/m²: every normal threshold above 100 and every medium threshold up to 100 give the run that four medium steps an hour
make … -/
example (k : ℕ) (n d : ℝ) (h1 : 100 < n) (h2 : d ≤ 100) :
    ∃ ls m, RunTrace (divCfg 10) (List.replicate (k + 1) (calmRec 0 0 0 0)) ls m ∧ ls.length = k ∧
      RunTrace ((divCfg 10).withThresholds n d) (List.replicate (k + 1) (calmRec 0 0 0 0)) ls m := by
  obtain ⟨ls, m, h, hl, h3⟩ := div_run 10 k
  have hmem : ∀ l ∈ ls, ∀ x ∈ l.head?, x ∈ l := fun l _ x hx => List.mem_of_mem_head? hx
  refine ⟨ls, m, h, hl, (C94_same_thin_layers _ (divCfg_tiled 10) n d _ ls m h (fun l hl x hx => ?_) (fun l hl x hx _ => ?_)).1⟩
  · obtain ⟨e1, e2⟩ := h3 l hl x (hmem l hl x hx)
    refine iff_of_true (.inl ⟨e1, ?_⟩) (.inl ⟨e1, ?_⟩)
    · rw [e2]; norm_num [divCfg, calmCfg]
    · rw [e2]; exact h1
  · obtain ⟨e1, e2⟩ := h3 l hl x hx
    refine iff_of_false ?_ ?_
    · rintro (⟨_, q⟩ | ⟨q, _⟩)
      · rw [e2] at q; norm_num [divCfg] at q
      · omega
    · rintro (⟨_, q⟩ | ⟨q, _⟩)
      · rw [e2] at q; linarith
      · omega

/-- … and a normal threshold up to 100 gives another one. -/
example (k : ℕ) (n d : ℝ) (h1 : n ≤ 100) : ∃ ls m, RunTrace (divCfg 10) (List.replicate (k + 2) (calmRec 0 0 0 0)) ls m ∧
      ¬ RunTrace ((divCfg 10).withThresholds n d) (List.replicate (k + 2) (calmRec 0 0 0 0)) ls m := by
  obtain ⟨ls, m, h, hl, h3⟩ := div_run 10 (k + 1)
  refine ⟨ls, m, h, fun h' => ?_⟩
  cases ls with
  | nil => simp at hl
  | cons l ls =>
    have hthin : ∀ x ∈ l, ∀ thr : ℝ, x.pre.snow.Thin thr ↔ 100 < thr := by
      intro x hx thr
      obtain ⟨e1, e2⟩ := h3 l (by simp) x hx
      unfold Snow.Thin
      rw [e1, e2]
      norm_num
    have a := (C94_thresholds_only_choose _ (divCfg_tiled 10) n d _ _ m h).mp h' l (by simp)
    have b := C11_exact_subdivision _ (divCfg_tiled 10) _ _ _ h l (by simp)
    rcases b with ⟨x, rfl, _, q⟩ | ⟨⟨x, hx, q⟩, bs, e, _, hb⟩
    · exact q ((hthin x (by simp) _).mpr (by norm_num [divCfg, calmCfg]))
    · rcases a with ⟨y, rfl, hy, _⟩ | ⟨⟨y, hy, q'⟩, _⟩
      · have hb' : (bs.length : ℤ) * 15 = 60 := hb
        cases bs with
        | nil => simp at hb'
        | cons b0 bs => 
          exfalso
          have a2 := C11_exact_subdivision _ (divCfg_tiled 10) _ _ _ h [y] (by simp)
          rcases a2 with ⟨z, e2, _, q⟩ | ⟨_, cs, e2, hcs, _⟩
          · cases e2
            exact q ((hthin y (by simp) _).mpr (by norm_num [divCfg, calmCfg]))
          · have : y ∈ cs.flatten := by rw [← e2]; simp
            obtain ⟨c0, hc0, hyc⟩ := List.mem_flatten.mp this
            rcases hcs c0 hc0 with ⟨z, e3, hz, _⟩ | ⟨_, hz, _⟩
            · rw [e3, List.mem_singleton] at hyc
              rw [hyc, hz] at hy
              cases hy
            · rw [hz y hyc] at hy
              cases hy
      · have := (hthin y (List.mem_of_mem_head? (by rw [hy]; rfl)) _).mp q'
        change 100 < n at this
        linarith

end

end Pysnobal
