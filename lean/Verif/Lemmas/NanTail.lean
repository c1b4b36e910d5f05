import Verif.Lemmas.NanWitness
import Verif.Props.MissingRun

/-! # Dry rows over bare ground, and a complete run with a blank wind cell -/

namespace Pysnobal

noncomputable section

open Classical

namespace Nan

/-- A row that says nothing of precipitation, or that none falls. -/
def _root_.Pysnobal.NRec.Dry (n : NRec) : Prop := ∀ x, n.m_pp = some x → x ≤ 0

theorem dry_new {n : NRec} (h : n.Dry) : ∃ i, NInput.new n = .ok i ∧ i.precip_now = false ∧ i.m_pp = n.m_pp := by
  have hp : ¬NVal.lt (some 0) n.m_pp := by
    rintro ⟨x, y, hx, hy, hxy⟩
    cases hx
    exact absurd hxy (not_lt.mpr (h y hy))
  cases e : NInput.new n with
  | error x => rw [nnew_eq] at e; rw [if_neg (fun k => hp k.1)] at e; cases e
  | ok i =>
    refine ⟨i, rfl, ?_, ?_⟩
    · rw [nnew_ok e]; exact decide_eq_false hp
    · rw [nnew_ok e]; rfl

theorem dry_deltas {ts : Tsteps} (ht : TileOK ts) {n : NRec} {i1 : NInput} (h : n.Dry) (h1 : i1.m_pp = n.m_pp) (i2 : NInput) :
    ∃ dl, inputDeltas ts i1 i2 = .ok dl := by
  have key : ∀ lv, ∃ d, nDeltaFor i1 i2 (ts lv) = .ok d := by
    intro lv
    have hN : (0 : ℝ) < (ts lv).intervals_per_timestep := by exact_mod_cast ht.ipt_pos lv
    rw [nDeltaFor_eq _ _ _ hN.ne']
    obtain ⟨i, hi, _⟩ := dry_new (n := { S_n := (NVal.sub i2.S_n i1.S_n).map fun x => x / ((ts lv).intervals_per_timestep : ℝ)
                                         I_lw := (NVal.sub i2.I_lw i1.I_lw).map fun x => x / ((ts lv).intervals_per_timestep : ℝ)
                                         t_a := (NVal.sub i2.t_a i1.t_a).map fun x => x / ((ts lv).intervals_per_timestep : ℝ)
                                         e_a := (NVal.sub i2.e_a i1.e_a).map fun x => x / ((ts lv).intervals_per_timestep : ℝ)
                                         u := (NVal.sub i2.u i1.u).map fun x => x / ((ts lv).intervals_per_timestep : ℝ)
                                         t_g := (NVal.sub i2.t_g i1.t_g).map fun x => x / ((ts lv).intervals_per_timestep : ℝ)
                                         m_pp := i1.m_pp.map fun x => x / ((ts lv).intervals_per_timestep : ℝ)
                                         percent_snow := i1.percent_snow, rho_snow := i1.rho_snow, t_pp := i1.t_pp }) (by
      intro x hx
      rw [h1] at hx
      obtain ⟨y, hy, rfl⟩ := Option.map_eq_some_iff.mp hx
      exact div_nonpos_of_nonpos_of_nonneg (h y hy) hN.le)
    exact ⟨i, hi⟩
  obtain ⟨a, ha⟩ := key .normal
  obtain ⟨b, hb⟩ := key .medium
  obtain ⟨d, hd⟩ := key .small
  exact ⟨_, by unfold inputDeltas; rw [ha, bind_ok, hb, bind_ok, hd, bind_ok]; rfl⟩

/-- A dry run step over bare ground completes, and the ground stays bare. -/
theorem step_bare_ok {c : Env} {dt : ℝ} {dl : NInput} {p : Phys} (hl : p.snow.layer_count = 0) (hp : p.input1.precip_now = false) :
    ∃ p', stepPhys c dt dl p = .ok p' ∧ p'.snow.layer_count = 0 := by
  unfold stepPhys
  rw [if_neg (by rw [hp]; simp)]
  dsimp only
  have hd : decide (({ p.snow with h2o_total := 0 } : Snow).layer_count > 0) = false := by
    rw [show ({ p.snow with h2o_total := 0 } : Snow).layer_count = 0 from hl]; rfl
  rw [hd]
  unfold energy_balance
  rw [if_neg (show ¬({ p.snow with h2o_total := 0, snowcover := false } : Snow).layer_count > 0 by
    rw [show ({ p.snow with h2o_total := 0, snowcover := false } : Snow).layer_count = 0 from hl]; simp), bind_ok]
  unfold mass_balance time_compact precip_event snowmelt evap_cond h2o_compact runoff
  simp only [hp, true_or, if_true, if_false, bind_ok, Bool.false_eq_true, pure_ok]
  exact ⟨_, rfl, hl⟩

/-- A data step from a state that is not below the normal threshold: one normal run step. -/
theorem data_normal {c : Env} {ts : Tsteps} (ht : TileOK ts) {all : Bool} {i1 i2 : NInput} {dl : Level → NInput}
    (hd : inputDeltas ts i1 i2 = .ok dl) {m : Model} (h0 : m.acc.time_since_out = 0)
    (hb : below_thold (ts .normal).threshold m.phys.snow = false) {p' : Phys}
    (hp : stepPhys c (ts .normal).time_step (dl .normal) { m.phys with input1 := i1 } = .ok p') :
    ∃ m', do_data_tstep c ts all i1 i2 m = .ok m' ∧ m'.phys.snow = p'.snow ∧ m'.acc.time_since_out = 0 := by
  unfold do_data_tstep
  rw [hd, bind_ok, data_tstep_eq]
  unfold Sim.normalBlock
  have hn : ((ts .normal).intervals).toNat = 1 := by rw [ht.n_normal]; rfl
  cases all <;>
    simp [snobalSim, hn, iterM, hb, Sim.do_tstep, hp, accumulate, h0, Sim.output, snapshot, Acc.value_to_bar]

/-- Dry rows over bare ground always complete. -/
theorem runSteps_bare {c : Env} {ts : Tsteps} (ht : TileOK ts) {all : Bool} : ∀ (rs : List NRec) {n : NRec} {i : NInput} {m : Model},
    n.Dry → NInput.new n = .ok i → (∀ r ∈ rs, r.Dry) → m.acc.time_since_out = 0 → m.phys.snow.layer_count = 0 →
    ∃ m', runSteps c ts all i rs m = .ok m' ∧ m'.phys.snow.layer_count = 0 := by
  intro rs
  induction rs with
  | nil => exact fun _ _ _ _ hl => ⟨_, rfl, hl⟩
  | cons r rs ih =>
    intro n i m hn hi hr h0 hl
    obtain ⟨i', e', p', _⟩ := dry_new (hr r (by simp))
    obtain ⟨j, e, pn, mn⟩ := dry_new hn
    rw [hi] at e
    cases e
    obtain ⟨dl, hd⟩ := dry_deltas ht hn mn i'
    obtain ⟨q, hq, lq⟩ := step_bare_ok (c := c) (dt := (ts .normal).time_step) (dl := dl .normal) (p := { m.phys with input1 := i }) hl pn
    obtain ⟨m', hm, hs, h0'⟩ := data_normal (c := c) (all := all) ht hd h0 (by unfold below_thold; rw [if_pos hl]) hq
    obtain ⟨m2, h2, l2⟩ := ih (m := m') (hr r (by simp)) e' (fun x hx => hr x (by simp [hx])) h0' (by rw [hs]; exact lq)
    refine ⟨m2, ?_, l2⟩
    simp only [runSteps, e', bind_ok, hm, h2]

/-- 100 kg/m² of ripe snow, a row with a blank wind cell and then any dry rows, complete or not: the run completes. -/
theorem gap_run (rest : List NRec) (hr : ∀ r ∈ rest, r.Dry) :
    (∃ m0, simulate stormCfg [{ quietRec.cells with u := none }] = .ok m0 ∧ m0.phys.snow.layer_count = 1 ∧
      m0.phys.snow.m_s = some 100) ∧
    ∃ m, simulate stormCfg ([{ quietRec.cells with u := none }] ++ rest) = .ok m := by
  have hinit := init_calm (thr := 60) (vol := 0.01) (z := 1 / 6) (rho := 600) (sat := 0) (d := 600)
    (by norm_num) (by norm_num) (by norm_num) (by norm_num) (by norm_num)
  obtain ⟨s0, hs0, f1, f2, f3⟩ : ∃ s0, Pysnobal.init_snow (calmEnv 0.01) (recordSnow stormCfg) = .ok s0 ∧
      RipeSnow s0 ∧ s0.rho = 600 ∧ s0.m_s = 100 := by
    refine ⟨_, hinit, ⟨?_, rfl, rfl, ?_, ?_, rfl, rfl, rfl, rfl, rfl, rfl, rfl⟩, rfl, ?_⟩ <;> norm_num
  obtain ⟨ts, hts⟩ : ∃ ts, parse_time_steps stormCfg = .ok ts := parse_of_ne (by decide) (by decide)
  have ht := parse_tile (g := stormCfg) (calmCfg_tiled _ _ _ _ _) hts
  obtain ⟨_, _, e1, _, _⟩ := parse_ok hts
  have henv : mkEnv stormCfg = .ok (calmEnv 0.01) := calmCfg_env _ _ _ _ _
  have hdry : NRec.Dry { quietRec.cells with u := none } := by
    intro x hx
    have hx' : some (0 : ℝ) = some x := hx
    cases hx'
    exact le_refl _
  obtain ⟨i, hi, hip, him⟩ := dry_new hdry
  have hig : i = gapInput quietRec.toInput := by
    rw [nnew_ok hi]
    have h1 : NInput.new quietRec.cells = .ok quietRec.toInput.cells := by
      rw [cells_new, show InputData.new quietRec = .ok quietRec.toInput from calmRec_new (by norm_num)]
      rfl
    unfold gapInput
    rw [nnew_ok h1]
    rfl
  obtain ⟨m0, hm0, k1, k2⟩ : ∃ m0, mkModel stormCfg (calmEnv 0.01) i = .ok m0 ∧ m0.acc.time_since_out = 0 ∧
      m0.phys = ⟨Snow.ofReal s0, i, none, none⟩ := by
    unfold mkModel
    rw [init_snow_s, hs0]
    exact ⟨_, rfl, rfl, rfl⟩
  refine ⟨⟨m0, ?_, ?_, ?_⟩, ?_⟩
  · unfold simulate
    simp only [hts, hi, henv, hm0, bind_ok, runSteps]
  · rw [k2]; exact (layer_count_s s0).trans f1.lc
  · rw [k2]; show some s0.m_s = _; rw [f3]
  · simp only [List.cons_append, List.nil_append, simulate, hts, hi, henv, hm0, bind_ok]
    cases rest with
    | nil => exact ⟨m0, rfl⟩
    | cons r rs =>
      obtain ⟨i', e', p', _⟩ := dry_new (hr r (by simp))
      obtain ⟨dl, hd⟩ := dry_deltas ht hdry him i'
      obtain ⟨q, hq⟩ := step_blank (vol := 0.01) (dt := (ts .normal).time_step) (dl := dl .normal) f1
        (i := quietRec.toInput) (calmRec_calm _ _ _ _) (calm_not_now (by norm_num)) (by rw [f2]; norm_num [RHO_MAX])
      have hl : 0 < Snow.layer_count (Snow.ofReal s0) := by rw [layer_count_s, f1.lc]; norm_num
      obtain ⟨z, _⟩ := step_nan (p := ⟨Snow.ofReal s0, gapInput quietRec.toInput, none, none⟩) (fun h => absurd h hl.ne')
        (fun h => absurd (show i.precip_now = true by rw [hig]; exact h) (by rw [hip]; simp)) (.inr (.inl rfl)) hq
      obtain ⟨m1, h1, s1, t1⟩ := data_normal (c := calmEnv 0.01) (all := stormCfg.output_all) ht hd k1 (by
        rw [k2]
        show below_thold (ts .normal).threshold (Snow.ofReal s0) = false
        rw [below_thold_s, e1]
        unfold Pysnobal.below_thold
        rw [if_neg (by rw [f1.lc]; norm_num), if_pos f1.lc, f3]
        simp [stormCfg, calmCfg]; norm_num) (p' := q) (by rw [k2, hig]; exact hq)
      obtain ⟨m2, h2, _⟩ := runSteps_bare (c := calmEnv 0.01) (all := stormCfg.output_all) ht rs (hr r (by simp)) e'
        (fun x hx => hr x (by simp [hx])) t1 (by rw [s1]; exact z)
      exact ⟨m2, by simp only [runSteps, e', bind_ok, h1, h2]⟩

end Nan

end

end Pysnobal
