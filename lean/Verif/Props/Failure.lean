import Verif.Lemmas.Located
import Verif.Props.Surplus
import Verif.Props.Start
import Verif.Props.Exchange
import Verif.Props.Progress
import Verif.Props.Initial

/-! # C68: where and why a run fails -/

namespace Pysnobal

noncomputable section

/-! ## Specification -/

/-- A record is accepted by the input reader: if it brings snow, it gives the snow a positive density. -/
def Rec.Accepted (r : Rec) : Prop := 0 < r.m_pp → 0 < r.m_pp * r.percent_snow → 0 < r.rho_snow

/-- The ground of a record is warmer than absolute zero, not above the boiling point, and its vapour pressure is
below the air pressure. -/
def Rec.GroundOK (P_a : ℝ) (r : Rec) : Prop :=
  0 < r.t_g ∧ r.t_g ≤ BOIL ∧ ∀ e, sati r.t_g = .ok e → e < P_a

/-- The temperatures of the initial snow lie between absolute zero and freezing. -/
structure Config.ColdStart (g : Config) : Prop where
  mean : 0 ≤ g.init_t_s ∧ g.init_t_s ≤ FREEZE
  surf : g.init_t_s_0 ≤ FREEZE
  lower : ∀ t ∈ g.init_t_s_l, 0 ≤ t ∧ t ≤ FREEZE

/-! ## Where -/

theorem accepted_new {r : Rec} (h : r.Accepted) : ∃ i, InputData.new r = .ok i := by
  rw [new_eq, if_neg]
  · exact ⟨_, rfl⟩
  · rintro ⟨h1, h2, h3⟩
    exact absurd (h h1 h2) (not_lt.mpr h3)

theorem start_total {g : Config} (ha : g.AdmissibleStart) {c : Env} (hc : mkEnv g = .ok c) :
    ∃ s, init_snow c (recordSnow g) = .ok s := by
  have ho := ha.toAdmissible.env hc
  refine init_snow_total c _ ?_
  show 1 - g.init_h2o_sat * c.max_h2o_vol * RHO_W0 / RHO_ICE ≠ 0
  have h1 : g.init_h2o_sat * c.max_h2o_vol ≤ c.max_h2o_vol := by
    nlinarith [ha.sat.1, ha.sat.2, ho.vol]
  have h2 : g.init_h2o_sat * c.max_h2o_vol * RHO_W0 < RHO_ICE :=
    lt_of_le_of_lt (mul_le_mul_of_nonneg_right h1 (by norm_num [RHO_W0])) ho.vol_lt
  have h3 : g.init_h2o_sat * c.max_h2o_vol * RHO_W0 / RHO_ICE < 1 := by
    rw [div_lt_one (by norm_num [RHO_ICE])]; exact h2
  linarith

/-- C68, where: for an exactly subdividing configuration with an admissible start and accepted records, a run that
raises an exception has completed the data steps of the first `k` pairs of records and raises it in the physics
(energy or mass balance) of one run step of the data step between records `k` and `k + 1`.  Neither the
configuration nor the records, the interpolation, the accumulators, the output records or the subdivision itself ever
raise. -/
theorem C68_failure_located (g : Config) (hg : g.Tiled) (ha : g.AdmissibleStart) (c : Env) (hc : mkEnv g = .ok c)
    (rows : List Rec) (hne : rows ≠ []) (hr : ∀ r ∈ rows, r.Accepted) (e : Err)
    (h : simulate g rows = .error e) :
    ∃ (ts : Tsteps) (k : ℕ) (hk : k + 1 < rows.length) (m : Model) (i1 i2 : InputData) (l : List (RStep Phys))
      (mid : Model) (lv : Level) (d : InputData) (rest : List Level),
      parse_time_steps g = .ok ts ∧ simulate g (rows.take (k + 1)) = .ok m ∧
      InputData.new rows[k] = .ok i1 ∧ InputData.new rows[k + 1] = .ok i2 ∧
      do_data_tstep c ts g.output_all i1 i2 m = .error e ∧
      StepRaises c ts g.output_all i1 i2 m l mid lv d rest e := by
  obtain ⟨ts, hts⟩ := parse_of_ne (g := g) hg.2.1.ne' hg.2.2.1.ne'
  have ht := parse_tile hg hts
  cases rows with
  | nil => exact absurd rfl hne
  | cons r rs =>
    obtain ⟨i1, n1⟩ := accepted_new (hr r (by simp))
    obtain ⟨s, hs⟩ := start_total ha hc
    obtain ⟨m0, hm⟩ : ∃ m0, mkModel g c i1 = .ok m0 := by
      unfold mkModel
      rw [hs, bind_ok]
      exact ⟨_, rfl⟩
    have hsim : ∀ rs', simulate g (r :: rs') = runSteps c ts g.output_all i1 rs' m0 := by
      intro rs'
      unfold simulate
      dsimp only
      rw [hts, bind_ok, n1, bind_ok, hc, bind_ok, hm, bind_ok]
    rw [hsim] at h
    rcases runSteps_located ht (c := c) (all := g.output_all) rs r i1 m0 n1
      (fun x hx => accepted_new (hr x (by simp [hx]))) (.inl (mkModel_ok hm).2.2.1) with ⟨m', h'⟩ |
        ⟨e', k, hk, i, j, m1, l, mid, lv, d, rest, h1, h2, h3, h4, h5, h6⟩
    · rw [h'] at h; cases h
    · rw [h1] at h
      cases h
      refine ⟨ts, k, by simp; omega, m1, i, j, l, mid, lv, d, rest, hts, ?_, h3, by simpa using h4, h5, h6⟩
      rw [List.take_succ_cons, hsim, h2]

/-! ## Why -/

/-- What is carried along a run about temperatures and cold content. -/
def ColdFacts (s : Snow) : Prop :=
  (s.layer_count = 1 → s.t_s = s.t_s_0 ∨ 0 ≤ s.t_s) ∧
  (0 < s.m_s → s.t_s_0 ≤ FREEZE ∧ s.t_s ≤ FREEZE ∧ s.t_s_l ≤ FREEZE) ∧ s.cc_s_l ≤ 0

theorem coldFacts_step {c : Env} (hc : c.OK) {dt : ℝ} {d : InputData} {p p' : Phys} (hi : Inv c p.snow)
    (hf : p'.input1.precip_now = true → StepForcing p'.input1) (h : stepPhys c dt d p = .ok p')
    (h2 : p.snow.layer_count = 2 → 0 ≤ p.snow.t_s) (h0 : ColdFacts p.snow) : ColdFacts p'.snow := by
  obtain ⟨s0, s1, s2, s3, s4, s5, s6, k⟩ := step_chain hc.max_z hi h
  have cs := k.coldStep hc hi hf
  have hp : 0 ≤ p.snow.t_s := by
    have hle := lc_le_two p.snow
    by_cases e0 : p.snow.layer_count = 0
    · rw [(hi.bare ((hi.lc_zero_iff hc.max_z).mp e0)).2.2.2.2.1]
      exact T_NONE_pos.le
    · by_cases e2 : p.snow.layer_count = 2
      · exact h2 e2
      · rcases h0.1 (by omega) with h | h
        · rw [h]; exact (k.temps (by omega)).1.le
        · exact h
  exact ⟨fun h1 => .inl (cs.one h1), fun hm => ⟨cs.t0 hm, cs.t hm hp⟩, cs.ccl hp⟩

theorem coldFacts_start {g : Config} (ha : g.AdmissibleStart) (hcold : g.ColdStart) {c : Env}
    (hc : mkEnv g = .ok c) {s : Snow} (hs : init_snow c (recordSnow g) = .ok s) : ColdFacts s := by
  have ho := ha.toAdmissible.env hc
  have hi := init_snow_inv ho.max_z hs rfl
  have hl : 0 ≤ g.init_t_s_l.getD 0 ∧ g.init_t_s_l.getD 0 ≤ FREEZE := by
    cases h : g.init_t_s_l with
    | none => exact ⟨le_refl _, freeze_pos.le⟩
    | some t => exact hcold.lower t (by rw [h]; rfl)
  rcases init_snow_out ho.max_z hs with h | h
  · obtain ⟨h1, h2, d, _, _, q1, q2, q3, q4, _, _, _, _, _, q5, q6, _, q7, _⟩ := h
    have hm : 0 < s.m_s := by
      rw [q1]; exact lt_of_le_of_lt ho.small h1
    refine ⟨fun _ => .inr (by rw [q5]; exact hcold.mean.1), fun _ => ⟨by rw [q6]; exact hcold.surf,
      by rw [q5]; exact hcold.mean.2, ?_⟩, ?_⟩
    · rcases q7 with ⟨_, e, _⟩ | ⟨_, e, _⟩
      · rw [e]; exact T_NONE_le
      · rw [e]; exact hl.2
    · rcases q7 with ⟨_, _, e⟩ | ⟨_, _, e⟩
      · rw [e]
      · rw [e]
        refine cold_content_nonpos hl.1 ?_
        rw [(hi.pack q4).2.2]
        have hr := (inv_rho_pos hi q4 hm).1
        exact mul_nonneg hr.le hi.zl
  · obtain ⟨_, h1, _, _, hz0, hzl, _, ht, _, _, _, e, _⟩ := h
    have : s.layer_count = 0 := lc_eq_zero.mpr ⟨hz0, hzl.le⟩
    exact ⟨fun h => by omega, fun h => by rw [h1] at h; exact absurd h (lt_irrefl _), by rw [e]⟩

/-- Interpolated ground temperatures lie between those of the two records. -/
theorem raises_ground {c : Env} {ts : Tsteps} (ht : TileOK ts) {all : Bool} {i1 i2 : InputData} {m : Model}
    {l : List (RStep Phys)} {mid : Model} {lv : Level} {d : InputData} {rest : List Level} {e : Err}
    (h : StepRaises c ts all i1 i2 m l mid lv d rest e) :
    ∃ w : ℝ, 0 ≤ w ∧ w ≤ 1 ∧ mid.phys.input1.t_g = i1.t_g + w * (i2.t_g - i1.t_g) := by
  obtain ⟨dl, hdl, hr⟩ := h.runs
  have hd : ∀ lv, dl lv = (deltaRec i1 i2 (ts lv).intervals_per_timestep).toInput := fun lv =>
    (deltaFor_ok (inputDeltas_ok hdl lv)).2
  have hn : ∀ lv, (0 : ℝ) < ((ts lv).intervals_per_timestep : ℝ) := fun lv => by exact_mod_cast ht.ipt_pos lv
  obtain ⟨w, hw⟩ : ∃ w, w = (l.map fun y => 1 / ((ts y.lv).intervals_per_timestep : ℝ)).sum := ⟨_, rfl⟩
  have h1 := share_sum ht h.tiles 1
  rw [List.map_append, List.sum_append, List.map_map] at h1
  have h2 : 0 ≤ ((lv :: rest).map fun lv => 1 / ((ts lv).intervals_per_timestep : ℝ)).sum :=
    List.sum_nonneg fun x hx => by
      obtain ⟨y, _, rfl⟩ := List.mem_map.mp hx
      exact (one_div_pos.mpr (hn y)).le
  have h0 : 0 ≤ w := by
    rw [hw]
    exact List.sum_nonneg fun x hx => by
      obtain ⟨y, _, rfl⟩ := List.mem_map.mp hx
      exact (one_div_pos.mpr (hn y.lv)).le
  refine ⟨w, h0, ?_, ?_⟩
  · have : (l.map ((fun lv => (1:ℝ) / ((ts lv).intervals_per_timestep : ℝ)) ∘ fun x => x.lv)).sum = w := hw.symm
    rw [this] at h1
    linarith
  · have := (runs_forcing hr).2.2.2.2.1
    rw [this, hw]
    simp only [hd, Rec.toInput, deltaRec]
    congr 1
    rw [← List.sum_map_mul_right]
    congr 1
    refine List.map_congr_left fun x _ => ?_
    ring

/-- What is known of the run step that raises: the pack is consistent and holds no negative water, the ground and the
precipitation of the step are admissible, and unless the mean temperature of a two-layer pack was negative before, no
temperature is above freezing. -/
structure RaiseFacts (c : Env) (ts : Tsteps) (lv : Level) (d : InputData) (ls : List (List (RStep Phys)))
    (l : List (RStep Phys)) (mid : Model) : Prop where
  env : c.OK
  vol : 0 < c.max_h2o_vol
  z_g : 0 < c.z_g
  step : 0 < (ts lv).time_step
  inv : Inv c mid.phys.snow
  h2o : 0 ≤ mid.phys.snow.h2o
  soil : SoilOK c (applied d mid.phys.input1)
  cool : (applied d mid.phys.input1).t_g ≤ BOIL
  forcing : (applied d mid.phys.input1).precip_now = true → StepForcing (applied d mid.phys.input1)
  cold : (∀ x ∈ ls.flatten ++ l, x.pre.snow.layer_count = 2 → 0 ≤ x.pre.snow.t_s) → ColdFacts mid.phys.snow

theorem raise_facts (g : Config) (hg : g.Tiled) (ha : g.AdmissibleStart) (hcold : g.ColdStart)
    (hv : 0 < g.max_h2o) (hz : 0 < g.z_g) (c : Env) (hc : mkEnv g = .ok c) (hP : 610.71 < c.P_a)
    (rows : List Rec) (hr : ∀ r ∈ rows, r.Accepted ∧ r.Admissible ∧ r.GroundOK c.P_a) (ts : Tsteps)
    (hts : parse_time_steps g = .ok ts) (k : ℕ) (hk : k + 1 < rows.length)
    (ls : List (List (RStep Phys))) (m : Model) (htr : RunTrace g (rows.take (k + 1)) ls m) (i1 i2 : InputData)
    (n1 : InputData.new rows[k] = .ok i1) (n2 : InputData.new rows[k + 1] = .ok i2)
    (l : List (RStep Phys)) (mid : Model) (lv : Level) (d : InputData) (rest : List Level) (e : Err)
    (h : StepRaises c ts g.output_all i1 i2 m l mid lv d rest e) :
    RaiseFacts c ts lv d ls l mid := by
  have ht := parse_tile hg hts
  have ho := ha.toAdmissible.env hc
  obtain ⟨_, _, c3, _, _, _, _, c8, _⟩ := mkEnv_ok hc
  have a1 := hr rows[k] (List.getElem_mem _)
  have a2 := hr rows[k + 1] (List.getElem_mem _)
  have hpre : ∀ r ∈ rows.take (k + 1), r.Admissible := fun r hx => (hr r (List.mem_of_mem_take hx)).2.1
  -- the invariant at the failing step
  obtain ⟨i0, hI⟩ := (RunRule.simulate hc hts (wetRule ho ht)
    (fun r i s hr hn hs => forcingRule_start hr hn (wet_start ha hc hs)) hpre htr.simulate).1
  obtain ⟨dl, hdl, hruns⟩ := h.runs
  have hd : ∀ lv, ShareOf i1 (dl lv) := fun lv =>
    (wetRule ho ht).delta rows[k] rows[k + 1] i1 i2 lv _ a1.2.1 a2.2.1 n1 n2 (inputDeltas_ok hdl lv)
  obtain ⟨⟨hw, hag⟩, _, _, hl⟩ := (wetRule ho ht).runs hd hruns
    ((wetRule ho ht).record rows[k] i0 i1 m.phys a1.2.1 n1 hI)
  have hdd : dl lv = d := by
    have := inputDeltas_ok hdl lv
    rw [h.delta] at this
    exact (Except.ok.inj this).symm
  have hfor : (applied d mid.phys.input1).precip_now = true → StepForcing (applied d mid.phys.input1) := by
    intro hp
    unfold applied at hp ⊢
    split at hp
    · rename_i hp'
      rw [if_pos hp']
      have hp1 : i1.precip_now = true := by rw [← hag.now]; exact hp'
      obtain ⟨w, hw0, e1, e2, e3, e4⟩ := hdd ▸ hd lv hp1
      exact (hag.ok hp1).share hw0 e1 e2 e3 e4 hag.rho hag.t_snow hag.sat
    · rename_i hp'
      exact absurd hp hp'
  -- the ground
  have hg' : ∃ t, t = mid.phys.input1.t_g ∧ 0 < t ∧ t ≤ BOIL ∧ ∀ e, sati t = .ok e → e < c.P_a := by
    obtain ⟨w, w0, w1, e⟩ := raises_ground ht h
    have t1 : i1.t_g = rows[k].t_g := by rw [(new_ok n1).1]; rfl
    have t2 : i2.t_g = rows[k + 1].t_g := by rw [(new_ok n2).1]; rfl
    obtain ⟨b1, b2, b3⟩ := a1.2.2
    obtain ⟨b4, b5, b6⟩ := a2.2.2
    refine ⟨_, rfl, ?_, ?_, ?_⟩
    · rw [e, t1, t2]
      rcases w0.eq_or_lt with h0 | h0
      · rw [← h0]; linarith
      · nlinarith
    · rw [e, t1, t2]; nlinarith
    · intro x hx
      have hle : mid.phys.input1.t_g ≤ max rows[k].t_g rows[k + 1].t_g := by
        rw [e, t1, t2]
        have := le_max_left rows[k].t_g rows[k + 1].t_g
        have := le_max_right rows[k].t_g rows[k + 1].t_g
        nlinarith
      have hmax : ∀ t, (0 < t ∧ t ≤ BOIL ∧ ∀ e, sati t = .ok e → e < c.P_a) → mid.phys.input1.t_g ≤ t → x < c.P_a := by
        rintro t ⟨q1, q2, q3⟩ hle
        obtain ⟨y, hy⟩ := sati_ok_iff.mpr q1
        rcases hle.lt_or_eq with h1 | h1
        · exact (C35_sati_increasing _ _ x y h1 q2 hx hy).trans (q3 y hy)
        · rw [h1, hy] at hx
          cases hx
          exact q3 _ hy
      rcases le_total rows[k].t_g rows[k + 1].t_g with h1 | h1
      · rw [max_eq_right h1] at hle; exact hmax _ a2.2.2 hle
      · rw [max_eq_left h1] at hle; exact hmax _ a1.2.2 hle
  obtain ⟨t, et, t1, t2, t3⟩ := hg'
  have etg : (applied d mid.phys.input1).t_g = t := by
    rw [et]; unfold applied; split <;> rfl
  have hsoil : SoilOK c (applied d mid.phys.input1) :=
    ⟨by rw [c8]; exact hz.ne', hP, by rw [etg]; exact t1, by rw [etg]; exact t3⟩
  have hdt := ht.step_pos lv
  have hvol : 0 < c.max_h2o_vol := by rw [c3]; exact hv
  refine ⟨ho, hvol, by rw [c8]; exact hz, hdt, hw.1, hw.2, hsoil, by rw [etg]; exact t2, hfor, fun hneg' => ?_⟩
  -- temperatures
  obtain ⟨c', ts', hc', hts', _, _, hx⟩ := trace_closed hg ha hpre htr
  rw [hc] at hc'
  cases hc'
  have k0 := (htr.induct (P := ColdFacts) (fun c' s hc' hs => by
    rw [hc] at hc'
    cases hc'
    exact coldFacts_start ha hcold hc hs) (fun l' hl' x hxl h0 => by
      obtain ⟨d', w1, w2, hf, h3, _⟩ := hx l' hl' x hxl
      exact coldFacts_step ho w1.1 hf h3 (hneg' x (List.mem_append_left _ (List.mem_flatten.mpr ⟨l', hl', hxl⟩))) h0)).1
  refine (Runs.induct hruns (P := ColdFacts) k0 fun x hx h0 => ?_).1
  obtain ⟨⟨w1, ag⟩, w2⟩ := hl x hx
  have h3 := (hruns.mem hx).1
  exact coldFacts_step ho w1.1 (step_forcing (hd x.lv) ag h3).2 h3 (hneg' x (List.mem_append_right _ hx)) h0

/-- C68, why: under the same conditions and for a positive retention capacity, ground below the boiling point and an
initial pack between absolute zero and freezing, the run step that raises starts with snow on the ground, and for one
of these reasons: the turbulent-transfer routine raises; a layer is at or below absolute zero, or the mean
temperature of a two-layer pack was below it at the start of an earlier run step; the pack has no positive mass; or
the fluxes of the step could melt and sublimate all the ice there is. -/
theorem C68_failure_explained (g : Config) (hg : g.Tiled) (ha : g.AdmissibleStart) (hcold : g.ColdStart)
    (hv : 0 < g.max_h2o) (hz : 0 < g.z_g) (c : Env) (hc : mkEnv g = .ok c) (hP : 610.71 < c.P_a)
    (rows : List Rec) (hr : ∀ r ∈ rows, r.Accepted ∧ r.Admissible ∧ r.GroundOK c.P_a) (ts : Tsteps)
    (hts : parse_time_steps g = .ok ts) (k : ℕ) (hk : k + 1 < rows.length)
    (ls : List (List (RStep Phys))) (m : Model) (htr : RunTrace g (rows.take (k + 1)) ls m) (i1 i2 : InputData)
    (n1 : InputData.new rows[k] = .ok i1) (n2 : InputData.new rows[k + 1] = .ok i2)
    (l : List (RStep Phys)) (mid : Model) (lv : Level) (d : InputData) (rest : List Level) (e : Err)
    (h : StepRaises c ts g.output_all i1 i2 m l mid lv d rest e) :
    ∃ s, s = mid.phys.snow ∧ 0 < s.layer_count ∧
      (h_le c (stepStart d mid.phys) = .error e ∨
       (s.t_s_0 ≤ 0 ∨ s.t_s ≤ 0 ∨ s.t_s_l ≤ 0 ∨
          ∃ x ∈ ls.flatten ++ l, x.pre.snow.layer_count = 2 ∧ x.pre.snow.t_s < 0) ∨
       s.m_s ≤ 0 ∨
       ∃ p1 T v, energy_balance c (ts lv).time_step (stepStart d mid.phys) = .ok p1 ∧
          T ∈ [s.t_s_0, s.t_s, s.t_s_l, T_NONE] ∧ soilExchange c p1.input1 (ts lv).time_step T = .ok v ∧
          s.m_s - s.h2o + (if p1.input1.precip_now then p1.input1.m_snow - wetWater c p1.input1 else 0) ≤
            meltCap (ts lv).time_step p1.snow + max 0 (-(p1.snow.E * (ts lv).time_step)) + max 0 (-v)) := by
  have rf := raise_facts g hg ha hcold hv hz c hc hP rows hr ts hts k hk ls m htr i1 i2 n1 n2 l mid lv d rest e h
  have hraise : ¬ ∃ p', stepPhys c (ts lv).time_step d mid.phys = .ok p' := by
    rintro ⟨p', hp⟩
    rw [h.raises] at hp
    cases hp
  have hlc : 0 < mid.phys.snow.layer_count := by
    by_contra hn
    refine hraise (C52_step_completes c rf.env rf.vol _ rf.step d mid.phys
      ⟨rf.inv, rf.soil, rf.z_g, rf.cool, fun h => absurd h hn, fun h => absurd h hn⟩
      rf.h2o ?_ rf.forcing (fun h => absurd h hn) (fun h => absurd h hn))
    have : mid.phys.snow.layer_count = 0 := by omega
    rw [(rf.inv.one (le_antisymm (lc_eq_zero.mp this).2 rf.inv.zl)).2.1]
  refine ⟨_, rfl, hlc, ?_⟩
  by_cases hneg : ∃ x ∈ ls.flatten ++ l, x.pre.snow.layer_count = 2 ∧ x.pre.snow.t_s < 0
  · exact .inr (.inl (.inr (.inr (.inr hneg))))
  have hneg' : ∀ x ∈ ls.flatten ++ l, x.pre.snow.layer_count = 2 → 0 ≤ x.pre.snow.t_s := fun x hx h2 => by
    by_contra hn
    exact hneg ⟨x, hx, h2, not_le.mp hn⟩
  have hfacts := rf.cold hneg'
  by_contra hno
  push Not at hno
  obtain ⟨n1, ⟨n2, n3, n4, _⟩, n5, n6⟩ := hno
  have temps := hfacts.2.1 n5
  refine hraise (C52_step_completes c rf.env rf.vol _ rf.step d mid.phys
    ⟨rf.inv, rf.soil, rf.z_g, rf.cool, fun _ => n5,
      fun _ => ⟨⟨n2, temps.1⟩, ⟨n3, temps.2.1⟩, ⟨n4, temps.2.2⟩⟩⟩
    rf.h2o hfacts.2.2 rf.forcing (fun _ => ?_) (fun _ p1 hp1 T hT v hv' => ?_))
  · cases hh : h_le c (stepStart d mid.phys) with
    | ok r => exact ⟨r, rfl⟩
    | error e' =>
      exfalso
      have hr' := h.raises
      unfold stepPhys at hr'
      have e0 : (if mid.phys.input1.precip_now then { mid.phys with input1 := mid.phys.input1.update_precip_deltas d } else mid.phys) =
          { mid.phys with input1 := applied d mid.phys.input1 } := by
        unfold applied
        split <;> rfl
      rw [e0] at hr'
      dsimp only at hr'
      have heb : energy_balance c (ts lv).time_step (stepStart d mid.phys) = .error e' := by
        unfold energy_balance
        rw [if_pos (show (stepStart d mid.phys).snow.layer_count > 0 from hlc)]
        dsimp only
        rw [hh]
        rfl
      unfold stepStart at heb
      rw [show Snow.layer_count { mid.phys.snow with h2o_total := 0 } = mid.phys.snow.layer_count from rfl, heb] at hr'
      cases hr'
      exact n1 hh
  · exact n6 p1 T v hp1 hT hv'

/-- C68: the storm over two metres of snow without a temperature for the lower layer (the documented way to start)
meets all hypotheses, fails in its first data step, and for the lower layer being at 0 K. -/
def deepCfg : Config := { stormCfg with init_z_s := 2 }

theorem deep_ok : deepCfg.Tiled ∧ deepCfg.AdmissibleStart ∧ deepCfg.ColdStart ∧ 0 < deepCfg.max_h2o ∧
    0 < deepCfg.z_g ∧ mkEnv deepCfg = .ok (calmEnv 0.01) ∧ 610.71 < (calmEnv 0.01).P_a := by
  refine ⟨calmCfg_tiled _ _ _ _ _, ⟨⟨?_, ?_, ?_, ?_⟩, ?_, ?_, ?_⟩, ⟨⟨?_, ?_⟩, ?_, ?_⟩, ?_, ?_, calmCfg_env 60 0.01 _ 600 0, ?_⟩
  all_goals try norm_num [deepCfg, stormCfg, calmCfg, defaultSteps, RHO_W0, RHO_ICE, FREEZE, calmEnv, SEA_LEVEL]
  all_goals (intro t h; cases h)

theorem storm_accepted (n : ℕ) : ∀ r ∈ stormRec :: quietRec :: List.replicate n quietRec,
    r.Accepted ∧ r.Admissible ∧ r.GroundOK (calmEnv 0.01).P_a := by
  intro r hr
  refine ⟨?_, (storm_rows n r hr).1, ?_⟩
  · rcases List.mem_cons.mp hr with rfl | hr
    · exact fun _ _ => by norm_num [stormRec, calmRec]
    · have : r = quietRec := by
        rcases List.mem_cons.mp hr with rfl | hr
        · rfl
        · exact List.eq_of_mem_replicate hr
      subst this
      exact fun h _ => absurd h (lt_irrefl _)
  · have ht : r.t_g = FREEZE := by
      rcases List.mem_cons.mp hr with rfl | hr
      · rfl
      · rcases List.mem_cons.mp hr with rfl | hr
        · rfl
        · rw [List.eq_of_mem_replicate hr]; rfl
    unfold Rec.GroundOK
    rw [ht]
    refine ⟨freeze_pos, boil_gt.le, fun e he => ?_⟩
    rw [sati_freeze] at he
    cases he
    norm_num [calmEnv, SEA_LEVEL]

example (n : ℕ) : ∃ (e : Err) (ts : Tsteps) (k : ℕ) (m : Model) (i1 i2 : InputData) (l : List (RStep Phys)) (mid : Model)
    (lv : Level) (d : InputData) (rest : List Level),
    simulate deepCfg (stormRec :: quietRec :: List.replicate n quietRec) = .error e ∧
    simulate deepCfg ((stormRec :: quietRec :: List.replicate n quietRec).take (k + 1)) = .ok m ∧
    StepRaises (calmEnv 0.01) ts deepCfg.output_all i1 i2 m l mid lv d rest e ∧ 0 < mid.phys.snow.layer_count := by
  obtain ⟨h1, h2, h3, h4, h5, h6, h7⟩ := deep_ok
  have hr := storm_accepted n
  obtain ⟨e, he, _⟩ := C40_lower_temperature deepCfg h1 (by norm_num [deepCfg, stormCfg, calmCfg, defaultSteps])
    ⟨by norm_num [deepCfg, stormCfg, calmCfg, defaultSteps], by norm_num [deepCfg]⟩
    ⟨by norm_num [deepCfg, stormCfg, calmCfg, defaultSteps], by norm_num [deepCfg, stormCfg, calmCfg, defaultSteps]⟩
    (fun t h => by simp [deepCfg, stormCfg, calmCfg, defaultSteps] at h) stormRec quietRec (List.replicate n quietRec)
  obtain ⟨ts, k, hk, m, i1, i2, l, mid, lv, d, rest, k1, k2, k3, k4, _, k5⟩ := C68_failure_located deepCfg h1 h2 _ h6 _
    (by simp) (fun r hx => (hr r hx).1) e he
  obtain ⟨ls, htr⟩ := simulate_trace k2
  obtain ⟨s, rfl, hl, _⟩ := C68_failure_explained deepCfg h1 h2 h3 h4 h5 _ h6 h7 _ hr ts k1 k hk ls m htr i1 i2 k3 k4
    l mid lv d rest e k5
  exact ⟨e, ts, k, m, i1, i2, l, mid, lv, d, rest, he, k2, k5, hl⟩

end

end Pysnobal
