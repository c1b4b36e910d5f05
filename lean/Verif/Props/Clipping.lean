import Verif.Props.Interpolation
import Verif.Props.Subdivision
import Verif.Props.Exchange
import Verif.Lemmas.Errors

/-! # C47, C69: what happens to vapour pressure above saturation over ice -/

namespace Pysnobal

noncomputable section

/-! ## C47 -/

theorem h_le_excess (c : Env) (p : Phys) (sv : ℝ) (hsv : sati p.input1.t_a = .ok sv) :
    h_le c { p with input1 := { p.input1 with e_a := min p.input1.e_a sv } } = h_le c p := by
  unfold h_le InputData.sat_vp
  dsimp only
  rw [hsv, bind_ok, bind_ok, if_neg (not_lt.mpr (min_le_right _ _))]
  have hi : (if p.input1.e_a > sv then { p.input1 with e_a := sv } else p.input1) =
      { p.input1 with e_a := min p.input1.e_a sv } := by
    split
    · rename_i h; rw [min_eq_right h.le]
    · rename_i h; rw [min_eq_left (not_lt.mp h)]
  rw [hi]

/-- C47: over snow, vapour pressure in excess of saturation over ice at air temperature has no effect on a run step
whatsoever: with the excess removed beforehand the step has the same outcome, the same exception included. -/
theorem C47_excess_irrelevant (c : Env) (dt : ℝ) (dl : InputData) (p : Phys) (hl : 0 < p.snow.layer_count) (sv : ℝ)
    (hsv : sati p.input1.t_a = .ok sv) :
    stepPhys c dt dl { p with input1 := { p.input1 with e_a := min p.input1.e_a sv } } = stepPhys c dt dl p := by
  have key : ∀ q : Phys, 0 < q.snow.layer_count → q.input1.t_a = p.input1.t_a →
      energy_balance c dt { q with input1 := { q.input1 with e_a := min q.input1.e_a sv } } = energy_balance c dt q := by
    intro q hq ht
    unfold energy_balance
    rw [if_pos hq, if_pos hq, h_le_excess c q sv (by rw [ht]; exact hsv)]
    rfl
  unfold stepPhys
  dsimp only
  by_cases hp : p.input1.precip_now = true
  · rw [if_pos hp, if_pos hp]
    have := key { p with
      input1 := p.input1.update_precip_deltas dl
      snow := { p.snow with h2o_total := 0, snowcover := decide (p.snow.layer_count > 0) } } hl rfl
    exact (congrArg (fun x => x >>= fun q : Phys => (mass_balance c q.input1 dt q.snow >>= fun s =>
      (pure { q with snow := s } : Except Err Phys))) this)
  · rw [if_neg hp, if_neg hp]
    have := key { p with
      snow := { p.snow with h2o_total := 0, snowcover := decide (p.snow.layer_count > 0) } } hl rfl
    exact (congrArg (fun x => x >>= fun q : Phys => (mass_balance c q.input1 dt q.snow >>= fun s =>
      (pure { q with snow := s } : Except Err Phys))) this)

theorem quiet_simulate (g : Config) (rows : List Rec) (hne : rows ≠ []) : Quiet False False (simulate g rows) := by
  cases rows with
  | nil => exact absurd rfl hne
  | cons r rs =>
    unfold simulate
    dsimp only
    refine Quiet.bind ?_ fun ts _ => Quiet.bind (quiet_new _) fun i _ => Quiet.bind ?_ fun c _ => Quiet.bind ?_ fun m _ =>
      quiet_runSteps _ _ _ _ _ _
    · unfold parse_time_steps; quiet
    · unfold mkEnv; quiet
    · unfold mkModel
      exact Quiet.bind (quiet_init _ _) fun _ _ => Quiet.pure _

/-- C47: `hle1`'s rejection of vapour pressures above saturation over water is never reached in a run, whatever the
configuration and the records. -/
theorem C47_never_oversaturated (g : Config) (rows : List Rec) (hne : rows ≠ []) :
    simulate g rows ≠ .error .exceedsSat :=
  fun h => quiet_simulate g rows hne _ h (by unfold Internal; tauto)

/-! ## C69 -/

theorem step_hle {c : Env} {dt : ℝ} {dl : InputData} {p p' : Phys} (h : stepPhys c dt dl p = .ok p')
    (hl : 0 < p.snow.layer_count) : ∃ sv, sati p.input1.t_a = .ok sv ∧ 0 < p.input1.e_a := by
  have ha : (applied dl p.input1).e_a = p.input1.e_a ∧ (applied dl p.input1).t_a = p.input1.t_a := by
    unfold applied InputData.update_precip_deltas
    split <;> exact ⟨rfl, rfl⟩
  obtain ⟨p1, h1, _, _⟩ := stepPhys_ok h
  rcases energy_balance_ok h1 with ⟨_, r, p2, G, G0, M, k1, _, _, _⟩ | ⟨hl', _⟩
  · obtain ⟨sv, es, k3, _, k4, _, _, _, _, k5⟩ := h_le_ok k1
    simp only [ha.2] at k3
    refine ⟨sv, k3, ?_⟩
    have := (hle1_valid k5).ea
    simp only [ha.1] at this
    exact lt_of_lt_of_le this (min_le_left _ _)
  · have : p.snow.layer_count = 0 := hl'
    omega

/-- C69: what a run step removes from the working vapour pressure: with snow on the ground the excess over saturation over
ice at the air temperature of its start, otherwise nothing. -/
theorem C69_removed (c : Env) (ts : Tsteps) (all : Bool) (i1 i2 : InputData) (m m' : Model) (l : List (RStep Phys))
    (h : Executed c ts all i1 i2 m l m') : ∀ x ∈ l,
      (0 < x.pre.snow.layer_count → ∃ sv, sati x.pre.input1.t_a = .ok sv ∧
        x.pre.input1.e_a - x.post.input1.e_a = max 0 (x.pre.input1.e_a - sv)) ∧
      (x.pre.snow.layer_count = 0 → x.pre.input1.e_a - x.post.input1.e_a = 0) := by
  obtain ⟨dl, mid, hdl, hr, hl, ho⟩ := h.parts
  intro x hx
  have hs : stepPhys c (ts x.lv).time_step (dl x.lv) x.pre = .ok x.post := (hr.mem hx).1
  obtain ⟨_, h1, h2⟩ := C47_run_step c _ _ _ _ hs
  refine ⟨fun h0 => ?_, fun h0 => by rw [h2 h0, sub_self]⟩
  obtain ⟨sv, hsv, _⟩ := step_hle hs h0
  refine ⟨sv, hsv, ?_⟩
  rw [h1 h0 sv hsv]
  rcases le_total x.pre.input1.e_a sv with q | q
  · rw [min_eq_left q, max_eq_left (by linarith)]; ring
  · rw [min_eq_right q, max_eq_right (by linarith)]

theorem clipped_nonneg {l : List (RStep Phys)} (h : ∀ x ∈ l, x.post.input1.e_a ≤ x.pre.input1.e_a) : 0 ≤ clipped l := by
  unfold clipped
  apply List.sum_nonneg
  intro y hy
  obtain ⟨x, hx, rfl⟩ := List.mem_map.mp hy
  linarith [h x hx]

/-- C69: what was removed is not made up within the data step, and a run step with snow on the ground that executes finds
a positive vapour pressure: at the start of each of them the amount removed by the steps before it is below the
interpolated vapour pressure.  So a data step whose vapour pressure falls, after some of it was removed, below the amount
removed raises an exception, however the records are far above zero. -/
theorem C69_not_made_up (g : Config) (hg : g.Tiled) (ts : Tsteps) (hts : parse_time_steps g = .ok ts) (c : Env)
    (all : Bool) (i1 i2 : InputData) (m m' : Model) (l : List (RStep Phys)) (h : Executed c ts all i1 i2 m l m') :
    (∀ a x b, l = a ++ x :: b →
      x.pre.input1.e_a = g.between a i1.e_a i2.e_a - clipped a ∧ 0 ≤ clipped a ∧
      (0 < x.pre.snow.layer_count → clipped a < g.between a i1.e_a i2.e_a)) := by
  have hlin := (C04_linear_in_time g hg ts hts c all i1 i2 m m' l h).1
  obtain ⟨dl, mid, hdl, hr, hl, ho⟩ := h.parts
  intro a x b e
  have e1 := (hlin a x b e).2.2.2.2.2
  refine ⟨e1, clipped_nonneg fun y hy => ?_, fun h0 => ?_⟩
  · have hs : stepPhys c (ts y.lv).time_step (dl y.lv) y.pre = .ok y.post := (hr.mem (by rw [e]; simp [hy])).1
    exact (C47_run_step c _ _ _ _ hs).1
  · have hs : stepPhys c (ts x.lv).time_step (dl x.lv) x.pre = .ok x.post := (hr.mem (by rw [e]; simp)).1
    obtain ⟨_, _, hp⟩ := step_hle hs h0
    linarith

/-- C69: if the interpolated vapour pressure is nowhere above saturation over ice at the interpolated air temperature, none
of it is ever removed, and the working vapour pressure follows the straight line between the records. -/
theorem C69_unsaturated (g : Config) (hg : g.Tiled) (ts : Tsteps) (hts : parse_time_steps g = .ok ts) (c : Env)
    (all : Bool) (i1 i2 : InputData) (m m' : Model) (l : List (RStep Phys)) (h : Executed c ts all i1 i2 m l m')
    (hsat : ∀ a x b, l = a ++ x :: b → 0 < x.pre.snow.layer_count → ∀ sv, sati (g.between a i1.t_a i2.t_a) = .ok sv →
      g.between a i1.e_a i2.e_a ≤ sv) :
    (∀ a x b, l = a ++ x :: b → x.pre.input1.e_a = g.between a i1.e_a i2.e_a) ∧ m'.phys.input1.e_a = i2.e_a := by
  obtain ⟨hlin, _, hend⟩ := C04_linear_in_time g hg ts hts c all i1 i2 m m' l h
  have hrem := C69_removed c ts all i1 i2 m m' l h
  have key : ∀ n a b, a.length = n → l = a ++ b → clipped a = 0 := by
    intro n
    induction n with
    | zero =>
      intro a b ha _
      rw [List.length_eq_zero_iff.mp ha]
      rfl
    | succ n ih =>
      intro a b ha e
      obtain ⟨a', x, rfl⟩ := List.eq_nil_or_concat a |>.resolve_left (by rintro rfl; simp at ha) 
      have hlen : a'.length = n := by simpa using ha
      have e' : l = a' ++ x :: b := by simpa using e
      have h0 := ih a' (x :: b) hlen e'
      have hx := hrem x (by rw [e']; simp)
      obtain ⟨_, _, q3, _, _, q4⟩ := hlin a' x b e'
      have : clipped (a' ++ [x]) = clipped a' + (x.pre.input1.e_a - x.post.input1.e_a) := by
        unfold clipped; simp
      simp only [List.concat_eq_append]
      rw [this, h0, zero_add]
      by_cases hl0 : x.pre.snow.layer_count = 0
      · exact hx.2 hl0
      · obtain ⟨sv, k1, k2⟩ := hx.1 (Nat.pos_of_ne_zero hl0)
        rw [q3] at k1
        have := hsat a' x b e' (Nat.pos_of_ne_zero hl0) sv k1
        rw [k2, q4, h0]
        exact max_eq_left (by linarith)
  refine ⟨fun a x b e => ?_, ?_⟩
  · rw [(hlin a x b e).2.2.2.2.2, key _ a (x :: b) rfl e, sub_zero]
  · rw [hend, key _ l [] rfl (by simp), sub_zero]

/-! ### A run that fails -/

/-- Calm weather at the freezing point without net radiation or precipitation, with vapour pressure `v`. -/
def humid (v : ℝ) : Rec := { calmRec 0 0 0 0 with e_a := v }

theorem humid_new (v : ℝ) : InputData.new (humid v) = .ok (humid v).toInput := by
  rw [new_eq, if_neg (by rintro ⟨h, _⟩; exact lt_irrefl _ h)]

theorem humid_step {dt m v : ℝ} {dl : InputData} {p : Phys} (h : Settled 0.01 m p) (ei : p.input1 = (humid v).toInput) :
    (0 < v → ∃ p', stepPhys (calmEnv 0.01) dt dl p = .ok p' ∧ Settled 0.01 m p' ∧ p'.input1 = (humid (min v 610.71)).toInput) ∧
    (v ≤ 0 → stepPhys (calmEnv 0.01) dt dl p = .error .pressures) := by
  have hlc : 0 < p.snow.layer_count := by rw [h.ripe.lc]; norm_num
  have hta : p.input1.t_a = FREEZE := by rw [ei]; rfl
  constructor
  · intro hv
    have ex := C47_excess_irrelevant (calmEnv 0.01) dt dl p hlc 610.71 (by rw [hta]; exact sati_freeze)
    obtain ⟨p', k1, k2, _, _, _, _, _, _, k3⟩ := settled_step_humid (dt := dt) (dl := dl) (vol := 0.01) (m := m) (v := min v 610.71)
      (p := { p with input1 := { p.input1 with e_a := min p.input1.e_a 610.71 } }) (ps := 0) (r := 0)
      ⟨h.ripe, h.rho, h.m, h.cap, h.wet, h.start⟩ (by dsimp only; rw [ei]; rfl) (lt_min hv (by norm_num)) (min_le_right _ _)
    rw [ex] at k1
    refine ⟨p', k1, k2, ?_⟩
    rw [k3, ei]
    rfl
  · intro hv
    have hnp : p.input1.precip_now = false := by rw [ei]; simp [Rec.toInput, humid, calmRec]
    have hz : p.snow.z_s ≤ 0.25 := by rw [h.ripe.z]; exact h.ripe.z_le
    have hh : ∀ q : Phys, q.input1 = p.input1 → q.snow.t_s_0 = FREEZE → q.snow.z_s = p.snow.z_s →
        h_le (calmEnv 0.01) q = .error .pressures := by
      intro q q1 q2 q3
      unfold h_le InputData.sat_vp Snow.e_s_0
      rw [q1, hta, sati_freeze, bind_ok]
      dsimp only
      have hea : p.input1.e_a = v := by rw [ei]; rfl
      rw [if_neg (by rw [hea]; push Not; linarith), q2, sati_freeze, bind_ok]
      have : ∀ a : HleIn, hleCheck a = .error .pressures → hle1 a = .error .pressures := by
        intro a h; unfold hle1; rw [h]; rfl
      rw [this]
      · rfl
      · unfold hleCheck
        rw [if_neg, if_neg, if_pos]
        · left; exact hea.trans_le hv
        · rw [not_or]
          dsimp only
          rw [hta]
          norm_num [FREEZE]
        · dsimp only
          rw [q3]
          simp only [calmEnv, Bool.false_eq_true, if_false]
          norm_num
          linarith
    have he : energy_balance (calmEnv 0.01) dt { p with
        snow := { p.snow with h2o_total := 0, snowcover := decide (p.snow.layer_count > 0) } } = .error .pressures := by
      unfold energy_balance
      have h2 : ({ p.snow with h2o_total := 0, snowcover := decide (p.snow.layer_count > 0) } : Snow).layer_count > 0 := hlc
      rw [if_pos h2, hh]
      · rfl
      · rfl
      · exact h.ripe.t0
      · rfl
    unfold stepPhys
    rw [if_neg (by rw [hnp]; simp)]
    have := congrArg (fun x => x >>= fun q : Phys => (mass_balance (calmEnv 0.01) q.input1 dt q.snow >>= fun s =>
      (pure { q with snow := s } : Except Err Phys))) he
    exact this

theorem humid_rule {ts : Tsteps} (ht : TileOK ts) (A : ℝ → Prop) (V : ℝ → Prop) (D : ℝ → Prop)
    (hAV : ∀ v, A v → V v) (hAD : ∀ v w lv, A v → A w → D ((w - v) / ((ts lv).intervals_per_timestep : ℝ)))
    (hV : ∀ v d, V v → D d → 0 < v → V (min v 610.71 + d)) :
    RunRule (calmEnv 0.01) ts (fun r => ∃ v, A v ∧ r = humid v)
      (fun _ p => Settled 0.01 100 p ∧ ∃ v, V v ∧ p.input1 = (humid v).toInput)
      (fun _ d => D d.e_a ∧ ∀ v, (humid v).toInput.add_deltas d = (humid (v + d.e_a)).toInput) (fun s => s.m_s = 100) where
  record := by
    rintro r i0 i p ⟨v, hv, rfl⟩ hn ⟨h, _⟩
    exact ⟨⟨h.ripe, h.rho, h.m, h.cap, h.wet, h.start⟩, v, hAV v hv, (new_ok hn).1⟩
  delta := by
    rintro r1 r2 i1 i2 lv d ⟨v, hv, rfl⟩ ⟨w, hw, rfl⟩ n1 n2 hd
    rw [(deltaFor_ok hd).2, (new_ok n1).1, (new_ok n2).1]
    refine ⟨?_, ?_⟩
    · have := hAD v w lv hv hw
      simpa [Rec.toInput, deltaRec, humid] using this
    · intro u
      simp [InputData.add_deltas, InputData.update_precip_deltas, Rec.toInput, calmRec, deltaRec, humid]
  enter := by
    rintro i d p _ ⟨_, v, _, h⟩ hp
    rw [h] at hp
    simp [Rec.toInput, calmRec, humid] at hp
  step := by
    rintro lv i d p p' ⟨hD, hd⟩ ⟨h, v, hv, hi⟩ hs
    obtain ⟨k1, k2⟩ := humid_step (dt := (ts lv).time_step) (dl := d) h hi
    have hv0 : 0 < v := by
      by_contra hn
      rw [k2 (not_lt.mp hn)] at hs
      cases hs
    obtain ⟨q, k3, k4, k5⟩ := k1 hv0
    rw [hs] at k3
    cases k3
    refine ⟨k4.m, ⟨k4.ripe, k4.rho, k4.m, k4.cap, k4.wet, k4.start⟩, _, hV v _ hv hD hv0, ?_⟩
    show p'.input1.add_deltas d = _
    rw [k5, hd]
  idle := .inl ht

/-- In this weather a run over the pack of `divCfg` completes or raises "press < 0". -/
theorem humid_outcome (thr : ℝ) (rows : List Rec) (hne : rows ≠ []) (hr : ∀ r ∈ rows, ∃ v, r = humid v) :
    (∃ m, simulate (divCfg thr) rows = .ok m) ∨ simulate (divCfg thr) rows = .error .pressures := by
  have hg := divCfg_tiled thr
  obtain ⟨ts, hts⟩ := parse_of_ne (g := divCfg thr) hg.2.1.ne' hg.2.2.1.ne'
  have ht := parse_tile hg hts
  have hc : mkEnv (divCfg thr) = .ok (calmEnv 0.01) := calmCfg_env 200 0.01 (1 / 6) 600 1
  obtain ⟨s, hs, hset⟩ := div_start thr
  have R := humid_rule ht (fun _ => True) (fun _ => True) (fun _ => True) (by simp) (by simp) (by simp)
  rcases R.simulation hg hc hts (by
    rintro r i t ⟨v, _, rfl⟩ hn hi
    rw [hs] at hi
    cases hi
    exact ⟨hset i, v, trivial, (new_ok hn).1⟩) (by
    rintro r ⟨v, _, rfl⟩
    exact ⟨_, humid_new v⟩) hs (rows := rows) hne (fun r hr' => by
      obtain ⟨v, hv⟩ := hr r hr'
      exact ⟨v, trivial, hv⟩) with h | ⟨e, lv, i, d, p, h1, h2, ⟨h3, v, _, h4⟩, h5⟩
  · exact .inl h
  · right
    obtain ⟨k1, k2⟩ := humid_step (dt := (ts lv).time_step) (dl := d) h3 h4
    by_cases hv : 0 < v
    · obtain ⟨q, k3, _⟩ := k1 hv
      rw [k3] at h5; cases h5
    · rw [k2 (not_lt.mp hv)] at h5
      cases h5
      exact h1

/-- The rules above apply to completed runs. -/
theorem humid_trace {thr : ℝ} {rows : List Rec} (hr : ∀ r ∈ rows, ∃ v, r = humid v) {ls : List (List (RStep Phys))} {m : Model}
    (h : RunTrace (divCfg thr) rows ls m) : ∀ l ∈ ls, ∀ x ∈ l, x.pre.snow.layer_count = 1 ∧ x.pre.snow.m_s = 100 := by
  have hg := divCfg_tiled thr
  obtain ⟨ts, hts⟩ := parse_of_ne (g := divCfg thr) hg.2.1.ne' hg.2.2.1.ne'
  have ht := parse_tile hg hts
  have hc : mkEnv (divCfg thr) = .ok (calmEnv 0.01) := calmCfg_env 200 0.01 (1 / 6) 600 1
  obtain ⟨s, hs, hset⟩ := div_start thr
  have R := humid_rule ht (fun _ => True) (fun _ => True) (fun _ => True) (by simp) (by simp) (by simp)
  intro l hl x hx
  obtain ⟨_, _, _, hI, _⟩ := R.trace hc hts (by
    rintro r i t ⟨v, _, rfl⟩ hn hi
    rw [hs] at hi
    cases hi
    exact ⟨hset i, v, trivial, (new_ok hn).1⟩) (fun r hr' => by
      obtain ⟨v, hv⟩ := hr r hr'
      exact ⟨v, trivial, hv⟩) h l hl x hx
  exact ⟨hI.1.ripe.lc, hI.1.m⟩

/-- C69: constant vapour pressure, however far above saturation, makes no run over this pack fail … -/
theorem C69_constant_completes (thr v : ℝ) (hv : 0 < v) (n : ℕ) :
    ∃ m, simulate (divCfg thr) (List.replicate (n + 1) (humid v)) = .ok m := by
  have hg := divCfg_tiled thr
  obtain ⟨ts, hts⟩ := parse_of_ne (g := divCfg thr) hg.2.1.ne' hg.2.2.1.ne'
  have ht := parse_tile hg hts
  have hc : mkEnv (divCfg thr) = .ok (calmEnv 0.01) := calmCfg_env 200 0.01 (1 / 6) 600 1
  obtain ⟨s, hs, hset⟩ := div_start thr
  have R := humid_rule ht (fun w => w = v) (fun w => 0 < w) (fun d => d = 0) (by rintro w rfl; exact hv)
    (by rintro a b lv rfl rfl; simp) (by
      rintro a d ha rfl _
      rw [add_zero]
      exact lt_min ha (by norm_num))
  refine R.simulates hg hc hts (by
    rintro r i t ⟨w, rfl, rfl⟩ hn hi
    rw [hs] at hi
    cases hi
    exact ⟨hset i, w, hv, (new_ok hn).1⟩) ?_ (by
    rintro r ⟨w, _, rfl⟩
    exact ⟨_, humid_new w⟩) hs (by simp) (fun r hr' => ⟨v, rfl, List.eq_of_mem_replicate hr'⟩)
  rintro lv i d p _ ⟨h, w, hw, hi⟩
  obtain ⟨q, h1, _⟩ := (humid_step (dt := (ts lv).time_step) (dl := d) h hi).1 hw
  exact ⟨q, h1⟩

/-- C69: … but a data step that begins above saturation and whose vapour pressure then falls raises "press < 0", although both
records (3000 Pa and 20 Pa) and every value interpolated between them are positive, and constant vapour pressure of either
value is fine. -/
theorem C69_falling_fails : simulate (divCfg 10) [humid 3000, humid 20] = .error .pressures := by
  rcases humid_outcome 10 [humid 3000, humid 20] (by simp) (by
    intro r hr
    simp only [List.mem_cons, List.not_mem_nil, or_false] at hr
    rcases hr with rfl | rfl <;> exact ⟨_, rfl⟩) with ⟨m, h⟩ | h
  · exfalso
    obtain ⟨ls, htr⟩ := simulate_trace h
    have hsnow := humid_trace (by
      intro r hr
      simp only [List.mem_cons, List.not_mem_nil, or_false] at hr
      rcases hr with rfl | rfl <;> exact ⟨_, rfl⟩) htr
    have hdiv := C11_exact_subdivision _ (divCfg_tiled 10) _ _ _ htr
    obtain ⟨c, ts, i1, m0, r, rs, hrows, e1, e2, e3, e4, e5⟩ := htr
    cases hrows
    cases e5 with
    | @cons i1 i2 r rs m1 m2 m3 l ls n2 hd hex hrest =>
      obtain ⟨hn, _⟩ := new_ok e3
      obtain ⟨hn2, _⟩ := new_ok n2
      have hl : ∀ x ∈ l, x.pre.snow.layer_count = 1 ∧ x.pre.snow.m_s = 100 := fun x hx => hsnow l (by simp) x hx
      have nt : ∀ x ∈ l, ¬ x.pre.snow.Thin 10 := by
        rintro x hx (⟨_, h⟩ | ⟨h, _⟩)
        · rw [(hl x hx).2] at h; norm_num at h
        · rw [(hl x hx).1] at h; norm_num at h
      rcases hdiv l (by simp) with ⟨x, rfl, _, hx⟩ | ⟨_, bs, eb, hb, hlen⟩
      · obtain ⟨q1, q2⟩ := hl x (by simp)
        apply hx
        left
        refine ⟨q1, ?_⟩
        rw [q2]
        norm_num [divCfg, calmCfg, defaultSteps]
      · have h4 : bs.length = 4 := by
          simp only [divCfg, calmCfg, defaultSteps] at hlen
          omega
        have hone : ∀ b ∈ bs, ∃ x, b = [x] ∧ x.lv = .medium := by
          intro b hb'
          rcases hb b hb' with ⟨x, h1, h2, _⟩ | ⟨⟨x, h1, h2⟩, _⟩
          · exact ⟨x, h1, h2⟩
          · exfalso
            refine nt x ?_ h2
            rw [eb]
            exact List.mem_flatten.mpr ⟨b, hb', List.mem_of_mem_head? h1⟩
        match bs, h4, hone, eb with
        | [b1, b2, b3, b4], _, hone, eb =>
          obtain ⟨x1, rfl, l1⟩ := hone b1 (by simp)
          obtain ⟨x2, rfl, l2⟩ := hone b2 (by simp)
          obtain ⟨x3, rfl, l3⟩ := hone b3 (by simp)
          obtain ⟨x4, rfl, l4⟩ := hone b4 (by simp)
          simp only [List.flatten_cons, List.flatten_nil, List.cons_append, List.nil_append] at eb
          have hmade := C69_not_made_up _ (divCfg_tiled 10) ts e1 _ _ _ _ _ _ _ hex
          obtain ⟨_, _, k3⟩ := hmade [x1, x2, x3] x4 [] (by rw [eb]; rfl)
          have k3 := k3 (by rw [(hl x4 (by rw [eb]; simp)).1]; norm_num)
          obtain ⟨k1, _, _⟩ := hmade [] x1 [x2, x3, x4] (by rw [eb]; rfl)
          have hrem := C69_removed _ ts _ _ _ _ _ _ hex
          obtain ⟨sv, r1, r2⟩ := (hrem x1 (by rw [eb]; simp)).1 (by rw [(hl x1 (by rw [eb]; simp)).1]; norm_num)
          have f1 : i1.e_a = 3000 := by rw [hn]; rfl
          have f2 : i2.e_a = 20 := by rw [hn2]; rfl
          have ft : x1.pre.input1.t_a = FREEZE := by
            have := ((C04_linear_in_time _ (divCfg_tiled 10) ts e1 _ _ _ _ _ _ _ hex).1 [] x1 [x2, x3, x4] (by rw [eb]; rfl)).2.2.1
            rw [this, hn]
            simp [Config.between, Config.minutes, Rec.toInput, humid, calmRec]
          rw [ft, sati_freeze] at r1
          cases r1
          have hx1 : x1.pre.input1.e_a = 3000 := by
            rw [k1, f1]
            simp [Config.between, Config.minutes, clipped]
          rw [hx1] at r2
          have hb : (divCfg 10).between [x1, x2, x3] i1.e_a i2.e_a = 765 := by
            simp only [Config.between, Config.minutes, f1, f2, List.map_cons, List.map_nil, l1, l2, l3]
            norm_num [divCfg, calmCfg, defaultSteps]
          have hc : clipped [x1, x2, x3] = (3000 - x1.post.input1.e_a) + clipped [x2, x3] := by
            simp [clipped, hx1]
          have hc0 : 0 ≤ clipped [x2, x3] := by
            obtain ⟨dl, mid, _, hr, _⟩ := hex.parts
            refine clipped_nonneg fun y hy => ?_
            exact (C47_run_step _ _ _ _ _ (hr.mem (show y ∈ l by
              rw [eb]
              simp only [List.mem_cons, List.not_mem_nil, or_false] at hy ⊢
              tauto)).1).1
          rw [hb, hc, r2] at k3
          norm_num at k3
          linarith
  · exact h

/-- non-vacuity of `C69_removed`, `C69_not_made_up` and `C47_excess_irrelevant`: a completed data step that starts with snow
and a vapour pressure of 3000 Pa, of which its first run step removes all above 610.71 Pa. -/
example : ∃ ls m l x b, RunTrace (divCfg 10) [humid 3000, humid 3000] ls m ∧ l ∈ ls ∧ l = x :: b ∧
    0 < x.pre.snow.layer_count ∧ sati x.pre.input1.t_a = .ok 610.71 ∧ x.pre.input1.e_a = 3000 ∧
    x.post.input1.e_a = 610.71 := by
  obtain ⟨m, hm⟩ := C69_constant_completes 10 3000 (by norm_num) 1
  have hm : simulate (divCfg 10) [humid 3000, humid 3000] = .ok m := hm
  obtain ⟨ls, htr⟩ := simulate_trace hm
  have hsnow := humid_trace (by
      intro r hr
      simp only [List.mem_cons, List.not_mem_nil, or_false] at hr
      rcases hr with rfl | rfl <;> exact ⟨_, rfl⟩) htr
  have htr' := htr
  obtain ⟨c, ts, i1, m0, r, rs, hrows, e1, e2, e3, e4, e5⟩ := htr
  cases hrows
  cases e5 with
  | @cons i1 i2 r rs m1 m2 m3 l ls n2 hd hex hrest =>
    obtain ⟨hn, _⟩ := new_ok e3
    have hne : l ≠ [] := by
      rintro rfl
      have := (C04_linear_in_time _ (divCfg_tiled 10) ts e1 _ _ _ _ _ _ _ hex).2.1
      norm_num [Config.minutes, divCfg, calmCfg, defaultSteps] at this
    obtain ⟨x, b, rfl⟩ := List.exists_cons_of_ne_nil hne
    have hlin := (C04_linear_in_time _ (divCfg_tiled 10) ts e1 _ _ _ _ _ _ _ hex).1 [] x b rfl
    have b0 : ∀ u w, (divCfg 10).between [] u w = u := fun u w => by simp [Config.between, Config.minutes]
    have h1 : x.pre.input1.t_a = FREEZE := by
      rw [hlin.2.2.1, b0, hn]; rfl
    have h2 : x.pre.input1.e_a = 3000 := by
      rw [hlin.2.2.2.2.2, b0, hn, show clipped [] = 0 from rfl, sub_zero]; rfl
    have hl : 0 < x.pre.snow.layer_count := by
      rw [(hsnow (x :: b) (by simp) x (by simp)).1]; norm_num
    obtain ⟨sv, r1, r2⟩ := (C69_removed _ ts _ _ _ _ _ _ hex x (by simp)).1 hl
    rw [h1, sati_freeze] at r1
    cases r1
    refine ⟨_, m, _, x, b, htr', by simp, rfl, hl, by rw [h1]; exact sati_freeze, h2, ?_⟩
    rw [h2] at r2
    norm_num at r2
    norm_num
    linarith

/-- non-vacuity of `C69_unsaturated`: a completed run with vapour pressure 20 Pa at the freezing point -/
example : ∃ ls m, RunTrace (divCfg 10) (List.replicate 2 (humid 20)) ls m ∧ ∀ l ∈ ls, ∀ x ∈ l,
    0 < x.pre.snow.layer_count ∧ ∀ sv, sati FREEZE = .ok sv → (20 : ℝ) ≤ sv := by
  obtain ⟨m, hm⟩ := C69_constant_completes 10 20 (by norm_num) 1
  obtain ⟨ls, htr⟩ := simulate_trace hm
  refine ⟨ls, m, htr, fun l hl x hx => ⟨?_, fun sv hsv => ?_⟩⟩
  · rw [(humid_trace (fun r hr => ⟨20, List.eq_of_mem_replicate hr⟩) htr l hl x hx).1]; norm_num
  · rw [sati_freeze] at hsv
    cases hsv
    norm_num

end

end Pysnobal
