import Verif.Props.PackEnergy
import Verif.Props.Start
import Verif.Props.Mass
import Verif.Props.Water
import Verif.Props.NonNeg
import Verif.Props.Modes
import Verif.Props.Interpolation

/-! # C76: over any stretch of dry weather the heat put into the pack is found back as warming and loss of ice -/

namespace Pysnobal

noncomputable section

/-! ## Specification -/

/-- The pack outlasts the run step `x` of length `dt`, in which nothing falls on it and no vapour is deposited on it, neither
from the air nor from the soil. -/
structure QuietStep (dt : ℝ) (x : RStep Phys) : Prop where
  lasts : x.post.snow.snowcover = true
  pack : 0 < x.pre.snow.m_s
  dry : x.post.input1.precip_now = false
  surface : x.post.snow.E ≤ 0
  soil : x.post.snow.E_s ≤ x.post.snow.E * dt

/-- The layers of the pack stay what they are in the run step `x` of length `dt`: one, of a pack no deeper than the surface layer, or two,
of a pack that gravity does not compact to more than 600 kg/m³. -/
def KeepsLayers (g : Config) (dt : ℝ) (x : RStep Phys) : Prop :=
  (x.pre.snow.layer_count = 1 ∧ x.post.snow.layer_count = 1 ∧ x.pre.snow.z_s ≤ g.max_active) ∨
  (x.pre.snow.layer_count = 2 ∧ x.post.snow.layer_count = 2 ∧
    (if x.pre.snow.rho < 550 then gravityDensity (dt / 3600) x.pre.snow.rho x.pre.snow.t_s x.pre.snow.m_s else x.pre.snow.rho) ≤ 600)

/-- The two layers of the pack, the lower one without positive cold content (C16), become one. -/
def Merges (x : RStep Phys) : Prop :=
  x.pre.snow.layer_count = 2 ∧ x.post.snow.layer_count = 1 ∧ x.pre.snow.cc_s_l ≤ 0

/-- The heat flow into a pack that the merging of layers in the run step cannot turn into a loss. -/
def heatRate (x : RStep Phys) : ℝ :=
  if x.pre.snow.layer_count = x.post.snow.layer_count then x.post.snow.en.delta_Q
  else min x.post.snow.en.delta_Q x.post.snow.en.delta_Q_0

/-! ## Proof -/

theorem afterVapour_le {w e : ℝ} (he : e ≤ 0) : afterVapour w e ≤ w := by
  unfold afterVapour
  split
  · rename_i h
    exact max_le h.le (by nlinarith)
  · exact le_refl _

variable {g : Config} {dt : ℝ} {x : RStep Phys} {r0 rl w : ℝ}

/-- In a dry step without deposition, melt minus refreezing is loss of ice, up to sublimation and to the water that is rounded away. -/
theorem WaterBooks.ice (hb : WaterBooks g dt x r0 rl w) (hdt : 0 < dt) (hq : QuietStep dt x)
    (hm : x.post.snow.m_s = x.pre.snow.m_s + x.precip + x.post.snow.E_s - x.post.snow.swi) :
    x.pre.snow.ice - x.post.snow.ice + x.post.snow.E_s ≤ x.post.snow.melt - (r0 + rl) ∧
    x.post.snow.melt - (r0 + rl) ≤ x.pre.snow.ice - x.post.snow.ice + 1e-8 := by
  have hp : x.precip = 0 := by
    unfold RStep.precip; rw [hq.dry]; simp
  have hw0 : waterIn g x = 0 := by
    unfold waterIn; rw [hq.dry]; simp
  have e1 : x.post.snow.E * dt ≤ 0 := mul_nonpos_of_nonpos_of_nonneg hq.surface hdt.le
  have e2 : x.post.snow.E_s - x.post.snow.E * dt ≤ 0 := by linarith [hq.soil]
  have a1 := afterVapour_le (w := w) e1
  have a2 := afterVapour_le (w := afterVapour w (x.post.snow.E * dt)) e2
  have b1 := afterVapour_loss (w := w) e1
  have b2 := afterVapour_loss (w := afterVapour w (x.post.snow.E * dt)) e2
  have hl := hb.left
  have hbd := hb.bound
  rw [hw0] at hl hbd
  have ho := hb.out
  rw [hp] at hm
  unfold Snow.ice
  split at hl
  · constructor <;> linarith
  · constructor <;> linarith

theorem heat_step (hg : g.Tiled) (ha : g.AdmissibleStart) {rows : List Rec}
    (hr : ∀ r ∈ rows, r.Admissible) {ls : List (List (RStep Phys))} {m : Model} (h : RunTrace g rows ls m) :
    ∃ ts, parse_time_steps g = .ok ts ∧ ∀ l ∈ ls, ∀ x ∈ l, QuietStep (ts x.lv).time_step x →
      (KeepsLayers g (ts x.lv).time_step x →
        333600 * (x.pre.snow.ice - x.post.snow.ice + x.post.snow.E_s) + (x.post.snow.cc_s - x.pre.snow.cc_s) ≤
          x.post.snow.en.delta_Q * (ts x.lv).time_step) ∧
      (KeepsLayers g (ts x.lv).time_step x ∨ Merges x →
        heatRate x * (ts x.lv).time_step ≤
          333600 * (x.pre.snow.ice - x.post.snow.ice + 1e-8) + (x.post.snow.cc_s - x.pre.snow.cc_s)) := by
  obtain ⟨c, ts, hc, hts, ho, ht, hx⟩ := trace_closed hg ha hr h
  refine ⟨ts, hts, fun l hl x hxl hq => ?_⟩
  obtain ⟨d, ⟨h1, h1'⟩, ⟨h2, _⟩, hf, h3, _⟩ := hx l hl x hxl
  obtain ⟨s0, s1, s2, s3, s4, s5, s6, k⟩ := step_chain ho.max_z h1 h3
  have hdt := ht.step_pos x.lv
  obtain ⟨dt, e⟩ : ∃ dt, dt = (ts x.lv).time_step := ⟨_, rfl⟩
  rw [← e] at hq hdt k ⊢
  obtain ⟨r0, rl, w, z1, z2, z3, z4, two, a, b, hw, hd, he, hfz, hl2⟩ := k.energyBooks (g := g) ho (mkEnv_ok hc).2.2.1
    (mkEnv_ok hc).2.1 (mkEnv_ok hc).1 hdt h1' hf hq.lasts
  have hmass := C19_mass_balance_step g ha.toAdmissible.max_active rows ls m h l hl x hxl hq.lasts
  obtain ⟨i1, i2⟩ := hw.ice hdt hq hmass
  have lg := he.ledger
  rw [lf_eq] at lg
  obtain ⟨l1, l2, l3⟩ := hl2 hq.dry hq.pack
  have hb := C25_energy_budget_step g rows ls m h l hl x hxl
  have hpk := hb.1.pack
  -- a one-layer pack has no lower cold content
  have one : ∀ s : Snow, Inv c s → s.layer_count = 1 → s.cc_s_l = 0 := by
    intro s hi h1
    refine (hi.one ?_).2.1
    by_contra hne
    have hp := lt_of_le_of_ne hi.zl (Ne.symm hne)
    have h0 := (hi.lc_pos_iff ho.max_z).mp (by omega)
    have := lc_eq_two.mpr ⟨h0, hp⟩
    omega
  have keep : KeepsLayers g dt x → x.post.snow.en.delta_Q * dt =
      (x.post.snow.cc_s - x.pre.snow.cc_s) + 333600 * (x.post.snow.melt - (r0 + rl)) := by
    unfold Snow.cc_s
    rintro (⟨n1, n2, n3⟩ | ⟨n1, n2, n3⟩)
    · obtain ⟨q1, q2⟩ := l1 n1 n3
      obtain ⟨q3, q4⟩ := he.single q1
      rw [q1, if_neg (by simp), q4] at lg
      rw [(hb.2.2.1 n1).2, one _ h1 n1, one _ h2 n2]
      linarith
    · have hz : x.pre.snow.m_s ≤ 600 * z1 := by
        by_cases hlt : x.pre.snow.rho < 550
        · rw [if_pos hlt] at n3
          have hz := (hd.compact.2 hlt hq.pack).2
          have hz0 := hd.pos.1
          have hgp : 0 < gravityDensity (dt / 3600) x.pre.snow.rho x.pre.snow.t_s x.pre.snow.m_s := by
            by_contra hn
            have := div_nonpos_of_nonneg_of_nonpos hq.pack.le (not_lt.mp hn)
            linarith
          have : x.pre.snow.m_s = z1 * gravityDensity (dt / 3600) x.pre.snow.rho x.pre.snow.t_s x.pre.snow.m_s := by
            rw [hz]; field_simp
          nlinarith
        · rw [if_neg hlt] at n3
          rw [hd.compact.1 (not_lt.mp hlt)]
          have h0 := (h1.lc_pos_iff ho.max_z).mp (by omega)
          rw [(h1.pack h0).1]
          exact mul_le_mul_of_nonneg_right n3 (h1.z_pos h0).le
      obtain ⟨q1, q2, q3⟩ := l2 n1 n2 (mul_nonpos_of_nonpos_of_nonneg hq.surface hdt.le) hq.soil hz
      rw [q1, if_pos rfl, q2, q3] at lg
      rw [hpk]
      linarith
  refine ⟨fun hk => ?_, ?_⟩
  · rw [keep hk]; linarith
  · rintro (hk | ⟨n1, n2, n3⟩)
    · have : heatRate x = x.post.snow.en.delta_Q := by
        unfold heatRate
        rw [if_pos]
        rcases hk with ⟨n1, n2, _⟩ | ⟨n1, n2, _⟩ <;> rw [n1, n2]
      rw [this, keep hk]; linarith
    · have hrt : heatRate x = min x.post.snow.en.delta_Q x.post.snow.en.delta_Q_0 := by
        unfold heatRate
        rw [if_neg (by rw [n1, n2]; norm_num)]
      have hl0 := one _ h2 n2
      rw [hrt]
      unfold Snow.cc_s
      rw [hl0]
      cases two
      · obtain ⟨q3, q4⟩ := he.single rfl
        rw [if_neg (by simp), q4] at lg
        have := mul_le_mul_of_nonneg_right (min_le_right x.post.snow.en.delta_Q x.post.snow.en.delta_Q_0) hdt.le
        linarith
      · have q2 := l3 n1 rfl
        rw [if_pos rfl] at lg
        have hmlt := he.melt
        have hlow := hfz.lower rfl
        have hsur := hw.surface
        rw [if_pos rfl] at hmlt
        rw [lf_eq] at hmlt hlow hsur
        have hle : 333600 * rl ≤ max 0 (-(a + (x.post.snow.en.G - x.post.snow.en.G_0) * dt)) := by
          rw [hlow]; exact min_le_left _ _
        have s1 : max 0 (x.pre.snow.cc_s_0 + x.post.snow.en.delta_Q_0 * dt) + min 0 (x.pre.snow.cc_s_0 + x.post.snow.en.delta_Q_0 * dt) =
            x.pre.snow.cc_s_0 + x.post.snow.en.delta_Q_0 * dt := by rw [max_add_min]; ring
        have s2 : ∀ q : ℝ, max 0 (-q) = max 0 q - q := by
          intro q
          rcases le_total 0 q with hq | hq
          · rw [max_eq_left (by linarith), max_eq_right hq]; ring
          · rw [max_eq_right (by linarith), max_eq_left hq]; ring
        rw [s2] at hle
        have hb0 : b ≤ 0 := by linarith
        have := mul_le_mul_of_nonneg_right (min_le_left x.post.snow.en.delta_Q x.post.snow.en.delta_Q_0) hdt.le
        rw [hpk] at this
        rw [hpk]
        linarith

/-- Telescoping along a stretch of run steps. -/
theorem Unbroken.sums {f E : RStep Phys → ℝ} : ∀ {y : List (RStep Phys)} {s s' : Snow}, Unbroken s y s' →
    (∀ x ∈ y, 333600 * (x.pre.snow.ice - x.post.snow.ice + E x) + (x.post.snow.cc_s - x.pre.snow.cc_s) ≤ f x) →
    333600 * (s.ice - s'.ice + (y.map E).sum) + (s'.cc_s - s.cc_s) ≤ (y.map f).sum := by
  intro y
  induction y with
  | nil =>
    intro s s' h _
    have h : s = s' := h
    subst h
    simp
  | cons x y ih =>
    intro s s' h hx
    have h1 := hx x (by simp)
    have h2 := ih h.2 (fun z hz => hx z (by simp [hz]))
    rw [h.1] at h1
    simp only [List.map_cons, List.sum_cons]
    linarith

theorem Unbroken.sums_le {f : RStep Phys → ℝ} {ε : ℝ} : ∀ {y : List (RStep Phys)} {s s' : Snow}, Unbroken s y s' →
    (∀ x ∈ y, f x ≤ 333600 * (x.pre.snow.ice - x.post.snow.ice + ε) + (x.post.snow.cc_s - x.pre.snow.cc_s)) →
    (y.map f).sum ≤ 333600 * (s.ice - s'.ice + ε * y.length) + (s'.cc_s - s.cc_s) := by
  intro y
  induction y with
  | nil =>
    intro s s' h _
    have h : s = s' := h
    subst h
    simp
  | cons x y ih =>
    intro s s' h hx
    have h1 := hx x (by simp)
    have h2 := ih h.2 (fun z hz => hx z (by simp [hz]))
    rw [h.1] at h1
    simp only [List.map_cons, List.sum_cons, List.length_cons, Nat.cast_add, Nat.cast_one]
    linarith

theorem Unbroken.split : ∀ {a b : List (RStep Phys)} {s s' : Snow}, Unbroken s (a ++ b) s' →
    ∃ t, Unbroken s a t ∧ Unbroken t b s' := by
  intro a
  induction a with
  | nil => intro b s s' h; exact ⟨s, rfl, h⟩
  | cons x a ih =>
    intro b s s' h
    obtain ⟨t, h1, h2⟩ := ih h.2
    exact ⟨t, ⟨h.1, h1⟩, h2⟩

/-- C76, any stretch of a run: take consecutive run steps of a run with admissible data through which the pack lasts, dry, without
deposition of vapour, and with the layers it has.  The heat the fluxes bring to it is what its cold content changes plus the heat of fusion
of the ice it loses, up to the ice that sublimates and to 1e-8 kg/m² per step that is rounded away. -/
theorem C76_heat_budget (g : Config) (hg : g.Tiled) (ha : g.AdmissibleStart) (rows : List Rec)
    (hr : ∀ r ∈ rows, r.Admissible) (ls : List (List (RStep Phys))) (m : Model) (h : RunTrace g rows ls m) :
    ∃ ts, parse_time_steps g = .ok ts ∧ ∀ a y b, ls.flatten = a ++ y ++ b → ∃ s s', Unbroken s y s' ∧
      ((∀ x ∈ y, QuietStep (ts x.lv).time_step x ∧ KeepsLayers g (ts x.lv).time_step x) →
        333600 * (s.ice - s'.ice + (y.map fun x => x.post.snow.E_s).sum) + (s'.cc_s - s.cc_s) ≤
          (y.map fun x => x.post.snow.en.delta_Q * (ts x.lv).time_step).sum ∧
        (y.map fun x => x.post.snow.en.delta_Q * (ts x.lv).time_step).sum ≤
          333600 * (s.ice - s'.ice + 1e-8 * y.length) + (s'.cc_s - s.cc_s)) := by
  obtain ⟨ts, hts, hx⟩ := heat_step hg ha hr h
  refine ⟨ts, hts, fun a y b e => ?_⟩
  obtain ⟨_, s, hu, _⟩ := C57_history g ha.toAdmissible.max_active rows ls m h
  rw [e, List.append_assoc] at hu
  obtain ⟨s1, _, hu⟩ := hu.split
  obtain ⟨s2, hu, _⟩ := hu.split
  have hmem : ∀ x ∈ y, ∃ l ∈ ls, x ∈ l := fun x hxy => by
    rw [← List.mem_flatten, e]; simp [hxy]
  refine ⟨s1, s2, hu, fun hq => ⟨hu.sums fun x hxy => ?_, hu.sums_le fun x hxy => ?_⟩⟩
  · obtain ⟨l, hl, hxl⟩ := hmem x hxy
    exact (hx l hl x hxl (hq x hxy).1).1 (hq x hxy).2
  · obtain ⟨l, hl, hxl⟩ := hmem x hxy
    have := (hx l hl x hxl (hq x hxy).1).2 (.inl (hq x hxy).2)
    have e : heatRate x = x.post.snow.en.delta_Q := by
      unfold heatRate
      rw [if_pos]
      rcases (hq x hxy).2 with ⟨n1, n2, _⟩ | ⟨n1, n2, _⟩ <;> rw [n1, n2]
    rw [e] at this
    exact this

/-- C76, enough heat ends the snow cover: take consecutive run steps of a run with admissible data, each of which, if the pack outlasts it, is
dry and without deposition of vapour, keeps the layers of the pack or merges them, leaves no more liquid water than the pack weighs and no
positive cold content.  If the heat brought to the pack exceeds what it takes to warm it to freezing and melt all its ice (and 1e-8 kg/m²
per step), then the pack does not last: one of these run steps ends without snow cover. -/
theorem C76_enough_heat_ends_cover (g : Config) (hg : g.Tiled) (ha : g.AdmissibleStart) (rows : List Rec)
    (hr : ∀ r ∈ rows, r.Admissible) (ls : List (List (RStep Phys))) (m : Model) (h : RunTrace g rows ls m) :
    ∃ ts, parse_time_steps g = .ok ts ∧ ∀ a x y b, ls.flatten = a ++ (x :: y) ++ b →
      (∀ z ∈ x :: y, z.post.snow.snowcover = true → QuietStep (ts z.lv).time_step z ∧ (KeepsLayers g (ts z.lv).time_step z ∨ Merges z) ∧
        z.post.snow.h2o ≤ z.post.snow.m_s ∧ z.post.snow.cc_s ≤ 0) →
      333600 * (x.pre.snow.m_s - x.pre.snow.h2o + 1e-8 * (x :: y).length) - x.pre.snow.cc_s <
        ((x :: y).map fun z => heatRate z * (ts z.lv).time_step).sum →
      ∃ z ∈ x :: y, z.post.snow.snowcover = false := by
  obtain ⟨ts, hts, hx⟩ := heat_step hg ha hr h
  refine ⟨ts, hts, fun a x y b e hq hh => ?_⟩
  by_contra hn
  have hall : ∀ z ∈ x :: y, z.post.snow.snowcover = true := fun z hz => by
    by_contra h'
    exact hn ⟨z, hz, by simpa using h'⟩
  obtain ⟨_, s, hu, _⟩ := C57_history g ha.toAdmissible.max_active rows ls m h
  rw [e, List.append_assoc] at hu
  obtain ⟨s1, _, hu⟩ := hu.split
  obtain ⟨s2, hu, _⟩ := hu.split
  have hle := hu.sums_le (f := fun z => heatRate z * (ts z.lv).time_step) (ε := 1e-8) fun z hz => by
    obtain ⟨l, hl, hxl⟩ : ∃ l ∈ ls, z ∈ l := by
      rw [← List.mem_flatten, e, List.mem_append, List.mem_append]; exact .inl (.inr hz)
    have := hq z hz (hall z hz)
    exact (hx l hl z hxl this.1).2 this.2.1
  have hs1 : x.pre.snow = s1 := hu.1
  have hend : s2.h2o ≤ s2.m_s ∧ s2.cc_s ≤ 0 := by
    have : ∀ {y : List (RStep Phys)} {s s' : Snow}, Unbroken s y s' → (∀ z ∈ y, z.post.snow.h2o ≤ z.post.snow.m_s ∧ z.post.snow.cc_s ≤ 0) →
        y ≠ [] → s'.h2o ≤ s'.m_s ∧ s'.cc_s ≤ 0 := by
      intro y
      induction y with
      | nil => intro s s' _ _ h; exact absurd rfl h
      | cons x y ih =>
        intro s s' hu hq _
        cases y with
        | nil =>
          have : x.post.snow = s' := hu.2
          rw [← this]; exact hq x (by simp)
        | cons x' y => exact ih hu.2 (fun z hz => hq z (List.mem_cons_of_mem _ hz)) (by simp)
    exact this hu (fun z hz => (hq z hz (hall z hz)).2.2) (by simp)
  unfold Snow.ice at hle
  rw [hs1] at hh
  linarith [hend.1, hend.2]

/-- The reported means, times the length of a data step, add up to what the run steps received. -/
theorem dataSteps_heat (hg : g.Tiled) {ts : Tsteps} (hts : parse_time_steps g = .ok ts) {c : Env} {i1 : InputData} {rs : List Rec}
    {m m' : Model} {ls : List (List (RStep Phys))} (h : DataSteps c ts false i1 rs m ls m') (h0 : m.acc.time_since_out = 0) :
    ∃ out, m'.output_list = m.output_list ++ out ∧
      (out.map fun r => r.delta_Q_bar * (60 * (g.norm_time_step : ℝ))).sum =
        (ls.flatten.map fun x => x.post.snow.en.delta_Q * (ts x.lv).time_step).sum ∧
      (out.map (·.E_s_sum)).sum = (ls.flatten.map fun x => x.post.snow.E_s).sum := by
  have ht := parse_tile hg hts
  induction h with
  | nil => exact ⟨[], by simp, by simp, by simp⟩
  | cons h1 h2 h3 _ ih =>
    rename_i i1 i2 r rs m m1 m' l ls _
    obtain ⟨out, q1, q2, q3⟩ := ih (data_time_since_out ht h0 h2)
    obtain ⟨l', k1, k2, o, k3, k4⟩ := C10_normal_record_summarises g hg ts hts c _ _ _ _ h0 h2
    obtain ⟨rfl, _⟩ := k1.unique h3
    obtain ⟨_, _, _, _, _, _, k5, _, k6, _⟩ := k4
    have hmin := (C04_linear_in_time g hg ts hts c false _ _ _ _ _ k1).2.1
    have hdur : duration (l'.map (stepOf ts)) = 60 * (g.norm_time_step : ℝ) := by
      rw [← hmin]
      unfold duration Config.minutes
      rw [List.map_map, ← List.sum_map_mul_left]
      congr 1
      refine List.map_congr_left fun x _ => ?_
      obtain ⟨_, _, p1, p2, p3⟩ := parse_ok hts
      show (ts x.lv).time_step = _
      cases x.lv
      · rw [p1]; push_cast; ring
      · rw [p2]; push_cast; ring
      · rw [p3]; push_cast; ring
    have hN : (0 : ℝ) < (g.norm_time_step : ℝ) := by exact_mod_cast hg.1
    refine ⟨o :: out, by rw [q1, k3]; simp, ?_, ?_⟩
    · rw [List.map_cons, List.sum_cons, q2, List.flatten_cons, List.map_append, List.sum_append, k5]
      congr 1
      unfold wmean
      rw [hdur, div_mul_cancel₀ _ (by positivity), List.map_map]
      congr 1
      exact List.map_congr_left fun x _ => by show (ts x.lv).time_step * _ = _; rw [mul_comm]; rfl
    · rw [List.map_cons, List.sum_cons, q3, List.flatten_cons, List.map_append, List.sum_append, k6]
      congr 1
      unfold total
      rw [List.map_map]; rfl

/-- C76, records: for a whole run in mode `normal` with admissible data, if the configured pack is there at the start and every run step is
dry, without deposition of vapour and keeps the layers: the `delta_Q` column, times the length of a data step, adds up to the change of the cold
content from the configured pack to the final one plus the heat of fusion of the ice lost, up to the sublimation reported and 1e-8 kg/m² per run step. -/
theorem C76_heat_budget_records (g : Config) (hg : g.Tiled) (ha : g.AdmissibleStart) (hn : g.output_all = false) (hsn : g.StartsSnowy) (rows : List Rec)
    (hr : ∀ r ∈ rows, r.Admissible) (ls : List (List (RStep Phys))) (m : Model) (h : RunTrace g rows ls m) :
    ∃ ts s, parse_time_steps g = .ok ts ∧ StartPack g s ∧
      ((∀ l ∈ ls, ∀ x ∈ l, QuietStep (ts x.lv).time_step x ∧ KeepsLayers g (ts x.lv).time_step x) →
        333600 * (s.ice - m.phys.snow.ice + (m.output_list.map (·.E_s_sum)).sum) + (m.phys.snow.cc_s - s.cc_s) ≤
          (m.output_list.map fun r => r.delta_Q_bar * (60 * (g.norm_time_step : ℝ))).sum ∧
        (m.output_list.map fun r => r.delta_Q_bar * (60 * (g.norm_time_step : ℝ))).sum ≤
          333600 * (s.ice - m.phys.snow.ice + 1e-8 * ls.flatten.length) + (m.phys.snow.cc_s - s.cc_s)) := by
  obtain ⟨ts, hts, hx⟩ := C76_heat_budget g hg ha rows hr ls m h
  obtain ⟨_, s, hu, hs, _⟩ := C57_history g ha.toAdmissible.max_active rows ls m h
  refine ⟨ts, s, hts, hs hsn, fun hq => ?_⟩
  obtain ⟨s1, s2, hu', hx⟩ := hx [] ls.flatten [] (by simp)
  obtain ⟨c, ts', i1, m0, r, rs, rfl, e1, e2, e3, e4, e5⟩ := h
  rw [hts] at e1; cases e1
  rw [hn] at e5
  obtain ⟨out, q1, q2, q3⟩ := dataSteps_heat hg hts e5 (mkModel_ok e4).2.2.1
  rw [(mkModel_ok e4).2.1, List.nil_append] at q1
  have hx := hx fun x hx => by
    obtain ⟨l, hl, hxl⟩ := List.mem_flatten.mp hx
    exact hq l hl x hxl
  rw [q1, q2, q3]
  have same : ∀ {y : List (RStep Phys)} {s s' t t' : Snow}, Unbroken s y s' → Unbroken t y t' → y ≠ [] → s = t ∧ s' = t' := by
    intro y
    induction y with
    | nil => intro _ _ _ _ _ _ h; exact absurd rfl h
    | cons x y ih =>
      intro s s' t t' h1 h2 _
      refine ⟨h1.1.symm.trans h2.1, ?_⟩
      cases y with
      | nil =>
        have a : x.post.snow = s' := h1.2
        have b : x.post.snow = t' := h2.2
        rw [← a, ← b]
      | cons => exact (ih h1.2 h2.2 (by simp)).2
  by_cases hy : ls.flatten = []
  · rw [hy] at hu ⊢
    have : s = m.phys.snow := hu
    rw [this]; simp
  · obtain ⟨a, b⟩ := same hu hu' hy
    rw [a, b]
    exact hx

end

end Pysnobal
