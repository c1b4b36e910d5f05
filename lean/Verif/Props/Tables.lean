import Verif.Props.Clock
import Verif.Cache
import Verif.Spatial

/-! # C38 (caches), C43 (input table), C44 (output table), C48 (gridded layer split) -/

namespace Pysnobal

noncomputable section

/-! ## C38 -/

/-- What the reads of a sequence of operations should return: the saturation vapour pressure of the
temperature assigned last (`t` initially). -/
def expectedVp : ℝ → List VpOp → List (Except Err ℝ)
  | _, [] => []
  | _, .set v :: ops => expectedVp v ops
  | t, .read :: ops => sati t :: expectedVp t ops

/-- C38: in any interleaving of assignments and reads, every read returns the saturation vapour pressure of
the current temperature, never a stale value (and raises whenever `sati` does). -/
theorem C38_vapour_pressure_current (t garbage : ℝ) (ops : List VpOp) :
    (VpCell.new t garbage).exec ops = expectedVp t ops := by
  have key : ∀ (ops : List VpOp) (x : VpCell), (x.flag = true → sati x.temp = .ok x.cached) →
      x.exec ops = expectedVp x.temp ops := by
    intro ops
    induction ops with
    | nil => intro x _; rfl
    | cons op ops ih =>
      intro x hx
      cases op with
      | set v =>
        simp only [VpCell.exec, expectedVp]
        exact ih (x.set v) (fun h => by simp [VpCell.set] at h)
      | read =>
        simp only [VpCell.exec, expectedVp]
        by_cases hf : x.flag = false
        · unfold VpCell.read
          rw [if_pos hf]
          cases hs : sati x.temp with
          | error e =>
            simp only
            rw [ih x hx]
          | ok v =>
            simp only
            rw [ih _ (fun _ => hs)]
        · unfold VpCell.read
          rw [if_neg hf]
          simp only
          rw [hx (by simpa using hf), ih x hx]
  exact key ops _ (fun h => by simp [VpCell.new] at h)

/-- What reads of the layer count should return: the number of layers of positive depth. -/
def expectedLayers : ℝ → ℝ → List LayerOp → List ℕ
  | _, _, [] => []
  | _, _, .calc a b :: ops => expectedLayers a b ops
  | _, _, .poke a b :: ops => expectedLayers a b ops
  | a, b, .read :: ops => ((if 0 < a then 1 else 0) + (if 0 < b then 1 else 0)) :: expectedLayers a b ops

/-- A depth is assigned directly, not through `calc_layers`. -/
def LayerOp.isPoke : LayerOp → Bool
  | .poke _ _ => true
  | _ => false

/-- C38: as long as depths change only through `calc_layers` (as everywhere in the package), every read of
`layer_count` counts the current layers. -/
theorem C38_layer_count_current (a b : ℝ) (garbage : ℕ) (ops : List LayerOp)
    (h : ∀ op ∈ ops, op.isPoke = false) :
    LayerCell.exec { z_s_0 := a, z_s_l := b, flag := false, cached := garbage } ops =
      expectedLayers a b ops := by
  have key : ∀ (ops : List LayerOp), (∀ op ∈ ops, op.isPoke = false) → ∀ (x : LayerCell),
      (x.flag = true → x.cached = (if 0 < x.z_s_0 then 1 else 0) + (if 0 < x.z_s_l then 1 else 0)) →
      x.exec ops = expectedLayers x.z_s_0 x.z_s_l ops := by
    intro ops
    induction ops with
    | nil => intro _ x _; rfl
    | cons op ops ih =>
      intro hp x hx
      have hp' := fun o ho => hp o (List.mem_cons_of_mem _ ho)
      cases op with
      | «calc» a b =>
        simp only [LayerCell.exec, expectedLayers]
        exact ih hp' _ (fun h => by simp at h)
      | poke a b => exact absurd (hp _ (List.mem_cons_self ..)) (by simp [LayerOp.isPoke])
      | read =>
        simp only [LayerCell.exec, expectedLayers]
        by_cases hf : x.flag = false
        · unfold LayerCell.read
          rw [if_pos hf]
          simp only [gt_iff_lt]
          rw [ih hp' _ (fun _ => rfl)]
        · unfold LayerCell.read
          rw [if_neg hf]
          simp only
          rw [hx (by simpa using hf), ih hp' x hx]
  exact key ops h _ (fun h => by simp at h)

/-- C38: the proviso is needed: after a direct assignment of a depth the cached count is returned. -/
theorem C38_direct_assignment_stale :
    ∃ ops : List LayerOp, LayerCell.exec { z_s_0 := 0, z_s_l := 0, flag := false, cached := 0 } ops ≠
      expectedLayers 0 0 ops :=
  ⟨[.read, .poke 1 0, .read], by simp [LayerCell.exec, LayerCell.read, expectedLayers]⟩

/-- non-vacuity: a read, a change, two reads -/
example : (VpCell.new 270 0).exec [.read, .set 280, .read, .read] = [sati 270, sati 280, sati 280] :=
  C38_vapour_pressure_current _ _ _

/-! ## C43 -/

/-- The unit conversion of one input row, column by column. -/
structure Converted (raw : RawRow) (r : Rec) : Prop where
  S_n : r.S_n = raw.net_solar
  I_lw : r.I_lw = raw.incoming_thermal
  e_a : r.e_a = raw.vapor_pressure
  u : r.u = raw.wind_speed
  m_pp : r.m_pp = raw.precip_mass
  percent_snow : r.percent_snow = raw.percent_snow
  rho_snow : r.rho_snow = raw.rho_snow
  /-- Celsius to Kelvin -/
  t_a : r.t_a = raw.air_temp + 273.16
  t_g : r.t_g = raw.soil_temp + 273.16
  /-- precipitation temperature: Kelvin, and freezing if there is rain below freezing -/
  t_pp : (0 < raw.precip_mass * (1 - raw.percent_snow) → r.t_pp = max (raw.precip_temp + 273.16) 273.16) ∧
    (raw.precip_mass * (1 - raw.percent_snow) ≤ 0 → r.t_pp = raw.precip_temp + 273.16)

theorem convertRow_spec (raw : RawRow) : Converted raw (convertRow raw) := by
  have hF : FREEZE = 273.16 := rfl
  constructor
  case t_pp =>
    unfold convertRow
    simp only [hF]
    refine ⟨fun h => ?_, fun h => ?_⟩
    · by_cases h1 : raw.precip_temp + 273.16 < 273.16
      · rw [if_pos ⟨h, h1⟩, max_eq_right h1.le]
      · rw [if_neg (fun hc => h1 hc.2), max_eq_left (not_lt.mp h1)]
    · rw [if_neg (fun hc => absurd hc.1 (not_lt.mpr h))]
  all_goals rfl

/-- A row of the table lies in the simulated window: `start_date ≤ t ≤ end_date + step`, where the step is
the difference of the first two rows' times. -/
def InWindow (g : Config) (rows : List RawRow) (r : RawRow) : Prop :=
  ∃ a b rest, rows = a :: b :: rest ∧ g.start_date ≤ r.date_time ∧
    r.date_time ≤ g.end_date + (b.date_time - a.date_time)

/-- C43: the records the model simulates are exactly the rows in the window, converted, in strictly
increasing time order. -/
theorem C43_window (g : Config) (rows : List RawRow) (l : List (ℤ × Rec))
    (h : read_input_data g rows = .ok l) :
    (l.map (·.1)).Pairwise (· < ·) ∧
    (∀ raw ∈ rows, InWindow g rows raw → ∃ r, (raw.date_time, r) ∈ l ∧ Converted raw r) ∧
    (∀ t r, (t, r) ∈ l → ∃ raw ∈ rows, InWindow g rows raw ∧ raw.date_time = t ∧ Converted raw r) ∧
    (∀ a b rest, rows = a :: b :: rest → l.length = rows.countP fun r =>
      decide (g.start_date ≤ r.date_time ∧ r.date_time ≤ g.end_date + (b.date_time - a.date_time))) := by
  unfold read_input_data windowRows at h
  obtain ⟨w, hw, h⟩ := bind_eq_ok.mp h
  obtain ⟨d, hd, hw⟩ := bind_eq_ok.mp hw
  cases hw
  have hrows : ∃ a b rest, rows = a :: b :: rest ∧ d = b.date_time - a.date_time := by
    unfold firstDelta at hd
    split at hd
    · cases hd
      exact ⟨_, _, _, rfl, rfl⟩
    · cases hd
  obtain ⟨a, b, rest, hr, rfl⟩ := hrows
  have hdet : ∀ a' b' rest', rows = a' :: b' :: rest' → a' = a ∧ b' = b := by
    intro a' b' rest' h'
    rw [hr] at h'
    injection h' with h1 h2
    injection h2 with h2 h3
    exact ⟨h1.symm, h2.symm⟩
  have hmem : ∀ r, InWindow g rows r ↔ g.start_date ≤ r.date_time ∧
      r.date_time ≤ g.end_date + (b.date_time - a.date_time) := by
    intro r
    constructor
    · rintro ⟨a', b', rest', h1, h2⟩
      obtain ⟨rfl, rfl⟩ := hdet _ _ _ h1
      exact h2
    · intro h'
      exact ⟨a, b, rest, hr, h'⟩
  set srt := rows.mergeSort (fun a b => decide (a.date_time ≤ b.date_time)) with hsrt
  have hperm : srt.Perm rows := List.mergeSort_perm _ _
  set w := srt.filter fun r => decide (g.start_date ≤ r.date_time ∧
      r.date_time ≤ g.end_date + (b.date_time - a.date_time)) with hwdef
  split at h
  swap
  · cases h
  rename_i hnd
  cases h
  have hsorted : srt.Pairwise (fun a b => a.date_time ≤ b.date_time) := by
    have := List.pairwise_mergeSort (le := fun (a b : RawRow) => decide (a.date_time ≤ b.date_time))
      (fun a b c h1 h2 => by simp at *; omega) (fun a b => by simp; omega) rows
    simpa using this
  have hws : w.Pairwise (fun a b => a.date_time ≤ b.date_time) := hsorted.filter _
  refine ⟨?_, fun raw hraw hin => ?_, fun t r hm => ?_, fun a' b' rest' h' => ?_⟩
  · rw [List.map_map]
    have h1 : (w.map (·.date_time)).Pairwise (· ≤ ·) := List.pairwise_map.mpr hws
    have h2 := h1.and hnd
    have e : (w.map ((fun x : ℤ × Rec => x.1) ∘ fun r => (r.date_time, convertRow r))) = w.map (·.date_time) := rfl
    rw [e]
    exact h2.imp fun hh => lt_of_le_of_ne hh.1 hh.2
  · refine ⟨convertRow raw, List.mem_map.mpr ⟨raw, ?_, rfl⟩, convertRow_spec raw⟩
    rw [hwdef, List.mem_filter]
    exact ⟨hperm.mem_iff.mpr hraw, by simpa using (hmem raw).mp hin⟩
  · obtain ⟨raw, h1, h2⟩ := List.mem_map.mp hm
    injection h2 with h2 h3
    rw [hwdef, List.mem_filter] at h1
    refine ⟨raw, hperm.mem_iff.mp h1.1, (hmem raw).mpr (by simpa using h1.2), h2, ?_⟩
    rw [← h3]
    exact convertRow_spec raw
  · obtain ⟨rfl, rfl⟩ := hdet _ _ _ h'
    rw [List.length_map, hwdef, ← List.countP_eq_length_filter]
    exact hperm.countP_eq _

/-- C43: reading fails exactly when the table has fewer than two rows or two rows of the window share a
time. -/
theorem C43_read_fails_iff (g : Config) (rows : List RawRow) :
    (∃ e, read_input_data g rows = .error e) ↔
      rows.length < 2 ∨
      ∃ a b rest, rows = a :: b :: rest ∧ ¬ ((rows.map (·.date_time)).filter fun t =>
        decide (g.start_date ≤ t ∧ t ≤ g.end_date + (b.date_time - a.date_time))).Nodup := by
  match rows with
  | [] => simp [read_input_data, windowRows, firstDelta]
  | [a] => simp [read_input_data, windowRows, firstDelta]
  | a :: b :: rest =>
    set rows := a :: b :: rest with hrows
    have hlen : ¬ rows.length < 2 := by simp [hrows]
    set P : RawRow → Bool := fun r => decide (g.start_date ≤ r.date_time ∧
      r.date_time ≤ g.end_date + (b.date_time - a.date_time)) with hP
    have hperm : ((rows.mergeSort (fun a b => decide (a.date_time ≤ b.date_time))).filter P).Perm
        (rows.filter P) := (List.mergeSort_perm _ _).filter _
    have e1 : ((rows.map (·.date_time)).filter fun t =>
        decide (g.start_date ≤ t ∧ t ≤ g.end_date + (b.date_time - a.date_time))) =
        (rows.filter P).map (·.date_time) := by
      rw [List.filter_map]
      rfl
    have e3 : (∃ a b rest, rows = a :: b :: rest ∧ ¬ ((rows.map (·.date_time)).filter fun t =>
        decide (g.start_date ≤ t ∧ t ≤ g.end_date + (b.date_time - a.date_time))).Nodup) ↔
        ¬ ((rows.filter P).map (·.date_time)).Nodup := by
      rw [← e1]
      constructor
      · rintro ⟨a', b', rest', h1, h2⟩
        rw [hrows] at h1
        injection h1 with h3 h4
        injection h4 with h4 h5
        rw [h3, h4]
        exact h2
      · intro h
        exact ⟨a, b, rest, rfl, h⟩
    have e2 : read_input_data g rows =
        if (((rows.mergeSort (fun a b => decide (a.date_time ≤ b.date_time))).filter P).map
          (·.date_time)).Nodup then
          .ok (((rows.mergeSort (fun a b => decide (a.date_time ≤ b.date_time))).filter P).map fun r =>
            (r.date_time, convertRow r))
        else .error .dupIndex := by
      unfold read_input_data windowRows
      rw [show firstDelta rows = .ok (b.date_time - a.date_time) from rfl]
      rfl
    rw [e3, e2, ← (hperm.map (·.date_time)).nodup_iff]
    simp only [hlen, false_or]
    split
    · rename_i hn
      simp [hn]
    · rename_i hn
      simp [hn]

/-- C43: the rain rule is idempotent: building the forcing object from a converted row changes no
precipitation temperature any more. -/
theorem C43_rain_rule_idempotent (raw : RawRow) (i : InputData)
    (h : InputData.new (convertRow raw) = .ok i) : i.t_pp = (convertRow raw).t_pp := by
  set r := convertRow raw with hr
  have hc := convertRow_spec raw
  rw [← hr] at hc
  have hrain : 0 < r.m_pp - r.m_pp * r.percent_snow → ¬ r.t_pp < FREEZE := by
    intro hpos hlt
    have : 0 < raw.precip_mass * (1 - raw.percent_snow) := by
      rw [hc.m_pp, hc.percent_snow] at hpos
      linarith
    rw [hc.t_pp.1 this] at hlt
    exact absurd (le_max_right _ _) (not_le.mpr hlt)
  clear_value r
  rw [(new_ok h).1]
  simp only [Rec.toInput]
  rw [if_neg (fun hc => hrain hc.2.1 hc.2.2)]

/-! ## C44 -/

/-- The documented columns of an output row in terms of the emitted record: temperatures in Celsius, flux
columns from the averages, mass flux columns from the totals. -/
structure RowOf (r : OutRec) (w : OutRow) : Prop where
  date_time : w.date_time = r.date_time
  R_n : w.R_n = r.R_n_bar
  H : w.H = r.H_bar
  L_v_E : w.L_v_E = r.L_v_E_bar
  G : w.G = r.G_bar
  M : w.M = r.M_bar
  delta_Q : w.delta_Q = r.delta_Q_bar
  G_0 : w.G_0 = r.G_0_bar
  delta_Q_0 : w.delta_Q_0 = r.delta_Q_0_bar
  cc_s_0 : w.cc_s_0 = r.cc_s_0
  cc_s_l : w.cc_s_l = r.cc_s_l
  cc_s : w.cc_s = r.cc_s
  E_s : w.E_s = r.E_s_sum
  melt : w.melt = r.melt_sum
  swi : w.swi = r.swi_sum
  z_s_0 : w.z_s_0 = r.z_s_0
  z_s_l : w.z_s_l = r.z_s_l
  z_s : w.z_s = r.z_s
  rho : w.rho = r.rho
  m_s_0 : w.m_s_0 = r.m_s_0
  m_s_l : w.m_s_l = r.m_s_l
  m_s : w.m_s = r.m_s
  h2o : w.h2o = r.h2o
  t_s_0 : w.t_s_0 + 273.16 = r.t_s_0
  t_s_l : w.t_s_l + 273.16 = r.t_s_l
  t_s : w.t_s + 273.16 = r.t_s

theorem toRow_spec (r : OutRec) : RowOf r (toRow r) := by
  have hF : FREEZE = 273.16 := rfl
  constructor
  case t_s_0 => simp [toRow, hF]
  case t_s_l => simp [toRow, hF]
  case t_s => simp [toRow, hF]
  all_goals rfl

theorem run_ok {g : Config} {rows : List Rec} {file f' : Option (List OutRow)} {b : Bool}
    (h : run g rows file = (.ok b, f')) :
    ∃ m t, simulate g rows = .ok m ∧ outputTable m.output_list = .ok t ∧ f' = some t ∧ b = true := by
  unfold run at h
  split at h
  · cases h
  · rename_i m hm
    split at h
    · cases h
    · rename_i t ht
      cases h
      exact ⟨m, t, hm, ht, rfl, rfl⟩

/-- C44: a run that raises leaves the output file as it was. -/
theorem C44_failure_writes_nothing (g : Config) (rows : List RawRow) (file f' : Option (List OutRow))
    (e : Err) (h : runTable g rows file = (.error e, f')) : f' = file := by
  unfold runTable at h
  split at h
  · cases h; rfl
  · unfold run at h
    split at h
    · cases h; rfl
    · split at h <;> cases h
      rfl

/-- C44: a failure in the data step of any record, however many steps succeeded before and however many
records follow, makes the whole run raise that error and write nothing. -/
theorem C44_failing_step (g : Config) (r0 : Rec) (xs ys : List Rec) (y : Rec) (e : Err)
    (file : Option (List OutRow)) (h : simulate g (r0 :: (xs ++ [y])) = .error e) :
    run g (r0 :: (xs ++ y :: ys)) file = (.error e, file) := by
  have : simulate g (r0 :: (xs ++ y :: ys)) = .error e := by
    unfold simulate at h ⊢
    dsimp only at h ⊢
    rcases bind_eq_error.mp h with h1 | ⟨ts, h1, h⟩
    · rw [h1]; rfl
    rw [h1, bind_ok]
    rcases bind_eq_error.mp h with h1 | ⟨i1, h1, h⟩
    · rw [h1]; rfl
    rw [h1, bind_ok]
    rcases bind_eq_error.mp h with h1 | ⟨c, h1, h⟩
    · rw [h1]; rfl
    rw [h1, bind_ok]
    rcases bind_eq_error.mp h with h1 | ⟨m, h1, h⟩
    · rw [h1]; rfl
    rw [h1, bind_ok, C12_runs_compose, h]
    rfl
  unfold run
  rw [this]

/-- C44: a run that returns has written one row per emitted record, with the documented columns, in time
order. -/
theorem C44_output_table (g : Config) (rows : List RawRow) (file f' : Option (List OutRow)) (b : Bool)
    (h : runTable g rows file = (.ok b, f')) :
    ∃ l m t, read_input_data g rows = .ok l ∧ simulate g (l.map (·.2)) = .ok m ∧ f' = some t ∧
      b = true ∧ t.length = m.output_list.length ∧ t ≠ [] ∧
      t.Pairwise (fun v w => v.date_time ≤ w.date_time) ∧
      (∃ perm : List OutRec, perm.Perm m.output_list ∧ List.Forall₂ RowOf perm t) := by
  unfold runTable at h
  split at h
  · cases h
  rename_i l hl
  obtain ⟨m, t, h1, h2, h3, h4⟩ := run_ok h
  refine ⟨l, m, t, hl, h1, h3, h4, ?_⟩
  unfold outputTable at h2
  split at h2
  · cases h2
  rename_i hne
  cases h2
  refine ⟨by simp, ?_, ?_, m.output_list.mergeSort (fun a b => decide (a.date_time ≤ b.date_time)),
    List.mergeSort_perm _ _, ?_⟩
  · intro hc
    have := congrArg List.length hc
    simp at this
    exact hne this
  · apply List.pairwise_map.mpr
    have := List.pairwise_mergeSort (le := fun (a b : OutRec) => decide (a.date_time ≤ b.date_time))
      (fun a b c h1 h2 => by simp at *; omega) (fun a b => by simp; omega) m.output_list
    simpa [toRow] using this
  · rw [List.forall₂_map_right_iff]
    exact List.forall₂_same.mpr (fun r _ => toRow_spec r)

/-- Already sorted records are not reordered. -/
theorem outputTable_sorted {out : List OutRec} {t : List OutRow}
    (hs : (out.map (·.date_time)).Pairwise (· < ·)) (h : outputTable out = .ok t) : t = out.map toRow := by
  unfold outputTable at h
  split at h
  · cases h
  · cases h
    congr 1
    apply List.mergeSort_of_pairwise
    have := List.pairwise_map.mp hs
    exact this.imp fun hh => by simpa using hh.le

/-- C44: with time steps that tile, the table is the emitted records in the order they were emitted, in
both output modes. -/
theorem C44_table_in_emission_order (g : Config) (hg : g.Tiled) (rows : List RawRow)
    (file f' : Option (List OutRow)) (b : Bool) (h : runTable g rows file = (.ok b, f')) :
    ∃ l m t, read_input_data g rows = .ok l ∧ simulate g (l.map (·.2)) = .ok m ∧ f' = some t ∧
      List.Forall₂ RowOf m.output_list t ∧ t.Pairwise (fun v w => v.date_time < w.date_time) := by
  unfold runTable at h
  split at h
  · cases h
  rename_i l hl
  obtain ⟨m, t, h1, h2, h3, h4⟩ := run_ok h
  have hinc : (m.output_list.map (·.date_time)).Pairwise (· < ·) := by
    cases hlm : l.map (·.2) with
    | nil => rw [hlm] at h1; cases h1
    | cons r rs =>
      rw [hlm] at h1
      cases hm : g.output_all with
      | true => exact (C08_all_records_increasing g hg hm r rs m h1).1
      | false =>
        rw [C07_normal_records g hg hm r rs m h1]
        apply List.pairwise_map.mpr
        refine List.pairwise_lt_range.imp fun {a b} hab => ?_
        have hn := hg.1
        have : (a : ℤ) < b := by exact_mod_cast hab
        nlinarith
  have ht := outputTable_sorted hinc h2
  refine ⟨l, m, t, hl, h1, h3, ?_, ?_⟩
  · rw [ht, List.forall₂_map_right_iff]
    exact List.forall₂_same.mpr (fun r _ => toRow_spec r)
  · rw [ht]
    apply List.pairwise_map.mpr
    exact List.pairwise_map.mp hinc

/-- C44: for input at the normal time step from the start date on, in normal mode, the rows of the output
table carry exactly the times of the input rows after the first. -/
theorem C44_stamps_are_input_times (g : Config) (hg : g.Tiled) (hm : g.output_all = false)
    (rows : List RawRow) (l : List (ℤ × Rec)) (hl : read_input_data g rows = .ok l)
    (hreg : l.map (·.1) = (List.range l.length).map fun (k : ℕ) => g.start_date + (k : ℤ) * g.norm_time_step)
    (file f' : Option (List OutRow)) (b : Bool) (h : runTable g rows file = (.ok b, f')) :
    ∃ t, f' = some t ∧ t.map (·.date_time) = (l.map (·.1)).tail := by
  obtain ⟨l', m, t, k1, k2, k3, k4, k5⟩ := C44_table_in_emission_order g hg rows file f' b h
  rw [hl] at k1
  cases k1
  refine ⟨t, k3, ?_⟩
  have e1 : t.map (·.date_time) = m.output_list.map (·.date_time) := by
    clear k2 k3 k5 h
    generalize m.output_list = out at k4
    induction k4 with
    | nil => rfl
    | cons hr _ ih => simp [ih, hr.date_time]
  rw [e1, hreg]
  cases l with
  | nil => cases k2
  | cons x xs =>
    rw [C07_normal_records g hg hm _ _ m k2]
    simp [List.range_succ_eq_map]

/-- non-vacuity of C43: two rows of an hourly table are read, one after the window is not -/
example (g : Config) (hs : g.start_date = 60) (he : g.end_date = 120) (q : RawRow) :
    ∃ l, read_input_data g [{ q with date_time := 120 }, { q with date_time := 180 },
      { q with date_time := 240 }] = .ok l := by
  by_contra hc
  have : ∃ e, read_input_data g [{ q with date_time := 120 }, { q with date_time := 180 },
      { q with date_time := 240 }] = .error e := by
    cases hr : read_input_data g [{ q with date_time := 120 }, { q with date_time := 180 },
      { q with date_time := 240 }] with
    | error e => exact ⟨e, rfl⟩
    | ok l => exact absurd ⟨l, hr⟩ hc
  rw [C43_read_fails_iff] at this
  rcases this with h | h
  · simp at h
  · obtain ⟨_, _, _, _, h⟩ := h
    apply h
    apply List.Nodup.filter
    simp

/-! ## C48 -/

/-- C48: with positive thresholds, the gridded and the point layer split give the same depths in every cell,
and the same layer count in every cell that has snow; in snow-free cells the gridded code reports one layer,
the point code none. -/
theorem C48_spatial_split (c : Env) (s : Snow) (x : Cell) (hz : 0 < c.max_z_s_0) (ht : 0 < c.small_threshold)
    (hm : x.m_s = s.m_s) (hr : x.rho = s.rho) (hd : x.z_s = s.z_s) :
    (x.calc_layers c.max_z_s_0 c.small_threshold).z_s = (s.calc_layers c).z_s ∧
    (x.calc_layers c.max_z_s_0 c.small_threshold).z_s_0 = (s.calc_layers c).z_s_0 ∧
    (x.calc_layers c.max_z_s_0 c.small_threshold).z_s_l = (s.calc_layers c).z_s_l ∧
    (c.small_threshold < s.m_s → 0 < s.z_s →
      (x.calc_layers c.max_z_s_0 c.small_threshold).layer_count = (s.calc_layers c).layer_count) ∧
    (s.m_s ≤ c.small_threshold →
      (x.calc_layers c.max_z_s_0 c.small_threshold).layer_count = 1 ∧ (s.calc_layers c).layer_count = 0) := by
  unfold Cell.calc_layers Snow.calc_layers
  by_cases h1 : s.m_s ≤ c.small_threshold
  · have h1' : ¬ c.small_threshold < s.m_s := not_lt.mpr h1
    simp [hm, h1, hz, ht, Snow.layer_count, not_le.mpr hz]
  · rw [hm, if_neg h1, if_neg h1]
    have h1' : c.small_threshold < s.m_s := not_le.mp h1
    rcases lt_trichotomy s.z_s c.max_z_s_0 with h2 | h2 | h2
    · have h3 : ¬ (0 < s.z_s - c.max_z_s_0) := by linarith
      have h4 : ¬ c.max_z_s_0 ≤ s.z_s := by linarith
      simp [hd, hr, h2, h3, h4, ht, h1, Snow.layer_count]
    · simp [hd, hr, h2, ht, h1, Snow.layer_count]
    · have h3 : 0 < s.z_s - c.max_z_s_0 := by linarith
      have h4 : ¬ s.z_s < c.max_z_s_0 := by linarith
      by_cases h5 : (s.z_s - c.max_z_s_0) * s.rho < c.small_threshold
      · simp [hd, hr, h2, h2.le, h4, ht, h1, h5, Snow.layer_count]
      · simp [hd, hr, h2, h2.le, h4, ht, h1, h5, Snow.layer_count, hz, h3]

/-- C48: the claimed agreement is false exactly in the snow-free cells: a concrete one. -/
theorem C48_snow_free_cells_disagree (c : Env) (s : Snow) (hz : 0 < c.max_z_s_0) (ht : 0 < c.small_threshold) :
    ∃ x : Cell, x.m_s = 0 ∧ (x.calc_layers c.max_z_s_0 c.small_threshold).layer_count ≠
      (Snow.calc_layers c { s with m_s := 0, rho := 0, z_s := 0 }).layer_count := by
  refine ⟨⟨0, 0, 0, 0, 0, 0⟩, rfl, ?_⟩
  obtain ⟨_, _, _, _, h⟩ := C48_spatial_split c { s with m_s := 0, rho := 0, z_s := 0 }
    ⟨0, 0, 0, 0, 0, 0⟩ hz ht rfl rfl rfl
  rw [(h ht.le).1, (h ht.le).2]
  decide

end

end Pysnobal
