import Verif.Format
import Verif.Props.Pack
import Verif.Props.Tables
import Verif.Props.Examples2

/-! # C65: the formatted output table -/

namespace Pysnobal

noncomputable section

/-! ## Specification -/

/-- `y` is `x` printed with `d` decimals: a multiple of the last digit, at most half of it away, and never on the other
side of zero. -/
structure Printed (d : ℕ) (x y : ℝ) : Prop where
  digits : ∃ n : ℤ, y = n / 10 ^ d
  close : |y - x| ≤ 1 / 2 / 10 ^ d
  nonneg : 0 ≤ x → 0 ≤ y
  nonpos : x ≤ 0 → y ≤ 0

/-- `y` is `x` printed with `d + 1` significant digits: with a relative error of at most half a unit of the last digit,
and the same sign. -/
structure PrintedSci (d : ℕ) (x y : ℝ) : Prop where
  close : |y - x| ≤ 1 / 2 / 10 ^ d * |x|
  pos : 0 < x ↔ 0 < y
  neg : x < 0 ↔ y < 0

/-- A row of the table and the row that is printed for it: fluxes, density, masses and liquid water with 3 decimals,
temperatures with 5, depths with 6, the masses of a step with 8, cold contents with 10 significant digits. -/
structure PrintedRow (r q : OutRow) : Prop where
  date_time : q.date_time = r.date_time
  R_n : Printed 3 r.R_n q.R_n
  H : Printed 3 r.H q.H
  L_v_E : Printed 3 r.L_v_E q.L_v_E
  G : Printed 3 r.G q.G
  M : Printed 3 r.M q.M
  delta_Q : Printed 3 r.delta_Q q.delta_Q
  G_0 : Printed 3 r.G_0 q.G_0
  delta_Q_0 : Printed 3 r.delta_Q_0 q.delta_Q_0
  cc_s_0 : PrintedSci 9 r.cc_s_0 q.cc_s_0
  cc_s_l : PrintedSci 9 r.cc_s_l q.cc_s_l
  cc_s : PrintedSci 9 r.cc_s q.cc_s
  E_s : Printed 8 r.E_s q.E_s
  melt : Printed 8 r.melt q.melt
  swi : Printed 8 r.swi q.swi
  z_s_0 : Printed 6 r.z_s_0 q.z_s_0
  z_s_l : Printed 6 r.z_s_l q.z_s_l
  z_s : Printed 6 r.z_s q.z_s
  rho : Printed 3 r.rho q.rho
  m_s_0 : Printed 3 r.m_s_0 q.m_s_0
  m_s_l : Printed 3 r.m_s_l q.m_s_l
  m_s : Printed 3 r.m_s q.m_s
  h2o : Printed 3 r.h2o q.h2o
  t_s_0 : Printed 5 r.t_s_0 q.t_s_0
  t_s_l : Printed 5 r.t_s_l q.t_s_l
  t_s : Printed 5 r.t_s q.t_s

/-! ## Proofs -/

theorem roundEven_close (x : ℝ) : |(roundEven x : ℝ) - x| ≤ 1 / 2 := by
  have h0 := Int.fract_nonneg x
  have h1 := Int.fract_lt_one x
  have h2 := Int.self_sub_floor x
  unfold roundEven
  split
  · rw [abs_le]; constructor <;> linarith
  · split
    · push_cast; rw [abs_le]; constructor <;> linarith
    · have h3 : Int.fract x = 1 / 2 := le_antisymm (not_lt.mp (by assumption)) (not_lt.mp (by assumption))
      split
      · rw [abs_le]; constructor <;> linarith
      · push_cast; rw [abs_le]; constructor <;> linarith

theorem roundEven_int (n : ℤ) : roundEven n = n := by
  unfold roundEven
  simp

/-- Rounding does not pass an integer. -/
theorem le_roundEven {n : ℤ} {x : ℝ} (h : (n : ℝ) ≤ x) : n ≤ roundEven x := by
  have h1 : n ≤ ⌊x⌋ := Int.le_floor.mpr h
  unfold roundEven
  split
  · exact h1
  · split
    · linarith
    · split <;> linarith

theorem roundEven_le {n : ℤ} {x : ℝ} (h : x ≤ (n : ℝ)) : roundEven x ≤ n := by
  rcases h.eq_or_lt with h | h
  · rw [h, roundEven_int]
  · have h1 : ⌊x⌋ < n := Int.floor_lt.mpr h
    unfold roundEven
    split
    · linarith
    · split
      · linarith
      · split <;> linarith

theorem roundEven_mono {x y : ℝ} (h : x ≤ y) : roundEven x ≤ roundEven y := by
  by_contra hc
  have hc := not_le.mp hc
  have h1 := abs_le.mp (roundEven_close x)
  have h2 := abs_le.mp (roundEven_close y)
  have h3 : (roundEven y : ℝ) + 1 ≤ roundEven x := by exact_mod_cast hc
  -- both ends of the tie
  have e1 : x = y := by linarith [h1.2, h2.1]
  rw [e1] at hc
  exact lt_irrefl _ hc

theorem fmtFixed_printed (d : ℕ) (x : ℝ) : Printed d x (fmtFixed d x) := by
  have hp : (0 : ℝ) < 10 ^ d := by positivity
  have hc := roundEven_close (x * 10 ^ d)
  constructor
  · exact ⟨_, rfl⟩
  · have e : fmtFixed d x - x = ((roundEven (x * 10 ^ d) : ℝ) - x * 10 ^ d) / 10 ^ d := by
      unfold fmtFixed; field_simp
    rw [e, abs_div, abs_of_pos hp]
    exact div_le_div_of_nonneg_right hc hp.le
  · intro h
    have : (0 : ℤ) ≤ roundEven (x * 10 ^ d) := le_roundEven (by push_cast; positivity)
    unfold fmtFixed
    have : (0 : ℝ) ≤ (roundEven (x * 10 ^ d) : ℝ) := by exact_mod_cast this
    positivity
  · intro h
    have : roundEven (x * 10 ^ d) ≤ (0 : ℤ) := roundEven_le (by
      push_cast; exact mul_nonpos_of_nonpos_of_nonneg h hp.le)
    unfold fmtFixed
    have : (roundEven (x * 10 ^ d) : ℝ) ≤ 0 := by exact_mod_cast this
    exact div_nonpos_of_nonpos_of_nonneg this hp.le

theorem fmtSci_printed (d : ℕ) (x : ℝ) : PrintedSci d x (fmtSci d x) := by
  by_cases hx : x = 0
  · subst hx
    constructor <;> simp [fmtSci]
  have hax : 0 < |x| := abs_pos.mpr hx
  have hl : (10 : ℝ) ^ (Int.log 10 |x|) ≤ |x| := by
    have := Int.zpow_log_le_self (b := 10) (r := |x|) (by norm_num) hax
    simpa using this
  set e : ℤ := Int.log 10 |x| with he
  have hp : (0 : ℝ) < (10 : ℝ) ^ ((d : ℤ) - e) := by positivity
  have hval : fmtSci d x = roundEven (x * (10 : ℝ) ^ ((d : ℤ) - e)) / (10 : ℝ) ^ ((d : ℤ) - e) := by
    unfold fmtSci; rw [if_neg hx]
  have hc := roundEven_close (x * (10 : ℝ) ^ ((d : ℤ) - e))
  have hbig : (10 : ℝ) ^ (d : ℤ) ≤ |x| * (10 : ℝ) ^ ((d : ℤ) - e) := by
    have : (10 : ℝ) ^ (d : ℤ) = (10 : ℝ) ^ e * (10 : ℝ) ^ ((d : ℤ) - e) := by
      rw [← zpow_add₀ (by norm_num)]; congr 1; ring
    rw [this]
    exact mul_le_mul_of_nonneg_right hl hp.le
  have hone : (1 : ℝ) ≤ (10 : ℝ) ^ (d : ℤ) := by
    rw [zpow_natCast]; exact one_le_pow₀ (by norm_num)
  have hpos : 0 < x → 0 < fmtSci d x := by
    intro h
    rw [abs_of_pos h] at hbig
    have : (1 : ℤ) ≤ roundEven (x * (10 : ℝ) ^ ((d : ℤ) - e)) := le_roundEven (by push_cast; linarith)
    have : (0 : ℝ) < (roundEven (x * (10 : ℝ) ^ ((d : ℤ) - e)) : ℝ) := by exact_mod_cast this
    rw [hval]; positivity
  have hneg : x < 0 → fmtSci d x < 0 := by
    intro h
    rw [abs_of_neg h] at hbig
    have : roundEven (x * (10 : ℝ) ^ ((d : ℤ) - e)) ≤ (-1 : ℤ) := roundEven_le (by push_cast; linarith)
    have : (roundEven (x * (10 : ℝ) ^ ((d : ℤ) - e)) : ℝ) ≤ -1 := by exact_mod_cast this
    rw [hval]
    exact div_neg_of_neg_of_pos (by linarith) hp
  constructor
  · have e1 : fmtSci d x - x =
        ((roundEven (x * (10 : ℝ) ^ ((d : ℤ) - e)) : ℝ) - x * (10 : ℝ) ^ ((d : ℤ) - e)) / (10 : ℝ) ^ ((d : ℤ) - e) := by
      rw [hval]; field_simp
    rw [e1, abs_div, abs_of_pos hp]
    have h10 : (0 : ℝ) < 10 ^ d := by positivity
    rw [div_le_iff₀ hp]
    rw [zpow_natCast] at hbig
    calc _ ≤ (1 / 2 : ℝ) := hc
      _ = 1 / 2 / 10 ^ d * 10 ^ d := by field_simp
      _ ≤ 1 / 2 / 10 ^ d * (|x| * (10 : ℝ) ^ ((d : ℤ) - e)) := mul_le_mul_of_nonneg_left hbig (by positivity)
      _ = _ := by ring
  · refine ⟨hpos, fun h => ?_⟩
    by_contra hc
    rcases (not_lt.mp hc).eq_or_lt with h' | h'
    · exact hx h'
    · linarith [hneg h']
  · refine ⟨hneg, fun h => ?_⟩
    by_contra hc
    rcases (not_lt.mp hc).eq_or_lt with h' | h'
    · exact hx h'.symm
    · linarith [hpos h']

theorem formatRow_printed (r : OutRow) : PrintedRow r (formatRow r) := by
  constructor
  case date_time => rfl
  case cc_s_0 => exact fmtSci_printed 9 _
  case cc_s_l => exact fmtSci_printed 9 _
  case cc_s => exact fmtSci_printed 9 _
  all_goals exact fmtFixed_printed _ _

/-- Three numbers printed with the same number of decimals, of which one is the sum of the others, add up in print but
for one unit of the last digit. -/
theorem printed_sum {d : ℕ} {x a b x' a' b' : ℝ} (hx : Printed d x x') (ha : Printed d a a') (hb : Printed d b b')
    (h : x = a + b) : |x' - (a' + b')| ≤ 1 / 10 ^ d := by
  have hp : (0 : ℝ) < 10 ^ d := by positivity
  obtain ⟨n, hn⟩ := hx.digits
  obtain ⟨k, hk⟩ := ha.digits
  obtain ⟨l, hl⟩ := hb.digits
  have h1 := abs_le.mp hx.close
  have h2 := abs_le.mp ha.close
  have h3 := abs_le.mp hb.close
  have e : x' - (a' + b') = ((n - (k + l) : ℤ) : ℝ) / 10 ^ d := by
    rw [hn, hk, hl]; push_cast; field_simp
  have hu : (1 : ℝ) / 2 / 10 ^ d * 10 ^ d = 1 / 2 := by field_simp
  have em : ((n - (k + l) : ℤ) : ℝ) = (x' - (a' + b')) * 10 ^ d := by rw [e]; field_simp
  have b1 : ((n - (k + l) : ℤ) : ℝ) < 2 := by
    rw [em]
    have : x' - (a' + b') ≤ 3 * (1 / 2 / 10 ^ d) := by linarith [h1.2, h2.1, h3.1]
    nlinarith
  have b2 : (-2 : ℝ) < ((n - (k + l) : ℤ) : ℝ) := by
    rw [em]
    have : -(3 * (1 / 2 / 10 ^ d)) ≤ x' - (a' + b') := by linarith [h1.1, h2.2, h3.2]
    nlinarith
  have c1 : n - (k + l) < 2 := by exact_mod_cast b1
  have c2 : -2 < n - (k + l) := by exact_mod_cast b2
  have c3 : |n - (k + l)| ≤ 1 := by rw [abs_le]; omega
  have c4 : |((n - (k + l) : ℤ) : ℝ)| ≤ 1 := by exact_mod_cast c3
  rw [e, abs_div, abs_of_pos hp]
  exact div_le_div_of_nonneg_right c4 hp.le

theorem forall₂_mem {α β : Type} {R : α → β → Prop} {l : List α} {t : List β} (h : List.Forall₂ R l t) {b : β} (hb : b ∈ t) :
    ∃ a ∈ l, R a b := by
  induction h with
  | nil => cases hb
  | cons h1 _ ih =>
    rcases List.mem_cons.mp hb with rfl | hb
    · exact ⟨_, by simp, h1⟩
    · obtain ⟨o, ho, hx⟩ := ih hb
      exact ⟨o, by simp [ho], hx⟩

/-- C65: formatting the output changes neither the outcome nor the number, the times and the order of the rows, and no
number by more than half a unit of its last printed digit or to the other side of zero; without formatting the table is
written as it is; in printed rows the depths of the two layers add up to the depth of the pack but for one unit of the
last digit (1e-6 m), and so do the masses (1e-3 kg/m²). -/
theorem C65_formatted_table (g : Config) (hmax : 0 < g.max_active) (rows : List RawRow) (file : Option (List OutRow)) :
    runFormatted g false rows file = runTable g rows file ∧
    (runFormatted g true rows file).1 = (runTable g rows file).1 ∧
    (∀ e f, runTable g rows file = (.error e, f) → runFormatted g true rows file = (.error e, f)) ∧
    ∀ t, runTable g rows file = (.ok true, some t) → ∃ t', runFormatted g true rows file = (.ok true, some t') ∧
      List.Forall₂ PrintedRow t t' ∧
      ∀ q ∈ t', |q.z_s - (q.z_s_0 + q.z_s_l)| ≤ 1e-6 ∧ |q.m_s - (q.m_s_0 + q.m_s_l)| ≤ 1e-3 := by
  refine ⟨?_, ?_, ?_, ?_⟩
  · unfold runFormatted
    split
    · rename_i h; rw [h]; rfl
    · rfl
  · unfold runFormatted
    split
    · rename_i h; rw [h]
    · rfl
  · intro e f h
    unfold runFormatted
    rw [h]
  · intro t h
    refine ⟨t.map formatRow, by unfold runFormatted; rw [h]; rfl, ?_, ?_⟩
    · rw [List.forall₂_map_right_iff]
      exact List.forall₂_same.mpr fun r _ => formatRow_printed r
    · intro q hq
      obtain ⟨r, hr, rfl⟩ := List.mem_map.mp hq
      obtain ⟨l, m, t', _, h2, h3, _, _, _, _, perm, hp, hf⟩ := C44_output_table g rows file _ true h
      simp only [Option.some.injEq] at h3
      subst h3
      obtain ⟨o, ho, hro⟩ := forall₂_mem hf hr
      have hc := C14_records_consistent g hmax _ m h2 o (hp.mem_iff.mp ho)
      have p := formatRow_printed r
      constructor
      · have := printed_sum p.z_s p.z_s_0 p.z_s_l (by rw [hro.z_s, hro.z_s_0, hro.z_s_l]; exact hc.depth)
        norm_num at this ⊢; exact this
      · have := printed_sum p.m_s p.m_s_0 p.m_s_l (by rw [hro.m_s, hro.m_s_0, hro.m_s_l]; exact hc.total)
        norm_num at this ⊢; exact this

/-- C65: printing keeps the order of the values of a column and changes nothing in numbers that have no more digits
than are printed; so formatting a formatted table changes nothing in its fixed-point columns. -/
theorem C65_printing_keeps_order (d : ℕ) : (∀ x y : ℝ, x ≤ y → fmtFixed d x ≤ fmtFixed d y) ∧
    (∀ n : ℤ, fmtFixed d (n / 10 ^ d) = n / 10 ^ d) ∧ ∀ x : ℝ, fmtFixed d (fmtFixed d x) = fmtFixed d x := by
  have hp : (0 : ℝ) < 10 ^ d := by positivity
  have h2 : ∀ n : ℤ, fmtFixed d (n / 10 ^ d) = n / 10 ^ d := by
    intro n
    unfold fmtFixed
    rw [div_mul_cancel₀ _ hp.ne', roundEven_int]
  refine ⟨?_, h2, fun x => h2 _⟩
  intro x y h
  unfold fmtFixed
  apply div_le_div_of_nonneg_right _ hp.le
  exact_mod_cast roundEven_mono (mul_le_mul_of_nonneg_right h hp.le)

/-! ## A completed run from table to file -/

/-- A row of calm weather in the units of the input file. -/
def calmRow (t : ℤ) (S_n m_pp ps rho_snow : ℝ) : RawRow :=
  { date_time := t, net_solar := S_n, incoming_thermal := STEF_BOLTZ * FREEZE ^ 4, air_temp := 0, vapor_pressure := 20,
    wind_speed := 0, soil_temp := 0, precip_mass := m_pp, percent_snow := ps, rho_snow := rho_snow, precip_temp := 0 }

/-- The storm followed by `n + 1` quiet hours, as an hourly input table. -/
def stormTable (n : ℕ) : List RawRow :=
  calmRow 0 278 10 (1 / 2) 300 ::
    (List.range (n + 1)).map fun (k : ℕ) => calmRow (60 * ((k : ℤ) + 1)) 0 0 (1 / 2) 300

/-- The storm configuration from minute 0 on for `n` hours. -/
def stormWindow (n : ℕ) : Config := { stormCfg with start_date := 0, end_date := 60 * n }

theorem convert_calm (t : ℤ) (S m ps r : ℝ) : convertRow (calmRow t S m ps r) = calmRec S m ps r := by
  simp [convertRow, calmRow, calmRec]

theorem storm_read (n : ℕ) : read_input_data (stormWindow n) (stormTable n) =
    .ok ((stormTable n).map fun r => (r.date_time, convertRow r)) := by
  have hd : (stormTable n).map (·.date_time) = (List.range (n + 2)).map fun (k : ℕ) => 60 * (k : ℤ) := by
    simp [stormTable, calmRow, List.range_succ_eq_map, Function.comp]
  have hlt : ((stormTable n).map (·.date_time)).Pairwise (· < ·) := by
    rw [hd, List.pairwise_map]
    exact List.pairwise_lt_range.imp fun h => by push_cast; omega
  have hf : firstDelta (stormTable n) = .ok 60 := by
    simp [stormTable, List.range_succ_eq_map, firstDelta, calmRow]
  have hs : (stormTable n).mergeSort (fun a b => decide (a.date_time ≤ b.date_time)) = stormTable n := by
    apply List.mergeSort_of_pairwise
    exact (List.pairwise_map.mp hlt).imp fun h => by simpa using h.le
  unfold read_input_data windowRows
  rw [hf, bind_ok, hs]
  have hw : (stormTable n).filter (fun r => decide ((stormWindow n).start_date ≤ r.date_time ∧
      r.date_time ≤ (stormWindow n).end_date + 60)) = stormTable n := by
    rw [List.filter_eq_self]
    intro r hr
    have : r.date_time ∈ (stormTable n).map (·.date_time) := List.mem_map_of_mem hr
    rw [hd] at this
    obtain ⟨k, hk, e⟩ := List.mem_map.mp this
    have hk := List.mem_range.mp hk
    rw [← e]
    simp [stormWindow]
    omega
  simp only [pure_ok, bind_ok, hw]
  have hn : ((stormTable n).map (·.date_time)).Nodup := hlt.imp fun h => h.ne
  rw [if_pos hn]

/-- A completed run from the input table to the output file, of any length. -/
theorem storm_file (n : ℕ) (file : Option (List OutRow)) : ∃ t, runTable (stormWindow n) (stormTable n) file = (.ok true, some t) ∧
    t.length = n + 1 := by
  obtain ⟨x, ls, m, h1, _⟩ := storm_facts n
  have hrows : ((stormTable n).map fun r => (r.date_time, convertRow r)).map (·.2) =
      stormRec :: quietRec :: List.replicate n quietRec := by
    simp only [stormTable, List.map_cons, List.map_map, convert_calm]
    have : ((fun x : ℤ × Rec => x.2) ∘ (fun r => (r.date_time, convertRow r)) ∘
        fun (k : ℕ) => calmRow (60 * ((k : ℤ) + 1)) 0 0 (1 / 2) 300) = fun _ => quietRec := by
      funext k
      simp [Function.comp, convert_calm, quietRec]
    rw [this, ← List.replicate_succ]
    simp [stormRec]
  obtain ⟨m', hm'⟩ : ∃ m', simulate (stormWindow n) (stormRec :: quietRec :: List.replicate n quietRec) = .ok m' := by
    have : simulate (stormWindow n) (stormRec :: quietRec :: List.replicate n quietRec) =
        simulate stormCfg (stormRec :: quietRec :: List.replicate n quietRec) := rfl
    exact ⟨m, this.trans h1.simulate⟩
  have hlen := C07_normal_count (stormWindow n) rfl _ _ m' hm'
  simp only [List.length_cons, List.length_replicate] at hlen
  have ht : ∃ t, outputTable m'.output_list = .ok t ∧ t.length = m'.output_list.length := by
    cases ho : m'.output_list with
    | nil => rw [ho] at hlen; simp at hlen
    | cons a b => exact ⟨_, rfl, by simp⟩
  obtain ⟨t, ht, hl⟩ := ht
  refine ⟨t, ?_, by omega⟩
  unfold runTable run
  rw [storm_read]
  dsimp only
  rw [hrows, hm']
  dsimp only
  rw [ht]

/-- C44, C63, C65: the hypotheses are met by the storm table, for every length; the printed table has the same rows. -/
example (n : ℕ) : ∃ t t', runTable (stormWindow n) (stormTable n) none = (.ok true, some t) ∧ t.length = n + 1 ∧
    runFormatted (stormWindow n) true (stormTable n) none = (.ok true, some t') ∧ List.Forall₂ PrintedRow t t' ∧
    0 < (stormWindow n).max_active := by
  obtain ⟨t, ht, hl⟩ := storm_file n none
  have hmax : 0 < (stormWindow n).max_active := stormCfg_ok.2.2.1
  obtain ⟨t', h1, h2, _⟩ := (C65_formatted_table (stormWindow n) hmax (stormTable n) none).2.2.2 t ht
  exact ⟨t, t', ht, hl, h1, h2, hmax⟩

end

end Pysnobal
