import Verif.Lemmas.NanHistory
import Verif.Props.MissingRun

/-! # C78: what a missing value does to the snow

The forcing of a data step is a row of the table (`NRec`), each value a number or missing (`none`, what pandas reads from
an empty cell: `nan`).  `Nan.simulate` is the program on such rows; on complete rows it is the program on numbers
(`C77_complete_forcing_run`). -/

namespace Pysnobal

noncomputable section

open Classical

/-- Wind, air temperature, vapour pressure or ground temperature is missing. -/
def NRec.BlankAir (n : NRec) : Prop := n.u = none ∨ n.t_a = none ∨ n.e_a = none ∨ n.t_g = none

/-- Net solar or incoming long-wave radiation is missing. -/
def NRec.BlankRadiation (n : NRec) : Prop := n.S_n = none ∨ n.I_lw = none

/-- The row does not say that snow falls: precipitation or its snow share is missing or not positive. -/
def NRec.NoSnowfall (n : NRec) : Prop := ∀ m f, n.m_pp = some m → n.percent_snow = some f → 0 < m → f ≤ 0

namespace Nan

theorem bare_on {g : Config} (hg : g.Tiled) {rows : List NRec} {n1 : NRec} (later : List NRec) : ∀ {n2 : NRec} {m : Model},
    simulate g (rows ++ [n1] ++ later ++ [n2]) = .ok m → n1.NoSnowfall → (∀ n ∈ later, n.NoSnowfall) →
    (∀ m0, simulate g (rows ++ [n1]) = .ok m0 → m0.phys.snow.layer_count = 0 ∨ n1.u = none ∨ n1.t_a = none ∨
      n1.e_a = none ∨ n1.t_g = none ∨ m0.phys.snow.t_s_0 = none) →
    ∃ m0, simulate g (rows ++ [n1]) = .ok m0 ∧ m.phys.Zero ∧ AddsBare True m0.output_list m.output_list := by
  induction later using List.reverseRecOn with
  | nil =>
    intro n2 m e hs _ hb
    rw [List.append_nil] at e
    obtain ⟨c, ts, m0, i1, i2, ht, e0, hB, h1, h2, e3⟩ := simulate_snoc hg e
    obtain ⟨z, a⟩ := data_nan ht h1 hs hB (hb m0 e0) e3
    exact ⟨m0, e0, z, a⟩
  | append_singleton later x ih =>
    intro n2 m e hs hl hb
    rw [← List.append_assoc (rows ++ [n1]) later [x]] at e
    obtain ⟨c, ts, m1, i1, i2, ht, e1, hB, h1, h2, e3⟩ := simulate_snoc hg e
    obtain ⟨m0, e0, z, a⟩ := ih e1 hs (fun n hn => hl n (by simp [hn])) hb
    obtain ⟨z', a'⟩ := data_nan ht h1 (hl x (by simp)) hB (.inl z.1) e3
    exact ⟨m0, e0, z', (a.trans a').mono .inl⟩

/-! ### The output only grows -/

theorem runs_output {c : Env} {ts : Tsteps} {all : Bool} {dl : Level → NInput} {st st' : Model} {l : List (RStep Phys)}
    (h : (snobalSim c ts all dl).Runs st l st') : st.output_list <+: st'.output_list := by
  induction h with
  | nil => exact List.prefix_refl _
  | enter _ ih => exact ih
  | step hb hp hd hr ih =>
    obtain ⟨p2, a, q1, q2, q3, q4, q5⟩ := do_tstep_ok hd
    refine List.IsPrefix.trans ?_ ih
    rcases q5 with ⟨_, r, _, ho, _⟩ | ⟨_, ho, _⟩
    · rw [ho]; exact List.prefix_append _ _
    · rw [ho]

theorem data_output {c : Env} {ts : Tsteps} (ht : TileOK ts) {all : Bool} {i1 i2 : NInput} {m m' : Model}
    (e : do_data_tstep c ts all i1 i2 m = .ok m') : m.output_list <+: m'.output_list := by
  obtain ⟨dl, l, mid, hd, hr, hl, hp, ho, ho'⟩ := data_parts ht e
  have := runs_output hr
  cases all with
  | true => rw [ho rfl]; exact this
  | false =>
    obtain ⟨r, hr, _⟩ := ho' rfl
    rw [hr]
    exact this.trans (List.prefix_append _ _)

theorem simulate_output {g : Config} (hg : g.Tiled) {rows : List NRec} (h0 : rows ≠ []) (more : List NRec) : ∀ {m : Model},
    simulate g (rows ++ more) = .ok m → ∃ m0, simulate g rows = .ok m0 ∧ m0.output_list <+: m.output_list := by
  induction more using List.reverseRecOn with
  | nil =>
    intro m e
    rw [List.append_nil] at e
    exact ⟨m, e, List.prefix_refl _⟩
  | append_singleton more x ih =>
    intro m e
    rw [← List.append_assoc] at e
    obtain ⟨l, y, hy⟩ : ∃ l y, rows ++ more = l ++ [y] := by
      rcases List.eq_nil_or_concat (rows ++ more) with h | ⟨l, y, h⟩
      · exact absurd (List.append_eq_nil_iff.mp h).1 h0
      · exact ⟨l, y, by simpa using h⟩
    rw [hy] at e
    obtain ⟨c, ts, m1, i1, i2, ht, e1, hB, h1, h2, e3⟩ := simulate_snoc hg e
    rw [← hy] at e1
    obtain ⟨m0, e0, hp⟩ := ih e1
    exact ⟨m0, e0, hp.trans (data_output ht e3)⟩

end Nan

/-! ### One step -/

/-- C78, one run step: if wind, air temperature, humidity or ground temperature is missing and no snow falls, the snow is
gone at the end of the step, whatever lay there.  Either the mass balance had used it up before evaporation was due, or
its mass is set to zero although it has not left as water: the water outflow of the step is not a positive number, and
the evaporation that would account for it is missing. -/
theorem C78_missing_air_ends_snow {c : Env} {dt : ℝ} {dl : NInput} {p p' : Nan.Phys}
    (hl : 0 < p.snow.layer_count)
    (hw : p.input1.precip_now = true → ¬NVal.lt (some 0) dl.m_snow)
    (hn : p.input1.u = none ∨ p.input1.t_a = none ∨ p.input1.e_a = none ∨ p.input1.t_g = none)
    (e : Nan.stepPhys c dt dl p = .ok p') :
    p'.snow.layer_count = 0 ∧ p'.snow.m_s = some 0 ∧
    (p'.snow.E_s = some 0 ∨
      p'.snow.E_s = none ∧ p'.snow.z_s = none ∧ p'.snow.rho = some 0 ∧ p'.snow.h2o = some 0 ∧
      ¬NVal.lt (some 0) p'.snow.swi) := by
  obtain ⟨h1, h2, h3⟩ := Nan.step_nan (fun h => absurd h hl.ne') hw
    (.inr (hn.imp id (.imp id (.imp id .inl)))) e
  refine ⟨h1, h2, ?_⟩
  rcases h3 hl with h | ⟨b, bz, be, bs⟩
  · exact .inl h
  · exact .inr ⟨be, bz, b.2.2.2.2.1, b.2.2.2.2.2.1, bs⟩

/-- C78, one run step: if radiation is missing and no snow falls, the snow is gone at the end of the step or its
temperature and cold content are missing. -/
theorem C78_missing_radiation {c : Env} {dt : ℝ} {dl : NInput} {p p' : Nan.Phys} (hl : 0 < p.snow.layer_count)
    (hw : p.input1.precip_now = true → ¬NVal.lt (some 0) dl.m_snow)
    (hn : p.input1.S_n = none ∨ p.input1.I_lw = none) (e : Nan.stepPhys c dt dl p = .ok p') :
    p'.snow.layer_count = 0 ∨ (p'.snow.t_s_0 = none ∧ p'.snow.t_s = none ∧ p'.snow.cc_s_0 = none) :=
  Nan.step_rad (fun h => absurd h hl.ne') hw hn e

/-- C78, one run step: if the temperature of the snow is missing and there is no precipitation, a snowcover below the
density limit of compaction runs off, all of it, in that step, although nothing melts. -/
theorem C78_missing_temperature_drains {c : Env} {dt : ℝ} {dl : NInput} {p p' : Nan.Phys} {m ρ : ℝ}
    (hl : 0 < p.snow.layer_count) (ht : p.snow.t_s = none) (hm : p.snow.m_s = some m) (h0 : 0 < m)
    (hth : c.small_threshold < m) (hρ : p.snow.rho = some ρ) (hρ' : ρ < RHO_MAX) (hp : p.input1.precip_now = false)
    (e : Nan.stepPhys c dt dl p = .ok p') :
    p'.snow.layer_count = 0 ∧ p'.snow.m_s = some 0 ∧ p'.snow.swi = some m ∧ p'.snow.melt = some 0 ∧
      p'.snow.E_s = some 0 := by
  obtain ⟨b, _, k1, k2, k3⟩ := Nan.step_drain hl ht hm h0 hth hρ hρ' hp e
  exact ⟨b.1, b.2.2.1, k1, k2, k3⟩

/-! ### A run -/

/-- C78: one blank cell in the wind, air temperature, humidity or ground temperature of one row: if the run completes, then
from that row on every record shows bare ground until it snows again, whatever lay there and however long the later
rows, complete or not, go on. -/
theorem C78_run_missing_air {g : Config} (hg : g.Tiled) {rows later : List NRec} {n1 n2 : NRec} {m : Nan.Model}
    (hb : n1.BlankAir) (h1 : n1.NoSnowfall) (hl : ∀ n ∈ later, n.NoSnowfall)
    (e : Nan.simulate g (rows ++ [n1] ++ later ++ [n2]) = .ok m) :
    m.phys.snow.layer_count = 0 ∧ m.phys.snow.m_s = some 0 ∧
    ∃ before new, (∃ m0, Nan.simulate g (rows ++ [n1]) = .ok m0 ∧ m0.output_list = before) ∧
      m.output_list = before ++ new ∧ new ≠ [] ∧ ∀ r ∈ new, r.layer_count = 0 ∧ r.m_s = some 0 := by
  obtain ⟨m0, e0, z, a, h3, h4, h5⟩ := Nan.bare_on hg later e h1 hl
    (fun m0 _ => .inr (hb.imp id (.imp id (.imp id .inl))))
  exact ⟨z.1, z.2, m0.output_list, a, ⟨m0, e0, rfl⟩, h3, h5 trivial, h4⟩

/-- C78: one blank radiation cell: when the next row's interval has been computed, the snow is gone, and stays gone until
it snows again. -/
theorem C78_run_missing_radiation {g : Config} (hg : g.Tiled) {rows later : List NRec} {n0 n1 n2 : NRec}
    {m : Nan.Model} (hb : n0.BlankRadiation) (h0 : n0.NoSnowfall) (h1 : n1.NoSnowfall) (hl : ∀ n ∈ later, n.NoSnowfall)
    (e : Nan.simulate g (rows ++ [n0] ++ [n1] ++ later ++ [n2]) = .ok m) :
    m.phys.snow.layer_count = 0 ∧ m.phys.snow.m_s = some 0 ∧
    ∃ before new, (∃ m0, Nan.simulate g (rows ++ [n0] ++ [n1]) = .ok m0 ∧ m0.output_list = before) ∧
      m.output_list = before ++ new ∧ new ≠ [] ∧ ∀ r ∈ new, r.layer_count = 0 ∧ r.m_s = some 0 := by
  obtain ⟨m0, e0, z, a, h3, h4, h5⟩ := Nan.bare_on hg later e h1 hl (fun m0 e0 => by
    obtain ⟨c, ts, mm, i1, i2, ht, _, hB, k1, k2, e3⟩ := Nan.simulate_snoc hg e0
    rcases Nan.data_rad ht k1 h0 hB hb e3 with h | h
    · exact .inl h
    · exact .inr (.inr (.inr (.inr (.inr h)))))
  exact ⟨z.1, z.2, m0.output_list, a, ⟨m0, e0, rfl⟩, h3, h5 trivial, h4⟩

/-- C78: before the first row with a blank nothing changes: the complete rows at the head of the table are computed, and
put out, as if they were the whole table. -/
theorem C78_before_the_blank {g : Config} (hg : g.Tiled) {rows : List Rec} (h0 : rows ≠ []) {more : List NRec} {m : Nan.Model}
    (e : Nan.simulate g (rows.map Rec.cells ++ more) = .ok m) :
    ∃ m0, simulate g rows = .ok m0 ∧ m0.output_list.map Nan.OutRec.ofReal <+: m.output_list := by
  obtain ⟨m1, e1, hp⟩ := Nan.simulate_output hg (by simpa using h0) more e
  have h := Nan.simulate_s g (fun ts _ => Nan.faithful_cells ts)
      (List.forall₂_map_left_iff.mpr (List.forall₂_same.mpr fun (x : Rec) (_ : x ∈ rows) => rfl))
  rw [e1] at h
  cases hr : simulate g rows with
  | error x => rw [hr] at h; exact h.elim
  | ok m0 =>
    rw [hr] at h
    refine ⟨m0, rfl, ?_⟩
    rw [← h.2.2.2.2.2]
    exact hp

end

end Pysnobal
