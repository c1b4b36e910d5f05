import Verif.Props.Energy
import Verif.Props.Mass
import Verif.Lemmas.StepRecords
import Verif.Lemmas.Records
import Verif.Lemmas.WitnessRich

/-! # C40: the unit of the initial snow temperatures -/

namespace Pysnobal

noncomputable section

/-- A physics step that completes with snow on the ground started from positive temperatures. -/
theorem stepPhys_temps {c : Env} {dt : ℝ} {dl : InputData} {p p' : Phys} (h : stepPhys c dt dl p = .ok p')
    (hl : 0 < p.snow.layer_count) :
    0 < p.snow.t_s_0 ∧ (p.snow.layer_count = 2 → 0 < p.snow.t_s_l) := by
  rcases stepPhys_energy h with ⟨_, r, p1, G, G0, M, k1, k2, _⟩ | ⟨h0, _⟩
  · constructor
    · obtain ⟨sv, es, _, e2, _⟩ := h_le_ok k1
      exact sati_pos e2
    · intro h2
      unfold heat_transfer at k2
      rw [if_neg (by omega)] at k2
      obtain ⟨g, hg, _⟩ := bind_eq_ok.mp k2
      unfold g_soil at hg
      dsimp only at hg
      rw [if_neg (by decide)] at hg
      obtain ⟨es, hes, _⟩ := bind_eq_ok.mp hg
      exact sati_pos hes
  · omega

/-- Every data step of a completed simulation executes at least one run step. -/
theorem RunTrace.first {g : Config} (hg : g.Tiled) {r1 r2 : Rec} {rs : List Rec}
    {ls : List (List (RStep Phys))} {m : Model} (h : RunTrace g (r1 :: r2 :: rs) ls m) :
    ∃ l ∈ ls, ∃ x, x ∈ l := by
  obtain ⟨c, ts, i1, m0, r, rs', e0, e1, e2, e3, e4, e5⟩ := h
  have ht := parse_tile hg e1
  obtain ⟨_, _, k2, _⟩ := mkModel_ok e4
  cases e0
  cases e5 with
  | cons a1 a2 a3 a4 =>
    obtain ⟨_, hne, _⟩ := executed_records ht k2 a3
    obtain ⟨x, hx⟩ := List.exists_mem_of_ne_nil _ hne
    exact ⟨_, by simp, x, hx⟩

/-- The initial pack described by the configuration is kept: it is heavier than the smallest threshold. -/
def Config.StartsSnowy (g : Config) : Prop := g.small_threshold < g.init_rho * g.init_z_s ∧ 0 < g.init_z_s

/-- The initial pack is split into two layers: below the active layer there is at least the smallest
threshold of snow. -/
def Config.StartsDeep (g : Config) : Prop :=
  0 < g.init_z_s - g.max_active ∧ g.small_threshold ≤ (g.init_z_s - g.max_active) * g.init_rho

/-- C40, surface layer: the documented unit of `t_s_0` is Celsius, but a simulation that starts with snow
cannot complete a single data step unless `t_s_0` is positive.  Every freezing initial surface temperature in
Celsius, including the default 0, is rejected: `run` raises and leaves the output file alone. -/
theorem C40_surface_temperature (g : Config) (hg : g.Tiled) (hmax : 0 < g.max_active) (hs : g.StartsSnowy)
    (ht : g.init_t_s_0 ≤ 0) (r1 r2 : Rec) (rs : List Rec) :
    ∃ e, simulate g (r1 :: r2 :: rs) = .error e ∧
      ∀ file, run g (r1 :: r2 :: rs) file = (.error e, file) := by
  cases h : simulate g (r1 :: r2 :: rs) with
  | error e => exact ⟨e, rfl, fun file => by simp [run, h]⟩
  | ok m =>
    exfalso
    obtain ⟨ls, htr⟩ := simulate_trace h
    obtain ⟨c, ts, hc, hts, hx⟩ := trace_phys htr
    obtain ⟨l, hl, x, hxl⟩ := htr.first hg
    have key := htr.induct (P := fun s => 0 < s.layer_count ∧ s.t_s_0 ≤ 0)
      (fun c s hc hs0 => by
        have hm : 0 < c.max_z_s_0 := by rw [(mkEnv_ok hc).1]; exact hmax
        have hst : c.small_threshold = g.small_threshold := (mkEnv_ok hc).2.1
        rcases init_snow_out hm hs0 with k | k
        · obtain ⟨_, _, d, _, _, _, _, _, k1, _, _, _, _, _, _, k2, _⟩ := k
          refine ⟨Nat.pos_of_ne_zero fun h0 => ?_, by rw [k2]; exact ht⟩
          exact absurd (lc_eq_zero.mp h0).1 (not_le.mpr k1)
        · rcases k.1 with k | k
          · rw [hst] at k; exact absurd hs.1 (not_lt.mpr k)
          · exact absurd hs.2 (not_lt.mpr k))
      (fun l hl x hxl ⟨h1, h2⟩ => by
        obtain ⟨d, hst⟩ := hx l hl x hxl
        exact absurd (stepPhys_temps hst h1).1 (not_lt.mpr h2))
    obtain ⟨h1, h2⟩ := (key.2 l hl x hxl).1
    obtain ⟨d, hst⟩ := hx l hl x hxl
    exact absurd (stepPhys_temps hst h1).1 (not_lt.mpr h2)

/-- C40, lower layer: `t_s_l` is not among the documented initial properties; when it is missing, or not
positive, a simulation that starts with two layers cannot complete a data step either. -/
theorem C40_lower_temperature (g : Config) (hg : g.Tiled) (hmax : 0 < g.max_active) (hs : g.StartsSnowy)
    (hd : g.StartsDeep) (hl : ∀ t, g.init_t_s_l = some t → t ≤ 0) (r1 r2 : Rec) (rs : List Rec) :
    ∃ e, simulate g (r1 :: r2 :: rs) = .error e ∧
      ∀ file, run g (r1 :: r2 :: rs) file = (.error e, file) := by
  cases h : simulate g (r1 :: r2 :: rs) with
  | error e => exact ⟨e, rfl, fun file => by simp [run, h]⟩
  | ok m =>
    exfalso
    obtain ⟨ls, htr⟩ := simulate_trace h
    obtain ⟨c, ts, hc, hts, hx⟩ := trace_phys htr
    obtain ⟨l, hl', x, hxl⟩ := htr.first hg
    have key := htr.induct (P := fun s => s.layer_count = 2 ∧ s.t_s_l ≤ 0)
      (fun c s hc hs0 => by
        obtain ⟨q1, q2, _⟩ := mkEnv_ok hc
        have hm : 0 < c.max_z_s_0 := by rw [q1]; exact hmax
        have h2 : ((Snow.calc_layers c { recordSnow g with m_s := g.init_rho * g.init_z_s })).layer_count = 2 := by
          unfold Snow.calc_layers
          rw [if_neg (by rw [q2]; exact not_le.mpr hs.1)]
          have a1 : 0 < g.init_z_s - c.max_z_s_0 := by rw [q1]; exact hd.1
          have a2 : ¬ (g.init_z_s - c.max_z_s_0) * g.init_rho < c.small_threshold := by
            rw [q1, q2]; exact not_lt.mpr hd.2
          show Snow.layer_count { recordSnow g with
              m_s := _, z_s := _, z_s_0 := _, z_s_l := _ } = 2
          simp only [recordSnow]
          rw [lc_eq_two]
          simp only [gt_iff_lt, a1, if_true, a2, if_false]
          exact ⟨hm, trivial⟩
        have e : init_snow c (recordSnow g) =
            initLayers c (Snow.calc_layers c { recordSnow g with m_s := g.init_rho * g.init_z_s }) := rfl
        rcases init_snow_out hm hs0 with k | k
        · obtain ⟨_, _, d, _, _, _, _, _, _, _, _, _, _, _, _, _, _, k3, _⟩ := k
          rcases k3 with k3 | k3
          · exfalso
            rw [e] at hs0
            unfold initLayers at hs0
            rw [if_neg (by omega)] at hs0
            unfold initWater at hs0
            dsimp only at hs0
            obtain ⟨dd, hdd, hs0⟩ := bind_eq_ok.mp hs0
            simp only [pure_ok] at hs0
            have : s.layer_count = (Snow.calc_layers c { recordSnow g with m_s := g.init_rho * g.init_z_s }).layer_count := by
              rw [← Except.ok.inj hs0]; rfl
            omega
          · refine ⟨k3.1, ?_⟩
            rw [k3.2.1]
            show g.init_t_s_l.getD 0 ≤ 0
            cases hh : g.init_t_s_l with
            | none => simp
            | some t => simpa using hl t hh
        · rcases k.1 with k | k
          · rw [q2] at k; exact absurd hs.1 (not_lt.mpr k)
          · exact absurd hs.2 (not_lt.mpr k))
      (fun l hl x hxl ⟨h1, h2⟩ => by
        obtain ⟨d, hst⟩ := hx l hl x hxl
        exact absurd ((stepPhys_temps hst (by omega)).2 h1) (not_lt.mpr h2))
    obtain ⟨h1, h2⟩ := (key.2 l hl' x hxl).1
    obtain ⟨d, hst⟩ := hx l hl' x hxl
    exact absurd ((stepPhys_temps hst (by omega)).2 h1) (not_lt.mpr h2)

/-- A configuration with 100 kg/m² of snow at -2 °C as documented, and one with 2 m of snow without a
temperature for the lower layer: both fail.  The same pack with its temperature in Kelvin runs (`storm_run`). -/
example (r1 r2 : Rec) (rs : List Rec) :
    (∃ e, simulate { stormCfg with init_t_s_0 := -2 } (r1 :: r2 :: rs) = .error e) ∧
    (∃ e, simulate { stormCfg with init_z_s := 2 } (r1 :: r2 :: rs) = .error e) ∧
    (∃ m, simulate stormCfg [stormRec, quietRec] = .ok m) := by
  refine ⟨?_, ?_, ?_⟩
  · obtain ⟨e, h, _⟩ := C40_surface_temperature { stormCfg with init_t_s_0 := -2 }
      (calmCfg_tiled 60 0.01 (1 / 6) 600 0) (by norm_num [stormCfg, calmCfg, defaultSteps])
      ⟨by norm_num [stormCfg, calmCfg, defaultSteps], by norm_num [stormCfg, calmCfg, defaultSteps]⟩
      (by norm_num) r1 r2 rs
    exact ⟨e, h⟩
  · obtain ⟨e, h, _⟩ := C40_lower_temperature { stormCfg with init_z_s := 2 }
      (calmCfg_tiled 60 0.01 (1 / 6) 600 0) (by norm_num [stormCfg, calmCfg, defaultSteps])
      ⟨by norm_num [stormCfg, calmCfg, defaultSteps], by norm_num⟩
      ⟨by norm_num [stormCfg, calmCfg, defaultSteps], by norm_num [stormCfg, calmCfg, defaultSteps]⟩
      (fun t h => by simp [stormCfg, calmCfg, defaultSteps] at h) r1 r2 rs
    exact ⟨e, h⟩
  · obtain ⟨x, ls, m, h, _⟩ := storm_run 0
    exact ⟨m, h.simulate⟩

end

end Pysnobal
