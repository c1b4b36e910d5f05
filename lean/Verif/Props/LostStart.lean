import Verif.Props.Bare
import Verif.Lemmas.Follow

/-! # C98: an initial snow cover too light to form a layer is lost -/

namespace Pysnobal

noncomputable section

/-! ## Specification -/

/-- The same configuration with another initial snow cover: depth, density, temperatures (of the surface layer, of the lower layer, mean)
and saturation. -/
def Config.withStart (g : Config) (z rho t_0 t sat : ℝ) (t_l : Option ℝ) : Config :=
  { g with init_z_s := z, init_rho := rho, init_t_s_0 := t_0, init_t_s := t, init_h2o_sat := sat, init_t_s_l := t_l }

/-- The configured initial snow does not exceed the small mass threshold. -/
def Config.StartsLight (g : Config) : Prop := g.init_rho * g.init_z_s ≤ g.small_threshold

/-! ## Proof -/

/-- Bare ground with `w` kg/m² of water on it. -/
def bareSnow (w : ℝ) : Snow :=
  { Snow.zero with t_s := MIN_SNOW_TEMP + FREEZE, t_s_0 := MIN_SNOW_TEMP + FREEZE, t_s_l := MIN_SNOW_TEMP + FREEZE, h2o_total := w }

theorem init_light {g : Config} (h : g.StartsLight) {c : Env} (hc : mkEnv g = .ok c) : ∃ w, init_snow c (recordSnow g) = .ok (bareSnow w) := by
  have hthr := (mkEnv_ok hc).2.1
  have e : Snow.calc_layers c { recordSnow g with m_s := (recordSnow g).rho * (recordSnow g).z_s } =
      { recordSnow g with m_s := (recordSnow g).rho * (recordSnow g).z_s, z_s := 0 + 0, z_s_0 := 0, z_s_l := 0 } := by
    unfold Snow.calc_layers
    rw [if_pos (by rw [hthr]; exact h)]
  refine ⟨if g.init_rho * g.init_z_s > 0 then 0 + g.init_rho * g.init_z_s else 0, ?_⟩
  unfold init_snow initLayers
  rw [e, if_pos (by simp [Snow.layer_count])]
  unfold initBare recordSnow bareSnow Snow.zero
  simp only [add_zero]

theorem stepPhys_water (c : Env) (dt w : ℝ) (dl : InputData) (p : Phys) :
    stepPhys c dt dl { p with snow := { p.snow with h2o_total := w } } = stepPhys c dt dl p := by
  unfold stepPhys
  cases hp : p.input1.precip_now <;> simp only [Bool.false_eq_true, if_false, if_true] <;> rfl

/-- A data step does not see how much water is left on bare ground. -/
theorem data_water {c : Env} {ts : Tsteps} (ht : TileOK ts) (all : Bool) (i1 i2 : InputData) (m : Model) (h : m.phys.snow.layer_count = 0) (w : ℝ) :
    do_data_tstep c ts all i1 i2 { m with phys := { m.phys with snow := { m.phys.snow with h2o_total := w } } } = do_data_tstep c ts all i1 i2 m := by
  unfold do_data_tstep
  refine congrArg (Bind.bind _) (funext fun dl => ?_)
  have key : ∀ st : Model, st.phys.snow.layer_count = 0 → (snobalSim c ts all dl).data_tstep st =
      ((snobalSim c ts all dl).do_tstep .normal st >>= fun s => if (snobalSim c ts all dl).output_divided = false then (snobalSim c ts all dl).output s else .ok s) := by
    intro st hs
    rw [data_tstep_eq]
    unfold Sim.normalBlock
    rw [show ((snobalSim c ts all dl).intervals .normal).toNat = 1 by show (ts .normal).intervals.toNat = 1; rw [ht.n_normal]; rfl]
    have hb : (snobalSim c ts all dl).below .normal st.phys = false := bare_below _ hs
    simp only [iterM, hb, Bool.false_eq_true, if_false]
    cases (snobalSim c ts all dl).do_tstep .normal st <;> rfl
  refine (key _ (by exact h)).trans (Eq.trans ?_ (key _ (by exact h)).symm)
  refine congrArg (· >>= _) ?_
  rw [do_tstep_eq, do_tstep_eq]
  have : (snobalSim c ts all dl).phys .normal { m.phys with snow := { m.phys.snow with h2o_total := w }, input1 := i1 } =
      (snobalSim c ts all dl).phys .normal { m.phys with input1 := i1 } :=
    stepPhys_water c _ w _ { m.phys with input1 := i1 }
  exact congrArg (· >>= _) this

/-- C98: if the configured initial snow does not exceed the small mass threshold, then it has no effect whatsoever: the run over any
table of at least two rows has the same outcome - the same exception, or the same final state and the same records - as with any other
initial snow cover that does not, for instance none.  Its mass is neither stored nor reported as runoff. -/
theorem C98_light_start_lost (g : Config) (hg : g.Tiled) (z rho t_0 t sat : ℝ) (t_l : Option ℝ) (h : g.StartsLight)
    (h' : (g.withStart z rho t_0 t sat t_l).StartsLight) (r1 r2 : Rec) (rs : List Rec) :
    simulate (g.withStart z rho t_0 t sat t_l) (r1 :: r2 :: rs) = simulate g (r1 :: r2 :: rs) ∧
    ∀ file, run (g.withStart z rho t_0 t sat t_l) (r1 :: r2 :: rs) file = run g (r1 :: r2 :: rs) file := by
  have hs : simulate (g.withStart z rho t_0 t sat t_l) (r1 :: r2 :: rs) = simulate g (r1 :: r2 :: rs) := by
    unfold simulate
    dsimp only
    rw [show parse_time_steps (g.withStart z rho t_0 t sat t_l) = parse_time_steps g from rfl, show mkEnv (g.withStart z rho t_0 t sat t_l) = mkEnv g from rfl]
    cases hts : parse_time_steps g with
    | error e => rfl
    | ok ts =>
      have ht := parse_tile hg hts
      simp only [bind_ok]
      cases InputData.new r1 with
      | error e => rfl
      | ok i1 =>
        simp only [bind_ok]
        cases hc : mkEnv g with
        | error e => rfl
        | ok c =>
          simp only [bind_ok]
          obtain ⟨w, e⟩ := init_light h hc
          obtain ⟨w', e'⟩ := init_light h' (c := c) hc
          unfold mkModel
          rw [e, e', bind_ok, bind_ok]
          simp only [pure_ok, bind_ok]
          unfold runSteps
          cases InputData.new r2 with
          | error e => rfl
          | ok i2 =>
            simp only [bind_ok]
            refine congrArg (· >>= _) ?_
            exact data_water ht g.output_all i1 i2 { phys := { snow := bareSnow w, input1 := i1, init_ustar := none, init_factor := none }, acc := { acc := { bar := Energy.zero, melt_sum := 0, E_s_sum := 0, swi_sum := none }, time_since_out := 0 }, current_datetime := g.start_date, output_list := [] } (by simp [bareSnow, Snow.zero, Snow.layer_count]) w'
  refine ⟨hs, fun file => ?_⟩
  unfold run
  rw [hs]

end

end Pysnobal
