import Verif.Lemmas.MassTies
import Verif.Props.Failure

/-! # C81: running out of snow raises only on an exact tie -/

namespace Pysnobal

noncomputable section

/-- C81, the mass balance: for a consistent pack of positive mass (and for bare ground), whatever the fluxes melt,
evaporate or drain, the mass balance of a run step raises if and only if the mass of a pack of positive depth is
exactly zero after evaporation, or after runoff while its temperature still has to be computed; and what it raises is
a division by zero. -/
theorem C81_mass_balance_raises (c : Env) (hc : c.OK) (hv : 0 < c.max_h2o_vol) (i : InputData) (dt : ℝ)
    (hdt : 0 < dt) (hi : SoilOK c i) (hf : i.precip_now = true → StepForcing i) (s : Snow) (h : PackStart c s)
    (e : Err) : mass_balance c i dt s = .error e ↔ e = .zeroDivision ∧ UsedUp c i dt s :=
  mass_balance_raises hc hv hdt hi hf h e

theorem stepPhys_eq (c : Env) (dt : ℝ) (dl : InputData) (p : Phys) :
    stepPhys c dt dl p = (do
      let p1 ← energy_balance c dt (stepStart dl p)
      let s ← mass_balance c p1.input1 dt p1.snow
      pure { p1 with snow := s }) := by
  have e0 : (if p.input1.precip_now then { p with input1 := p.input1.update_precip_deltas dl } else p) =
      { p with input1 := applied dl p.input1 } := by
    unfold applied
    split <;> rfl
  unfold stepPhys
  rw [e0]
  rfl

/-- The energy balance fails with the exception of the turbulent-transfer routine. -/
theorem energy_balance_raises {c : Env} (hc : c.OK) {dt : ℝ} (hdt : 0 < dt) {p : Phys}
    (h : EnergyStart c p.input1 p.snow) (e : Err) :
    energy_balance c dt p = .error e ↔ 0 < p.snow.layer_count ∧ h_le c p = .error e := by
  by_cases hl : 0 < p.snow.layer_count
  · cases hh : h_le c p with
    | ok r =>
      obtain ⟨p', hp'⟩ := (C52_energy_balance_completes c hc dt hdt p h hl).mpr ⟨r, hh⟩
      rw [hp']
      simp only [reduceCtorEq, and_false]
    | error e' =>
      have : energy_balance c dt p = .error e' := by
        unfold energy_balance
        rw [if_pos hl]
        dsimp only
        rw [hh]
        rfl
      rw [this]
      simp only [hl, true_and, Except.error.injEq]
  · unfold energy_balance
    rw [if_neg hl]
    simp only [reduceCtorEq, hl, false_and]

/-- What the energy balance leaves of the state with which the step starts. -/
theorem energy_balance_pack {c : Env} (hc : c.OK) {dt : ℝ} {dl : InputData} {p p1 : Phys}
    (h : EnergyStart c (applied dl p.input1) p.snow) (hh : 0 ≤ p.snow.h2o)
    (hf : (applied dl p.input1).precip_now = true → StepForcing (applied dl p.input1))
    (h1 : energy_balance c dt (stepStart dl p) = .ok p1) :
    SoilOK c p1.input1 ∧ (p1.input1.precip_now = true → StepForcing p1.input1) ∧ PackStart c p1.snow := by
  have e := energy_balance_snow h1
  have ein : p1.input1 = { applied dl p.input1 with e_a := p1.input1.e_a } := by
    rcases energy_balance_ok h1 with ⟨_, r, p2, _, _, _, k1, _, _, k2⟩ | ⟨_, k⟩
    · obtain ⟨sv, _, _, _, e1, _⟩ := h_le_ok k1
      rw [k2]
      show p2.input1 = _
      rw [e1]; rfl
    · rw [k]; rfl
  have i0 : Inv c p1.snow := by
    rw [e]
    exact (start_inv hc.max_z h.inv).frame ⟨rfl, rfl, rfl⟩ ⟨rfl, rfl, rfl, rfl⟩
      (fun _ => ⟨rfl, rfl, rfl, rfl, rfl, rfl⟩) (fun _ => ⟨rfl, rfl⟩) (start_inv hc.max_z h.inv).flag
  have g : p1.snow.layer_count = p.snow.layer_count ∧ p1.snow.m_s = p.snow.m_s ∧ p1.snow.h2o = p.snow.h2o ∧
      p1.snow.t_s = p.snow.t_s ∧ p1.snow.t_s_0 = p.snow.t_s_0 ∧ p1.snow.t_s_l = p.snow.t_s_l ∧
      p1.snow.h2o_total = 0 ∧ p1.snow.snowcover = decide (0 < p.snow.layer_count) := by
    rw [e]; exact ⟨rfl, rfl, rfl, rfl, rfl, rfl, rfl, rfl⟩
  obtain ⟨g1, g2, g3, g4, g5, g6, g8, g9⟩ := g
  have hl : p1.snow.snowcover = true → 0 < p.snow.layer_count := fun hs => by
    rw [g9] at hs; exact of_decide_eq_true hs
  refine ⟨?_, ?_, i0, by rw [g9, g1], g8, by rw [g3]; exact hh, fun hs => by rw [g2]; exact h.mass (hl hs),
    fun hs => ?_⟩
  · rw [ein]; exact ⟨h.soil.z_g, h.soil.press, h.soil.warm, h.soil.vapour⟩
  · rw [ein]
    intro hp
    have F := hf hp
    exact ⟨F.m_pp, F.snow, F.rain, F.z, F.depth, F.none, F.dens, F.sat⟩
  · have f := h.frozen (hl hs)
    exact ⟨by rw [g5]; exact f.surf, by rw [g4]; exact f.mean, by rw [g6]; exact f.lower⟩

/-- C81, the run step: a run step that starts with a consistent pack of positive mass between absolute zero and
freezing, or with bare ground, raises if and only if the turbulent-transfer routine raises, or its energy balance
completes and the mass balance finds the pack used up exactly. -/
theorem C81_step_raises (c : Env) (hc : c.OK) (hv : 0 < c.max_h2o_vol) (dt : ℝ) (hdt : 0 < dt)
    (dl : InputData) (p : Phys) (h : EnergyStart c (applied dl p.input1) p.snow) (hh : 0 ≤ p.snow.h2o)
    (hf : (applied dl p.input1).precip_now = true → StepForcing (applied dl p.input1)) (e : Err) :
    stepPhys c dt dl p = .error e ↔
      (0 < p.snow.layer_count ∧ h_le c (stepStart dl p) = .error e) ∨
      (e = .zeroDivision ∧ ∃ p1, energy_balance c dt (stepStart dl p) = .ok p1 ∧ UsedUp c p1.input1 dt p1.snow) := by
  have hst : EnergyStart c (stepStart dl p).input1 (stepStart dl p).snow := by
    refine ⟨start_inv hc.max_z h.inv, h.soil, h.depth, h.cool, h.mass, fun hl => ?_⟩
    have f := h.frozen hl
    exact ⟨f.surf, f.mean, f.lower⟩
  have key := energy_balance_raises hc hdt hst e
  rw [stepPhys_eq]
  cases he : energy_balance c dt (stepStart dl p) with
  | error e' =>
    rw [he] at key
    rw [bind_error]
    simp only [reduceCtorEq, false_and, exists_false, and_false, or_false]
    exact key
  | ok p1 =>
    rw [he] at key
    have hno : ¬ (0 < p.snow.layer_count ∧ h_le c (stepStart dl p) = .error e) := fun k => by
      have := key.mpr k
      cases this
    obtain ⟨q1, q2, q3⟩ := energy_balance_pack hc h hh hf he
    have mb := mass_balance_raises hc hv hdt q1 q2 q3 e
    rw [bind_ok]
    simp only [hno, false_or, Except.ok.injEq, exists_eq_left']
    rw [← mb]
    cases hm : mass_balance c p1.input1 dt p1.snow with
    | ok s' => rw [bind_ok]; simp only [pure_ok, reduceCtorEq]
    | error e' => rw [bind_error]; simp only [Except.error.injEq]

/-- C81, the run: under the conditions of C68 (an exactly subdividing configuration with an admissible start between
absolute zero and freezing, a positive retention capacity, accepted and admissible records over ground below the
boiling point) the run step with which a run ends in an exception starts with snow on the ground, and either its
turbulent-transfer routine raises that exception, or a layer is at or below absolute zero (or the mean of a two-layer
pack was below it earlier), or the pack has no positive mass, or the exception is a division by zero and the mass
balance used the pack up exactly.  Melting out, evaporating or draining a pack of positive mass raises nothing else. -/
theorem C81_run_raises (g : Config) (hg : g.Tiled) (ha : g.AdmissibleStart) (hcold : g.ColdStart)
    (hv : 0 < g.max_h2o) (hz : 0 < g.z_g) (c : Env) (hc : mkEnv g = .ok c) (hP : 610.71 < c.P_a)
    (rows : List Rec) (hr : ∀ r ∈ rows, r.Accepted ∧ r.Admissible ∧ r.GroundOK c.P_a) (ts : Tsteps)
    (hts : parse_time_steps g = .ok ts) (k : ℕ) (hk : k + 1 < rows.length)
    (ls : List (List (RStep Phys))) (m : Model) (htr : RunTrace g (rows.take (k + 1)) ls m) (i1 i2 : InputData)
    (n1 : InputData.new rows[k] = .ok i1) (n2 : InputData.new rows[k + 1] = .ok i2)
    (l : List (RStep Phys)) (mid : Model) (lv : Level) (d : InputData) (rest : List Level) (e : Err)
    (h : StepRaises c ts g.output_all i1 i2 m l mid lv d rest e) :
    ∃ s, s = mid.phys.snow ∧ 0 < s.layer_count ∧
      (h_le c (stepStart d mid.phys) = .error e ∨
       (s.t_s_0 ≤ 0 ∨ s.t_s ≤ 0 ∨ s.t_s_l ≤ 0 ∨
          ∃ x ∈ ls.flatten ++ l, x.pre.snow.layer_count = 2 ∧ x.pre.snow.t_s < 0) ∨
       s.m_s ≤ 0 ∨
       (e = .zeroDivision ∧ ∃ p1, energy_balance c (ts lv).time_step (stepStart d mid.phys) = .ok p1 ∧
          UsedUp c p1.input1 (ts lv).time_step p1.snow)) := by
  have rf := raise_facts g hg ha hcold hv hz c hc hP rows hr ts hts k hk ls m htr i1 i2 n1 n2 l mid lv d rest e h
  obtain ⟨_, _, hlc, _⟩ := C68_failure_explained g hg ha hcold hv hz c hc hP rows hr ts hts k hk ls m htr i1 i2 n1 n2
    l mid lv d rest e h
  refine ⟨_, rfl, by rename_i e1 _; rw [← e1]; exact hlc, ?_⟩
  by_cases hneg : ∃ x ∈ ls.flatten ++ l, x.pre.snow.layer_count = 2 ∧ x.pre.snow.t_s < 0
  · exact .inr (.inl (.inr (.inr (.inr hneg))))
  have hneg' : ∀ x ∈ ls.flatten ++ l, x.pre.snow.layer_count = 2 → 0 ≤ x.pre.snow.t_s := fun x hx h2 => by
    by_contra hn
    exact hneg ⟨x, hx, h2, not_le.mp hn⟩
  have hfacts := rf.cold hneg'
  by_contra hno
  push Not at hno
  obtain ⟨n1, ⟨n2, n3, n4, _⟩, n5, n6⟩ := hno
  have temps := hfacts.2.1 n5
  rcases (C81_step_raises c rf.env rf.vol _ rf.step d mid.phys
    ⟨rf.inv, rf.soil, rf.z_g, rf.cool, fun _ => n5,
      fun _ => ⟨⟨n2, temps.1⟩, ⟨n3, temps.2.1⟩, ⟨n4, temps.2.2⟩⟩⟩ rf.h2o rf.forcing e).mp h.raises with q | ⟨q1, p1, q2, q3⟩
  · exact n1 q.2
  · exact n6 q1 p1 q2 q3

end

end Pysnobal
