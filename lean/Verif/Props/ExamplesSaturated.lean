import Verif.Props.Saturated
import Verif.Lemmas.WitnessWind

/-! # A case that meets the hypotheses of C101: wind over two heavy layers -/

namespace Pysnobal

noncomputable section

/-- Air at the freezing point in wind, with the vapour pressure `v`. -/
def dampRec (v : ℝ) : Rec := { windRec with t_a := FREEZE, e_a := v }

/-- When the first of two rows is processed the pack of `windCfg` has layers of 75 and 225 kg/m². -/
theorem wind_neverThin (r1 r2 : Rec) : NeverThin windCfg [r1, r2] := by
  obtain ⟨s0, hs0, hp, hinv, hd⟩ := wind_start
  have hw := wind_pack hp hinv hd
  have e1 : s0.m_s_0 = 75 := by rw [hp.m_s_0, hw.z_s_0]; norm_num [windCfg, calmCfg]
  have e2 : s0.m_s_l = 225 := by rw [hp.m_s_l, hw.z_s_l]; norm_num [windCfg, calmCfg]
  intro a b hab hb m hm
  have ha : a = [] ∨ a = [r1] := by
    rcases a with _ | ⟨x, a⟩
    · exact .inl rfl
    · rcases a with _ | ⟨y, a⟩
      · exact .inr (by rw [(List.cons.inj hab).1])
      · have h2 := (List.cons.inj (List.cons.inj hab).2).2
        exact absurd (List.append_eq_nil_iff.mp h2.symm).2 hb
  rcases ha with rfl | rfl
  · cases hm
  · have hsn : m.phys.snow = s0 := by
      unfold simulate at hm
      dsimp only at hm
      obtain ⟨ts, _, hm⟩ := bind_eq_ok.mp hm
      obtain ⟨i1, _, hm⟩ := bind_eq_ok.mp hm
      rw [wind_env, bind_ok] at hm
      unfold mkModel at hm
      rw [hs0] at hm
      cases hm
      rfl
    rw [hsn]
    refine ⟨fun h => ?_, fun _ => ⟨?_, ?_⟩⟩
    · rw [hw.lc] at h; cases h
    · rw [e1]; norm_num [windCfg, calmCfg, defaultSteps]
    · rw [e2]; norm_num [windCfg, calmCfg, defaultSteps]

/-- C101: at the freezing point, 650 Pa and 900 Pa of vapour pressure in the first row are the same, also for the output file. -/
example (r2 : Rec) (file : Option (List OutRow)) : run windCfg [dampRec 650, r2] file = run windCfg [dampRec 900, r2] file := by
  refine (C101_supersaturation_irrelevant windCfg wind_tiled _ _ (wind_neverThin _ _) (.cons ⟨rfl, ?_⟩ (.cons ⟨rfl, fun _ _ => rfl⟩ .nil))).2 file
  intro sat h
  rw [show (dampRec 650).t_a = FREEZE from rfl, sati_freeze] at h
  cases h
  rw [show (dampRec 900).e_a = 900 from rfl, show (dampRec 650).e_a = 650 from rfl, min_eq_right (by norm_num), min_eq_right (by norm_num)]

end

end Pysnobal
