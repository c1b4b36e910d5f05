import Verif.Props.PackEnergy

/-! # C74: cold snow refreezes all the water it can -/

namespace Pysnobal

noncomputable section

variable {g : Config} {dt : ℝ} {x : RStep Phys}

/-! ## Proofs -/

theorem afterVapour_zero (e : ℝ) : afterVapour 0 e = 0 := by
  unfold afterVapour
  rw [if_neg (lt_irrefl _)]

theorem min_max_cancel (q : ℝ) : min 0 q + max 0 (-q) = 0 := by
  rcases le_total 0 q with h | h
  · rw [min_eq_left h, max_eq_left (by linarith)]; ring
  · rw [min_eq_right h, max_eq_right (by linarith)]; ring

/-- A layer left cold has frozen its whole share. -/
theorem frozen_share {r cc q W : ℝ} (h1 : lh_fus FREEZE * r = cc - min 0 q)
    (h2 : lh_fus FREEZE * r = min (max 0 (-q)) (lh_fus FREEZE * W)) (hcc : cc < 0) : r = W := by
  have hlf : (0:ℝ) < lh_fus FREEZE := by rw [lf_eq]; norm_num
  have hq := min_max_cancel q
  rcases min_choice (max 0 (-q)) (lh_fus FREEZE * W) with e | e
  · rw [e] at h2; linarith
  · rw [e] at h2
    exact mul_left_cancel₀ hlf.ne' h2

theorem WaterBooks.dry {r0 rl w : ℝ} (h : WaterBooks g dt x r0 rl w)
    (hr : r0 + rl = x.pre.snow.h2o + waterIn g x + x.post.snow.melt) : x.post.snow.h2o + x.post.snow.swi = 0 := by
  have hw := h.left
  rw [hr, sub_self, if_pos (by norm_num)] at hw
  rw [h.out, hw, afterVapour_zero, afterVapour_zero]

theorem DepthBooks.compacts {w z1 z2 z3 z4 : ℝ} (h : DepthBooks dt x w z1 z2 z3 z4) (hm : 0 < x.pre.snow.m_s) :
    z1 ≤ x.pre.snow.z_s := by
  rcases lt_or_ge x.pre.snow.rho 550 with h1 | h1
  · exact (h.compact.2 h1 hm).1.le
  · exact (h.compact.1 h1).le

theorem DepthBooks.shallow {w z1 z2 z3 z4 : ℝ} (h : DepthBooks dt x w z1 z2 z3 z4) (hm : 0 < x.pre.snow.m_s) :
    z2 ≤ clipDepth (x.pre.snow.z_s + if x.post.input1.precip_now then x.post.input1.z_snow else 0)
      (x.pre.snow.m_s + x.precip) := by
  have h1 := h.compacts hm
  rw [h.precip]
  by_cases hp : x.post.input1.precip_now = true
  · rw [if_pos hp, if_pos hp]
    unfold clipDepth
    exact max_le_max (by linarith) (le_refl _)
  · rw [if_neg hp, if_neg hp, add_zero]
    exact h1.trans (le_max_left _ _)

/-- C74: with admissible data, in every run step through which the snow cover lasts, the water that refreezes (that of the ledgers of
C24 and C54) is, in each layer, as much of its share of the water at hand as its cold content allows. -/
theorem C74_refreezing_step (g : Config) (hg : g.Tiled) (ha : g.AdmissibleStart) (rows : List Rec)
    (hr : ∀ r ∈ rows, r.Admissible) (ls : List (List (RStep Phys))) (m : Model)
    (h : RunTrace g rows ls m) : ∃ ts, parse_time_steps g = .ok ts ∧
      ∀ l ∈ ls, ∀ x ∈ l, x.post.snow.snowcover = true → ∃ dt, dt = (ts x.lv).time_step ∧
        ∃ r0 rl w z1 z2 z3 z4 two a b, WaterBooks g dt x r0 rl w ∧ DepthBooks dt x w z1 z2 z3 z4 ∧ EnergyBooks g dt x r0 rl two a b ∧
      FreezeBooks g dt x z2 r0 rl two a ∧
      (x.post.input1.precip_now = false → 0 < x.pre.snow.m_s →
        (x.pre.snow.layer_count = 1 → x.pre.snow.z_s ≤ g.max_active → two = false ∧ a = x.pre.snow.cc_s_l) ∧
        (x.pre.snow.layer_count = 2 → x.post.snow.layer_count = 2 → x.post.snow.E * dt ≤ 0 →
          x.post.snow.E_s ≤ x.post.snow.E * dt → x.pre.snow.m_s ≤ 600 * z1 →
          two = true ∧ a = x.pre.snow.cc_s_l ∧ b = x.post.snow.cc_s_l)) := by
  obtain ⟨c, ts, hc, hts, ho, ht, hx⟩ := trace_closed hg ha hr h
  refine ⟨ts, hts, fun l hl x hxl hs => ⟨_, rfl, ?_⟩⟩
  obtain ⟨d, ⟨h1, h1'⟩, _, hf, h3, _⟩ := hx l hl x hxl
  obtain ⟨s0, s1, s2, s3, s4, s5, s6, k⟩ := step_chain ho.max_z h1 h3
  obtain ⟨r0, rl, w, z1, z2, z3, z4, two, a, b, q1, q2, q3, q5, q4⟩ :=
    k.energyBooks (g := g) ho (mkEnv_ok hc).2.2.1 (mkEnv_ok hc).2.1 (mkEnv_ok hc).1 (ht.step_pos x.lv) h1' hf hs
  exact ⟨r0, rl, w, z1, z2, z3, z4, two, a, b, q1, q2, q3, q5, fun u v => ⟨(q4 u v).1, (q4 u v).2.1⟩⟩

/-- C74: a run step that leaves a shallow pack (no deeper than the surface layer, fresh snow included) below freezing leaves no liquid
water in it and no runoff. -/
theorem C74_cold_snow_is_dry (g : Config) (hg : g.Tiled) (ha : g.AdmissibleStart) (rows : List Rec)
    (hr : ∀ r ∈ rows, r.Admissible) (ls : List (List (RStep Phys))) (m : Model)
    (h : RunTrace g rows ls m) : ∀ l ∈ ls, ∀ x ∈ l, x.post.snow.snowcover = true → 0 < x.pre.snow.m_s →
      clipDepth (x.pre.snow.z_s + if x.post.input1.precip_now then x.post.input1.z_snow else 0)
        (x.pre.snow.m_s + x.precip) ≤ g.max_active →
      x.post.snow.cc_s_0 < 0 → x.post.snow.h2o = 0 ∧ x.post.snow.swi = 0 := by
  obtain ⟨ts, _, hx⟩ := C74_refreezing_step g hg ha rows hr ls m h
  intro l hl x hxl hs hm hz hcc
  obtain ⟨dt, _, r0, rl, w, z1, z2, z3, z4, two, a, b, hw, hd, he, hf, _⟩ := hx l hl x hxl hs
  have h2 : two = false := by
    cases two
    · rfl
    · have := hf.deep rfl
      have := hd.shallow hm
      linarith
  have hq := hf.surface
  rw [h2, if_neg (by simp), mul_one] at hq
  have := frozen_share hw.surface hq hcc
  have hdry := hw.dry (by rw [(he.single h2).1, this]; ring)
  obtain ⟨_, n2, n1, _⟩ := C30_water_nonneg_steps g hg ha rows hr ls m h l hl x hxl
  exact ⟨by linarith, by linarith⟩

/-- C74, two layers: a dry run step without condensation that leaves both layers of a two-layer pack below freezing leaves no liquid
water and no runoff (unless gravity compacts the pack to more than 600 kg/m³). -/
theorem C74_cold_layers_are_dry (g : Config) (hg : g.Tiled) (ha : g.AdmissibleStart) (rows : List Rec)
    (hr : ∀ r ∈ rows, r.Admissible) (ls : List (List (RStep Phys))) (m : Model)
    (h : RunTrace g rows ls m) : ∃ ts, parse_time_steps g = .ok ts ∧
      ∀ l ∈ ls, ∀ x ∈ l, x.post.snow.snowcover = true → x.post.input1.precip_now = false → 0 < x.pre.snow.m_s →
        x.pre.snow.layer_count = 2 → x.post.snow.layer_count = 2 → x.post.snow.E ≤ 0 →
        x.post.snow.E_s ≤ x.post.snow.E * (ts x.lv).time_step →
        x.pre.snow.m_s ≤ 600 * (x.pre.snow.m_s / gravityDensity ((ts x.lv).time_step / 3600) x.pre.snow.rho x.pre.snow.t_s x.pre.snow.m_s) →
        x.pre.snow.m_s ≤ 600 * x.pre.snow.z_s →
        x.post.snow.cc_s_0 < 0 → x.post.snow.cc_s_l < 0 → x.post.snow.h2o = 0 ∧ x.post.snow.swi = 0 := by
  obtain ⟨ts, hts, hx⟩ := C74_refreezing_step g hg ha rows hr ls m h
  obtain ⟨ts', hts', hp⟩ : ∃ ts, parse_time_steps g = .ok ts ∧ ∀ lv, 0 < (ts lv).time_step := by
    obtain ⟨c, ts, hc, hts, ho, ht, _⟩ := trace_closed hg ha hr h
    exact ⟨ts, hts, ht.step_pos⟩
  rw [hts] at hts'
  cases hts'
  refine ⟨ts, hts, fun l hl x hxl hs hd hm h2 h2' hE hEs hg1 hg2 hcc hcl => ?_⟩
  obtain ⟨dt, hdt, r0, rl, w, z1, z2, z3, z4, two, a, b, hw, hz, he, hf, hq⟩ := hx l hl x hxl hs
  have h6 : x.pre.snow.m_s ≤ 600 * z1 := by
    rcases lt_or_ge x.pre.snow.rho 550 with h1 | h1
    · rw [(hz.compact.2 h1 hm).2, hdt]; exact hg1
    · rw [hz.compact.1 h1]; exact hg2
  obtain ⟨q1, q2, q3⟩ := (hq hd hm).2 h2 h2' (by rw [hdt]; exact mul_nonpos_of_nonpos_of_nonneg hE (hp _).le) (by rw [hdt]; exact hEs) h6
  have e1 := hf.surface
  rw [q1, if_pos rfl] at e1
  have e1 := frozen_share hw.surface e1 hcc
  have hll : lh_fus FREEZE * rl = b - min 0 (a + (x.post.snow.en.G - x.post.snow.en.G_0) * dt) := by
    have s1 := max_add_min (0:ℝ) (x.pre.snow.cc_s_0 + x.post.snow.en.delta_Q_0 * dt)
    have s2 := max_add_min (0:ℝ) (a + (x.post.snow.en.G - x.post.snow.en.G_0) * dt)
    have l1 := he.ledger
    have l2 := he.melt
    have l3 := hw.surface
    rw [q1, if_pos rfl] at l1 l2
    linarith
  have e2 := frozen_share hll (hf.lower q1) (by rw [q3]; exact hcl)
  have hdry := hw.dry (by rw [e1, e2]; ring)
  obtain ⟨_, n2, n1, _⟩ := C30_water_nonneg_steps g hg ha rows hr ls m h l hl x hxl
  exact ⟨by linarith, by linarith⟩

end

end Pysnobal
