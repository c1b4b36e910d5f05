import Verif.Lemmas.Flux
import Verif.Props.Water

/-! # C24, C25: the energy budget of run steps and records -/

namespace Pysnobal

noncomputable section

/-- Every executed run step of every simulation is a successful physics step (no assumption on the
configuration or the forcing). -/
theorem trace_phys {g : Config} {rows : List Rec} {ls : List (List (RStep Phys))} {m : Model}
    (h : RunTrace g rows ls m) : ∃ c ts, mkEnv g = .ok c ∧ parse_time_steps g = .ok ts ∧
      ∀ l ∈ ls, ∀ x ∈ l, ∃ d, stepPhys c (ts x.lv).time_step d x.pre = .ok x.post := by
  obtain ⟨c, ts, hc, hts⟩ := simulate_parts h.simulate
  refine ⟨c, ts, hc, hts, fun l hl x hx => ?_⟩
  have R : RunRule c ts (fun _ => True) (fun _ _ => True) (fun _ _ => True) (fun _ => True) :=
    ⟨fun _ _ _ _ _ _ _ => trivial, fun _ _ _ _ _ _ _ _ _ _ _ => trivial, fun _ _ _ _ _ _ => trivial,
     fun _ _ _ _ _ _ _ _ => ⟨trivial, trivial⟩, .inr fun _ _ _ => trivial⟩
  obtain ⟨_, d, _, _, _, hs⟩ := RunRule.trace hc hts R (fun _ _ _ _ _ _ => trivial)
    (fun _ _ => trivial) h l hl x hx
  exact ⟨d, hs⟩

/-! ## C25 -/

/-- The energy terms `e` balance: the surface layer gains what the five fluxes bring, and the whole pack
what enters at the surface plus what comes in from the soil, minus the exchange between the layers. -/
structure Balanced (e : Energy) : Prop where
  surface : e.delta_Q_0 = e.R_n + e.H + e.L_v_E + e.G_0 + e.M
  pack : e.delta_Q = e.delta_Q_0 + e.G - e.G_0

theorem noCover_E_s {c : Env} {i : InputData} {dt : ℝ} {s s' : Snow} (hs : s.snowcover = false)
    (h : mass_balance c i dt s = .ok s') : s'.E_s = 0 ∧ s'.melt = 0 := by
  obtain ⟨s1, s2, s3, s4, s5, s6, h1, h2, h3, h4, h5, h6, h7⟩ := mass_balance_ok h
  have e1 : s1 = s := by
    rcases time_compact_ok h1 with ⟨_, e⟩ | ⟨hs', _⟩
    · exact e
    · rw [hs] at hs'; cases hs'
  have f2 : s2.snowcover = false := by
    rcases precip_event_ok h2 with ⟨_, rfl⟩ | ⟨_, hs', _⟩ | ⟨_, _, _, t, ht, rfl⟩ | ⟨_, _, _, rfl⟩
    · rw [e1]; exact hs
    · rw [e1, hs] at hs'; cases hs'
    · show t.snowcover = false
      unfold init_snow initLayers at ht
      obtain ⟨z, a, b, hfr⟩ := calc_shape c { freshSnow i s1 with
        m_s := (freshSnow i s1).rho * (freshSnow i s1).z_s }
      rw [hfr] at ht
      split at ht
      · simp only [Except.ok.injEq] at ht
        subst ht
        show s1.snowcover = false
        rw [e1]; exact hs
      · obtain ⟨d, _, _, ht⟩ := initWater_ok ht
        subst ht
        show s1.snowcover = false
        rw [e1]; exact hs
    · show s1.snowcover = false
      rw [e1]; exact hs
  have e3 : s3 = { s2 with melt := 0 } := by
    rcases snowmelt_ok h3 with ⟨_, e⟩ | ⟨hs', _⟩
    · exact e
    · rw [f2] at hs'; cases hs'
  have f3 : s3.snowcover = false := by rw [e3]; exact f2
  have e4 : s4 = { s3 with E_s := 0 } := by
    rcases evap_cond_ok h4 with ⟨_, e⟩ | ⟨hs', _⟩ | ⟨hs', _⟩
    · exact e
    · rw [f3] at hs'; cases hs'
    · rw [f3] at hs'; cases hs'
  have f4 : s4.snowcover = false := by rw [e4]; exact f3
  have e5 : s5 = s4 := by
    rcases h2o_compact_ok h5 with ⟨_, e⟩ | ⟨hs', _⟩
    · exact e
    · rw [f4] at hs'; cases hs'
  have e6 : s6 = { s5 with swi := s5.h2o_total } := by
    rcases runoff_ok h6 with ⟨_, e⟩ | ⟨hs', _⟩ | ⟨hs', _⟩
    · exact e
    · rw [e5, f4] at hs'; cases hs'
    · rw [e5, f4] at hs'; cases hs'
  have f6 : s6.snowcover = false := by rw [e6, e5]; exact f4
  rcases h7 with ⟨hs', _⟩ | ⟨_, rfl⟩
  · rw [f6] at hs'; cases hs'
  · rw [e6, e5, e4, e3]; exact ⟨rfl, rfl⟩

/-- C25, run step.  In every run step of every simulation the energy terms balance; net radiation is the
net solar radiation plus the emitted and absorbed thermal radiation at the surface temperature the step
started with; a one-layer pack exchanges heat only with the soil; and without snow every term, the vapour
flux, the vapour exchange and the melt are zero. -/
theorem C25_energy_budget_step (g : Config) (rows : List Rec) (ls : List (List (RStep Phys))) (m : Model)
    (h : RunTrace g rows ls m) : ∀ l ∈ ls, ∀ x ∈ l,
      Balanced x.post.snow.en ∧
      (0 < x.pre.snow.layer_count → x.post.snow.en.R_n = x.post.input1.S_n + SNOW_EMISSIVITY *
        (x.post.input1.I_lw - STEF_BOLTZ * x.pre.snow.t_s_0 ^ 4)) ∧
      (x.pre.snow.layer_count = 1 → x.post.snow.en.G = x.post.snow.en.G_0 ∧
        x.post.snow.en.delta_Q = x.post.snow.en.delta_Q_0) ∧
      (x.pre.snow.layer_count = 0 → x.post.snow.en = ⟨0, 0, 0, 0, 0, 0, 0, 0⟩ ∧ x.post.snow.E = 0 ∧
        x.post.snow.E_s = 0 ∧ x.post.snow.melt = 0) := by
  obtain ⟨c, ts, _, _, hx⟩ := trace_phys h
  intro l hl x hxl
  obtain ⟨d, hst⟩ := hx l hl x hxl
  rcases stepPhys_energy hst with ⟨hp, r, p1, G, G0, M, k1, k2, k3, k4, k5⟩ | ⟨h0, k4, k5⟩
  · have hG : x.pre.snow.layer_count = 1 → G = G0 := by
      intro h1
      unfold heat_transfer at k2
      rw [if_pos h1] at k2
      obtain ⟨y, _, k2⟩ := bind_eq_ok.mp k2
      simp only [pure_ok, Except.ok.injEq, Prod.mk.injEq] at k2
      rw [← k2.1, ← k2.2]
    rw [k5]
    refine ⟨⟨rfl, rfl⟩, fun _ => ?_, fun h1 => ⟨hG h1, ?_⟩, fun h0 => absurd hp (by omega)⟩
    · show net_radiation (applied d x.pre.input1) x.pre.snow = _
      rw [(stepPhys_input hst).1]
      rfl
    · show _ + G - G0 = _
      rw [hG h1]; ring
  · rw [k5]
    refine ⟨⟨by simp [Energy.zero], by simp [Energy.zero]⟩, fun h => absurd h (by omega),
      fun h => absurd h (by omega), fun _ => ⟨rfl, k4, ?_⟩⟩
    obtain ⟨p1, h1, h2, hp⟩ := stepPhys_ok hst
    have e := energy_balance_snow h1
    refine noCover_E_s ?_ h2
    rw [e]
    show decide (x.pre.snow.layer_count > 0) = false
    simp [h0]

theorem wmean_add (f g : Snow → ℝ) (xs : List (ℝ × Snow)) :
    wmean (fun s => f s + g s) xs = wmean f xs + wmean g xs := by
  unfold wmean
  rw [← add_div]
  congr 1
  rw [← List.sum_map_add]
  congr 1
  refine List.map_congr_left fun x _ => ?_
  ring

theorem wmean_sub (f g : Snow → ℝ) (xs : List (ℝ × Snow)) :
    wmean (fun s => f s - g s) xs = wmean f xs - wmean g xs := by
  have := wmean_add (fun s => f s - g s) g xs
  simp only [sub_add_cancel] at this
  linarith

theorem wmean_congr {f g : Snow → ℝ} {xs : List (ℝ × Snow)} (h : ∀ x ∈ xs, f x.2 = g x.2) :
    wmean f xs = wmean g xs := by
  unfold wmean
  congr 2
  refine List.map_congr_left fun x hx => ?_
  rw [h x hx]

/-- C25, records: the averaged flux columns of every record of every simulation balance in the same way
as the instantaneous ones. -/
theorem C25_energy_budget_records (g : Config) (hg : g.Tiled) (rows : List Rec) (m : Model)
    (h : simulate g rows = .ok m) : ∀ r ∈ m.output_list,
      r.delta_Q_0_bar = r.R_n_bar + r.H_bar + r.L_v_E_bar + r.G_0_bar + r.M_bar ∧
      r.delta_Q_bar = r.delta_Q_0_bar + r.G_bar - r.G_0_bar := by
  obtain ⟨ls, htr⟩ := simulate_trace h
  have hst := C25_energy_budget_step g rows ls m htr
  obtain ⟨c, ts, hc, hts⟩ := simulate_parts htr.simulate
  intro r hr
  obtain ⟨l, hl, l', hne, hsub, hsum⟩ := records_summarise hg htr hts r hr
  obtain ⟨q1, q2, q3, q4, q5, q6, q7, q8, _⟩ := hsum
  rw [q1, q2, q3, q4, q5, q6, q7, q8]
  have hb : ∀ x ∈ l'.map (stepOf ts), Balanced x.2.en := by
    intro x hx
    obtain ⟨y, hy, rfl⟩ := List.mem_map.mp hx
    exact (hst l hl y (hsub y hy)).1
  constructor
  · rw [← wmean_add, ← wmean_add, ← wmean_add, ← wmean_add]
    exact wmean_congr fun x hx => (hb x hx).surface
  · rw [← wmean_add, ← wmean_sub]
    exact wmean_congr fun x hx => (hb x hx).pack

/-! ## C24 -/

theorem lf_melt_max (dt : ℝ) (s : Snow) :
    lh_fus FREEZE * (if meltQ0 dt s > 0 then melt (meltQ0 dt s) else 0) = max 0 (meltQ0 dt s) := by
  split
  · rename_i h; rw [lf_melt, max_eq_right h.le]
  · rename_i h; rw [max_eq_left (not_lt.mp h)]; ring

/-- Energy that the fluxes of a run step of length `dt` bring into the layers that are there. -/
def energyIn (dt : ℝ) (s : Snow) : ℝ :=
  (s.en.delta_Q_0 + if s.layer_count = 2 then s.en.G - s.en.G_0 else 0) * dt

/-- The energy ledger of `snowmelt` before the layers are adjusted. -/
theorem melt_ledger {dt : ℝ} {s t : Snow} {r : ℝ} (hm : MeltRes dt s t r) :
    |energyIn dt s - ((t.cc_s_0 + t.cc_s_l) - (s.cc_s_0 + s.cc_s_l) +
      lh_fus FREEZE * (t.h2o_total - s.h2o_total))| ≤ lh_fus FREEZE * 1e-8 := by
  have hw : |t.h2o_total - (s.h2o_total + t.melt - r)| ≤ 1e-8 := by
    rw [hm.water]
    split
    · rename_i h; rw [zero_sub, abs_neg]; exact h
    · rw [sub_self, abs_zero]; norm_num
  have e0 := lf_melt_max dt s
  have hme := hm.melt_eq
  have hen := hm.energy
  have hmx : max 0 (meltQ0 dt s) + min 0 (meltQ0 dt s) = meltQ0 dt s := by
    rw [max_add_min]; ring
  have key : energyIn dt s - ((t.cc_s_0 + t.cc_s_l) - (s.cc_s_0 + s.cc_s_l) +
      lh_fus FREEZE * (t.h2o_total - s.h2o_total)) =
      - (lh_fus FREEZE * (t.h2o_total - (s.h2o_total + t.melt - r))) := by
    unfold energyIn
    by_cases h2 : s.layer_count = 2
    · have e1 : lh_fus FREEZE * (if s.layer_count = 2 ∧ meltQl dt s > 0 then melt (meltQl dt s) else 0) =
          max 0 (meltQl dt s) := by
        split
        · rename_i h; rw [lf_melt, max_eq_right h.2.le]
        · rename_i h
          have : ¬ meltQl dt s > 0 := fun h' => h ⟨h2, h'⟩
          rw [max_eq_left (not_lt.mp this)]; ring
      have hmx2 : max 0 (meltQl dt s) + min 0 (meltQl dt s) = meltQl dt s := by
        rw [max_add_min]; ring
      have e2 : lh_fus FREEZE * t.melt = max 0 (meltQ0 dt s) + max 0 (meltQl dt s) := by
        rw [hme, mul_add, e0, e1]
      have q0 : meltQ0 dt s = s.en.delta_Q_0 * dt + s.cc_s_0 := rfl
      have ql : meltQl dt s = (s.en.G - s.en.G_0) * dt + s.cc_s_l := by
        unfold meltQl; rw [if_pos h2]
      rw [if_pos h2] at hen ⊢
      linarith
    · have e2 : lh_fus FREEZE * t.melt = max 0 (meltQ0 dt s) := by
        rw [hme, mul_add, e0, if_neg (fun h => h2 h.1)]; ring
      have q0 : meltQ0 dt s = s.en.delta_Q_0 * dt + s.cc_s_0 := rfl
      have := hm.one h2
      rw [if_neg h2] at hen ⊢
      linarith
  rw [key, abs_neg, abs_mul, abs_of_nonneg (show (0:ℝ) ≤ lh_fus FREEZE by rw [lf_eq]; norm_num)]
  have : (0:ℝ) ≤ lh_fus FREEZE := by rw [lf_eq]; norm_num
  exact mul_le_mul_of_nonneg_left hw this

/-- C24: melting and refreezing conserve energy.  Whenever `snowmelt` leaves a pack with as many layers as
before, the energy the fluxes bring in during the step is found back as change of cold content plus latent
heat of fusion times change of liquid water, apart from at most the 1e-8 kg/m2 of water that the code
rounds away. -/
theorem C24_melt_conserves_energy (c : Env) (hmax : 0 < c.max_z_s_0) (dt : ℝ) (s s' : Snow)
    (hi : Inv c s) (h : snowmelt c dt s = .ok s') (hs : s'.snowcover = true)
    (hl : s'.layer_count = s.layer_count) :
    |energyIn dt s - ((s'.cc_s_0 + s'.cc_s_l) - (s.cc_s_0 + s.cc_s_l) +
      lh_fus FREEZE * (s'.h2o_total - s.h2o_total))| ≤ lh_fus FREEZE * 1e-8 := by
  rcases snowmelt_out hmax hi h with ⟨h1, h2⟩ | ⟨h1, t, r, hm, hz, h3 | h3⟩
  · rw [h2] at hs
    have : s.snowcover = true := hs
    rw [this] at h1; cases h1
  · obtain ⟨a, _⟩ := h3
    have htl : t.layer_count = s.layer_count := by
      unfold Snow.layer_count
      rw [hm.frame]
    have hcc : s'.cc_s_0 = t.cc_s_0 ∧ s'.cc_s_l = t.cc_s_l := by
      refine ⟨a.cc0, ?_⟩
      rcases a.lower with b | b | b
      · exact b.2
      · omega
      · omega
    rw [hcc.1, hcc.2, a.h2o_total]
    exact melt_ledger hm
  · rw [h3.snowcover] at hs; cases hs

/-- C24, layers merging: if melt makes two layers into one, the cold content the lower layer still has is
discarded, so the pack gains energy from nothing: at most the cold content the lower layer had or received in the
step (and nothing if the fluxes overcome it). -/
theorem C24_merging (c : Env) (hmax : 0 < c.max_z_s_0) (dt : ℝ) (s s' : Snow)
    (hi : Inv c s) (hw : 0 ≤ s.h2o_total) (h : snowmelt c dt s = .ok s') (hs : s'.snowcover = true)
    (hl : s.layer_count = 2) (hl' : s'.layer_count = 1) :
    ∃ lost, min 0 (s.cc_s_l + (s.en.G - s.en.G_0) * dt) ≤ lost ∧ lost ≤ 0 ∧
    |energyIn dt s - ((s'.cc_s_0 + s'.cc_s_l) - (s.cc_s_0 + s.cc_s_l) +
      lh_fus FREEZE * (s'.h2o_total - s.h2o_total)) - lost| ≤ lh_fus FREEZE * 1e-8 := by
  rcases snowmelt_out hmax hi h with ⟨h1, h2⟩ | ⟨h1, t, r, hm, hz, h3 | h3⟩
  · rw [h2] at hs
    have : s.snowcover = true := hs
    rw [this] at h1; cases h1
  · obtain ⟨a, _⟩ := h3
    have htl : t.layer_count = s.layer_count := by
      unfold Snow.layer_count
      rw [hm.frame]
    have h0 : 0 < s.z_s_0 := hi.flag h1
    have hmelt : 0 ≤ t.melt := by
      rw [hm.melt_eq]
      refine add_nonneg ?_ ?_ <;> split
      · rename_i h; exact melt_nonneg h.le
      · exact le_refl _
      · rename_i h; exact melt_nonneg h.2.le
      · exact le_refl _
    have hge := hm.ccl_ge (div_nonneg hi.zl (hi.z_pos h0).le) (by linarith) hl
    have ql : meltQl dt s = (s.en.G - s.en.G_0) * dt + s.cc_s_l := by
      unfold meltQl; rw [if_pos hl]
    rw [ql, add_comm] at hge
    have hcl : s'.cc_s_l = 0 := by
      have hz : s'.z_s_l = 0 := by
        have hi' := snowmelt_inv hmax hi h
        by_contra hne
        have := (lc_eq_two.mpr ⟨a.z0, lt_of_le_of_ne hi'.zl (Ne.symm hne)⟩ : s'.layer_count = 2)
        omega
      exact ((snowmelt_inv hmax hi h).one hz).2.1
    refine ⟨t.cc_s_l, hge, hm.ccl hl, ?_⟩
    rw [a.cc0, hcl, a.h2o_total]
    have := melt_ledger hm
    have e : energyIn dt s - (t.cc_s_0 + 0 - (s.cc_s_0 + s.cc_s_l) + lh_fus FREEZE * (t.h2o_total - s.h2o_total)) - t.cc_s_l =
      energyIn dt s - ((t.cc_s_0 + t.cc_s_l) - (s.cc_s_0 + s.cc_s_l) +
      lh_fus FREEZE * (t.h2o_total - s.h2o_total)) := by ring
    rw [e]
    exact this
  · rw [h3.snowcover] at hs; cases hs

/-- C24, last melt: if the pack vanishes in `snowmelt`, its whole mass is added to the liquid water, whatever the energy: the
water exceeds what the energy accounts for by exactly that mass (of which the retained and the melted water are a part,
so that they are counted twice), apart from the cold content that is discarded with the pack. -/
theorem C24_vanishing (c : Env) (hmax : 0 < c.max_z_s_0) (dt : ℝ) (s s' : Snow)
    (hi : Inv c s) (hw : 0 ≤ s.h2o_total) (hm0 : 0 ≤ s.m_s) (h : snowmelt c dt s = .ok s') (hc : s.snowcover = true) (hs : s'.snowcover = false) :
    ∃ lost, min 0 (s.cc_s_0 + s.en.delta_Q_0 * dt) +
        (if s.layer_count = 2 then min 0 (s.cc_s_l + (s.en.G - s.en.G_0) * dt) else 0) ≤ lost ∧ lost ≤ 0 ∧
    |energyIn dt s - (- (s.cc_s_0 + s.cc_s_l) +
      lh_fus FREEZE * (s'.h2o_total - s.m_s - s.h2o_total)) - lost| ≤ lh_fus FREEZE * 1e-8 := by
  rcases snowmelt_out hmax hi h with ⟨h1, h2⟩ | ⟨h1, t, r, hm, hz, h3 | h3⟩
  · rw [h1] at hc; cases hc
  · obtain ⟨a, _⟩ := h3
    have : t.snowcover = true := by rw [hm.frame]; exact hc
    rw [a.snowcover, this] at hs
    cases hs
  · have h0 : 0 < s.z_s_0 := hi.flag h1
    have hmelt : 0 ≤ t.melt := by
      rw [hm.melt_eq]
      refine add_nonneg ?_ ?_ <;> split
      · rename_i h; exact melt_nonneg h.le
      · exact le_refl _
      · rename_i h; exact melt_nonneg h.2.le
      · exact le_refl _
    have hg0 : min 0 (s.cc_s_0 + s.en.delta_Q_0 * dt) ≤ t.cc_s_0 := by
      have q0 : meltQ0 dt s = s.cc_s_0 + s.en.delta_Q_0 * dt := add_comm _ _
      rw [← q0]
      rcases hm.surf with e | ⟨f, _, hf, _, _, e⟩
      · rw [e]
      · rw [e]
        have : 0 ≤ (s.h2o_total + t.melt) * f * lh_fus FREEZE := by
          rw [hf, lf_eq]
          have := div_nonneg h0.le (hi.z_pos h0).le
          positivity
        exact min_le_min_left _ (by linarith)
    have hgl : (if s.layer_count = 2 then min 0 (s.cc_s_l + (s.en.G - s.en.G_0) * dt) else 0) ≤ t.cc_s_l := by
      split
      · rename_i hl
        have hge := hm.ccl_ge (div_nonneg hi.zl (hi.z_pos h0).le) (by linarith) hl
        have ql : meltQl dt s = (s.en.G - s.en.G_0) * dt + s.cc_s_l := by
          unfold meltQl; rw [if_pos hl]
        rwa [ql, add_comm] at hge
      · rename_i h2
        rw [hm.one h2]
        have hz : s.z_s_l = 0 := by
          by_contra hne
          exact h2 (lc_eq_two.mpr ⟨h0, lt_of_le_of_ne hi.zl (Ne.symm hne)⟩)
        exact (hi.one hz).2.1.ge
    have hcl : t.cc_s_l ≤ 0 := by
      by_cases h2 : s.layer_count = 2
      · exact hm.ccl h2
      · rw [hm.one h2]
        have hz : s.z_s_l = 0 := by
          by_contra hne
          exact h2 (lc_eq_two.mpr ⟨hi.flag hc, lt_of_le_of_ne hi.zl (Ne.symm hne)⟩)
        exact (hi.one hz).2.1.le
    refine ⟨t.cc_s_0 + t.cc_s_l, by linarith, by linarith [hm.cc0], ?_⟩
    have := melt_ledger hm
    rw [h3.h2o_total, max_eq_left hm0]
    have e : energyIn dt s - (-(s.cc_s_0 + s.cc_s_l) + lh_fus FREEZE * (t.h2o_total + s.m_s - s.m_s - s.h2o_total)) - (t.cc_s_0 + t.cc_s_l) =
      energyIn dt s - ((t.cc_s_0 + t.cc_s_l) - (s.cc_s_0 + s.cc_s_l) +
      lh_fus FREEZE * (t.h2o_total - s.h2o_total)) := by ring
    rw [e]
    exact this

/-- C24, surface layer over a whole run step: in every run step through which the snow cover lasts, the
surface layer ends with a cold content between the one it started with plus the energy its fluxes brought
(cut off at zero) and zero; and if those fluxes overcome its cold content, it ends without any and at least
the excess has been spent on melt. -/
theorem C24_surface_energy_step (g : Config) (hmax : 0 < g.max_active) (rows : List Rec)
    (ls : List (List (RStep Phys))) (m : Model) (h : RunTrace g rows ls m) :
    ∃ ts, parse_time_steps g = .ok ts ∧ ∀ l ∈ ls, ∀ x ∈ l, x.post.snow.snowcover = true →
      x.post.snow.cc_s_0 ≤ 0 ∧
      min 0 (x.pre.snow.cc_s_0 + x.post.snow.en.delta_Q_0 * (ts x.lv).time_step) ≤ x.post.snow.cc_s_0 ∧
      (0 ≤ x.pre.snow.cc_s_0 + x.post.snow.en.delta_Q_0 * (ts x.lv).time_step → x.post.snow.cc_s_0 = 0 ∧
        x.pre.snow.cc_s_0 + x.post.snow.en.delta_Q_0 * (ts x.lv).time_step
          ≤ lh_fus FREEZE * x.post.snow.melt) := by
  obtain ⟨c, ts, hc, hts, hm, hx⟩ := trace_step hmax h
  refine ⟨ts, hts, fun l hl x hxl hs => ?_⟩
  obtain ⟨d, h1, h2, h3⟩ := hx l hl x hxl
  obtain ⟨s0, s1, s2, s3, s4, s5, s6, k⟩ := step_chain hm h1 h3
  obtain ⟨f6, f5, f4, f3, f2, f1, f0, _⟩ := k.persist hm hs
  obtain ⟨_, a1⟩ := k.flag1 hm f1
  obtain ⟨_, a2⟩ := k.flag2 hm f2
  obtain ⟨_, t, r, a3, a3'⟩ := k.flag3 hm f3
  obtain ⟨_, _, el, w, _, _, _, a4, _⟩ := k.flag4 hm f4
  obtain ⟨_, a5, _⟩ := k.flag5 hm f5
  obtain ⟨_, _, _, d4, _, _, d7, d8, _, d10, d11, _⟩ := k.drained hm f5
  obtain ⟨u, a2s, a2e⟩ := a2.stay
  have e7 : x.post.snow.cc_s_0 = s6.cc_s_0 ∧ x.post.snow.melt = s6.melt ∧ x.post.snow.en = s6.en := by
    rw [k.frame7]; exact ⟨rfl, rfl, rfl⟩
  have e2 : s2.cc_s_0 = u.cc_s_0 ∧ s2.en = u.en := by rw [a2e]; exact ⟨rfl, rfl⟩
  have e0 : s0.cc_s_0 = x.pre.snow.cc_s_0 := by rw [k.start]
  have hcc2 : s2.cc_s_0 = x.pre.snow.cc_s_0 := by rw [e2.1, a2s.cc0, a1.cc0, e0]
  have et : t.en = s2.en := by rw [a3.frame]
  have hcc : x.post.snow.cc_s_0 = t.cc_s_0 := by
    rw [e7.1, d11, a5.cc0, a4.cc0]
    exact a3'.cc0
  have hmelt : x.post.snow.melt = t.melt := by
    rw [e7.2.1, d7, a5.melt, a4.melt]
    exact a3'.melt
  have hen : x.post.snow.en = s2.en := by
    rw [e7.2.2, d10, a5.en, a4.en]
    exact a3'.en.trans et
  have hQ : meltQ0 (ts x.lv).time_step s2 =
      x.pre.snow.cc_s_0 + x.post.snow.en.delta_Q_0 * (ts x.lv).time_step := by
    unfold meltQ0; rw [hcc2, hen]; ring
  rw [← hQ, hcc, hmelt]
  refine ⟨a3.cc0, ?_, fun h0 => ?_⟩
  · rcases a3.surf with e | ⟨f, hz, hf, hq, hw, e⟩
    · rw [e]
    · rw [e]
      refine min_le_min (le_refl _) ?_
      have hi := k.i2
      have hz0 := hi.flag f2
      have hzp := hi.z_pos hz0
      have : 0 ≤ (s2.h2o_total + t.melt) * f * lh_fus FREEZE := by
        rw [lf_eq, hf]; positivity
      linarith
  · constructor
    · rcases a3.surf with e | ⟨f, hz, hf, hq, hw, e⟩
      · rw [e, min_eq_left h0]
      · linarith
    · rw [a3.melt_eq, mul_add, lf_melt_max, max_eq_right h0]
      have : 0 ≤ lh_fus FREEZE * (if s2.layer_count = 2 ∧ meltQl (ts x.lv).time_step s2 > 0 then
          melt (meltQl (ts x.lv).time_step s2) else 0) := by
        split
        · rename_i h; rw [lf_melt]; exact h.2.le
        · simp
      linarith

end

end Pysnobal
