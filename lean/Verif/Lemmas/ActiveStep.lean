import Verif.Lemmas.Hold
import Verif.Props.StepLedger

/-! # A run step with another depth of the surface layer -/

namespace Pysnobal

noncomputable section

/-- The environment with another maximal depth of the surface layer. -/
def Env.active (v : ℝ) (c : Env) : Env := { c with max_z_s_0 := v }

variable {c : Env} {v D : ℝ}

theorem adj_layers_active (h1 : D ≤ c.max_z_s_0) (h2 : D ≤ v) {s : Snow} (h : c.small_threshold < s.m_s → s.z_s ≤ D) :
    adj_layers (c.active v) s = adj_layers c s := by
  have e : s.calc_layers (c.active v) = s.calc_layers c := by
    unfold Snow.calc_layers
    by_cases ht : s.m_s ≤ c.small_threshold
    · rw [if_pos ht, if_pos (show s.m_s ≤ (c.active v).small_threshold from ht)]
    · rw [if_neg ht, if_neg (show ¬ s.m_s ≤ (c.active v).small_threshold from ht)]
      have hz := h (not_le.mp ht)
      dsimp only
      rw [if_neg (show ¬ s.z_s - (c.active v).max_z_s_0 > 0 from by show ¬ s.z_s - v > 0; linarith),
        if_neg (show ¬ s.z_s - (c.active v).max_z_s_0 > 0 from by show ¬ s.z_s - v > 0; linarith),
        if_neg (show ¬ s.z_s - c.max_z_s_0 > 0 from by linarith),
        if_neg (show ¬ s.z_s - c.max_z_s_0 > 0 from by linarith)]
      rfl
  unfold adj_layers
  rw [e]

theorem adj_layers_bound (hmax : 0 < c.max_z_s_0) (hD : 0 ≤ D) {s : Snow} (hs : s.snowcover = true)
    (h : (adj_layers c s).snowcover = true → (adj_layers c s).z_s ≤ D) (ht : c.small_threshold < s.m_s) : s.z_s ≤ D := by
  rcases adj_layers_cases hmax s with ⟨a, _, _, _, h4⟩ | ⟨_, h1 | h1⟩
  · rw [← h4]
    exact h (by rw [a.snowcover]; exact hs)
  · linarith
  · linarith

theorem adj_layers_same (hmax : 0 < c.max_z_s_0) (hD : 0 ≤ D) (h1 : D ≤ c.max_z_s_0) (h2 : D ≤ v) {s : Snow}
    (hs : s.snowcover = true) (h : (adj_layers c s).snowcover = true → (adj_layers c s).z_s ≤ D) :
    adj_layers (c.active v) s = adj_layers c s :=
  adj_layers_active h1 h2 (adj_layers_bound hmax hD hs h)

theorem adj_snow_same (hmax : 0 < c.max_z_s_0) (hD : 0 ≤ D) (h1 : D ≤ c.max_z_s_0) (h2 : D ≤ v) (dz dm : ℝ) {s : Snow}
    (hs : s.snowcover = true) (h : (adj_snow c dz dm s).snowcover = true → (adj_snow c dz dm s).z_s ≤ D) :
    adj_snow (c.active v) dz dm s = adj_snow c dz dm s := by
  by_cases hr : adjRho dz dm s > 600
  · rw [adj_snow_clip hr] at h
    rw [adj_snow_clip hr, adj_snow_clip hr]
    exact adj_layers_same hmax hD h1 h2 hs h
  · by_cases hz : dz = 0
    · subst hz
      rw [adj_snow_still hr, adj_snow_still hr]
    · rw [adj_snow_move hr hz] at h
      rw [adj_snow_move hr hz, adj_snow_move hr hz]
      exact adj_layers_same hmax hD h1 h2 hs h

theorem bind_follow {α β : Type} {x : Except Err α} {f g : α → Except Err β} {y : β} (h : x >>= f = .ok y)
    (hf : ∀ a, f a = .ok y → g a = .ok y) : x >>= g = .ok y := by
  obtain ⟨a, e1, e2⟩ := bind_eq_ok.mp h
  rw [e1, bind_ok]
  exact hf a e2

theorem time_compact_active (hmax : 0 < c.max_z_s_0) (hD : 0 ≤ D) (h1 : D ≤ c.max_z_s_0) (h2 : D ≤ v) {dt : ℝ} {s s' : Snow}
    (h : time_compact c dt s = .ok s') (hz : s'.snowcover = true → s'.z_s ≤ D) : time_compact (c.active v) dt s = .ok s' := by
  unfold time_compact at h ⊢
  by_cases hc : s.snowcover = false ∨ s.rho ≥ RHO_MAX
  · rw [if_pos hc] at h ⊢
    exact h
  · have hs : s.snowcover = true := by
      cases hb : s.snowcover
      · exact absurd (.inl hb) hc
      · rfl
    rw [if_neg hc] at h ⊢
    refine bind_follow h fun rate h => ?_
    dsimp only at h ⊢
    refine bind_follow h fun d1 h => ?_
    refine bind_follow h fun d2 h => ?_
    refine bind_follow h fun z h => ?_
    cases h
    exact congrArg Except.ok (adj_layers_same hmax hD h1 h2 (by exact hs) hz)

theorem init_snow_active (h1 : D ≤ c.max_z_s_0) (h2 : D ≤ v) {s : Snow} (hz : s.z_s ≤ D) :
    init_snow (c.active v) s = init_snow c s := by
  have e : Snow.calc_layers (c.active v) { s with m_s := s.rho * s.z_s } = Snow.calc_layers c { s with m_s := s.rho * s.z_s } := by
    unfold Snow.calc_layers
    by_cases ht : s.rho * s.z_s ≤ c.small_threshold
    · rw [if_pos ht, if_pos (show s.rho * s.z_s ≤ (c.active v).small_threshold from ht)]
    · rw [if_neg ht, if_neg (show ¬ s.rho * s.z_s ≤ (c.active v).small_threshold from ht)]
      dsimp only
      rw [if_neg (show ¬ s.z_s - (c.active v).max_z_s_0 > 0 from by show ¬ s.z_s - v > 0; linarith),
        if_neg (show ¬ s.z_s - (c.active v).max_z_s_0 > 0 from by show ¬ s.z_s - v > 0; linarith),
        if_neg (show ¬ s.z_s - c.max_z_s_0 > 0 from by linarith),
        if_neg (show ¬ s.z_s - c.max_z_s_0 > 0 from by linarith)]
      rfl
  unfold init_snow
  rw [e]
  rfl

theorem precip_event_active (hmax : 0 < c.max_z_s_0) (hD : 0 ≤ D) (h1 : D ≤ c.max_z_s_0) (h2 : D ≤ v) {i : InputData} {s s' : Snow}
    (h : precip_event c i s = .ok s') (hz : s.snowcover = true → s'.snowcover = true → s'.z_s ≤ D)
    (hn : i.precip_now = true → i.z_snow ≤ D) : precip_event (c.active v) i s = .ok s' := by
  have e := precip_event_ok h
  unfold precip_event at h ⊢
  by_cases hp : i.precip_now = true
  · rw [if_pos hp] at h ⊢
    by_cases hs : s.snowcover = true
    · rw [if_pos hs] at h ⊢
      have : adj_snow (c.active v) i.z_snow i.m_pp s = adj_snow c i.z_snow i.m_pp s := by
        refine adj_snow_same hmax hD h1 h2 _ _ hs ?_
        rcases e with ⟨h', _⟩ | ⟨_, _, t, rfl, rfl⟩ | ⟨_, h', _⟩ | ⟨_, h', _⟩
        · rw [hp] at h'; cases h'
        · exact hz hs
        · rw [hs] at h'; cases h'
        · rw [hs] at h'; cases h'
      rw [this]
      exact h
    · rw [if_neg hs] at h ⊢
      by_cases hm : i.m_snow > 0
      · rw [if_pos hm] at h ⊢
        rw [init_snow_active h1 h2 (by exact hn hp)]
        exact h
      · rw [if_neg hm] at h ⊢
        exact h
  · rw [if_neg hp] at h ⊢
    exact h

theorem meltLayers_cover (dt : ℝ) (s : Snow) : (meltLayers dt s).snowcover = s.snowcover := by
  rw [meltLayers_eq]

theorem refreezeSurf_cover {q : ℝ} {s : Snow} {t : Snow × ℝ} (e : refreezeSurf q s = .ok t) : t.1.snowcover = s.snowcover := by
  unfold refreezeSurf at e
  split at e
  · obtain ⟨_, _, e⟩ := bind_eq_ok.mp e
    dsimp only at e
    split at e <;> cases e <;> rfl
  · cases e; rfl

theorem refreezeLower_cover {q r : ℝ} {s : Snow} {t : Snow × ℝ} (e : refreezeLower q s r = .ok t) : t.1.snowcover = s.snowcover := by
  unfold refreezeLower at e
  split at e
  · obtain ⟨_, _, e⟩ := bind_eq_ok.mp e
    dsimp only at e
    split at e <;> cases e <;> rfl
  · cases e; rfl

theorem refreezeSnap_cover (s : Snow) (r : ℝ) : (refreezeSnap s r).snowcover = s.snowcover := by
  unfold refreezeSnap
  split <;> rfl

theorem snowmelt_active (hmax : 0 < c.max_z_s_0) (hD : 0 ≤ D) (h1 : D ≤ c.max_z_s_0) (h2 : D ≤ v) {dt : ℝ} {s s' : Snow}
    (h : snowmelt c dt s = .ok s') (hz : s'.snowcover = true → s'.z_s ≤ D) : snowmelt (c.active v) dt s = .ok s' := by
  unfold snowmelt at h ⊢
  by_cases hs : s.snowcover = false
  · rw [if_pos hs] at h ⊢
    exact h
  · rw [if_neg hs] at h ⊢
    dsimp only at h ⊢
    obtain ⟨⟨t1, r1⟩, k1, h⟩ := bind_eq_ok.mp h
    rw [k1, bind_ok]
    dsimp only at h ⊢
    obtain ⟨⟨t2, r2⟩, k2, h⟩ := bind_eq_ok.mp h
    rw [k2, bind_ok]
    dsimp only at h ⊢
    have hc : (refreezeSnap t2 r2).snowcover = true := by
      rw [refreezeSnap_cover, show t2.snowcover = t1.snowcover from refreezeLower_cover k2,
        show t1.snowcover = (meltLayers dt s).snowcover from refreezeSurf_cover k1, meltLayers_cover]
      simpa using hs
    by_cases hm : (refreezeSnap t2 r2).melt > 0
    · rw [if_pos hm] at h ⊢
      refine bind_follow h fun q h => ?_
      cases h
      exact congrArg Except.ok (adj_snow_same hmax hD h1 h2 _ _ hc hz)
    · rw [if_neg hm] at h ⊢
      exact h

theorem soilEvap_active (i : InputData) (dt : ℝ) (s : Snow) : soilEvap (c.active v) i dt s = soilEvap c i dt s := rfl

theorem evap_cond_active (hmax : 0 < c.max_z_s_0) (hD : 0 ≤ D) (h1 : D ≤ c.max_z_s_0) (h2 : D ≤ v) {i : InputData} {dt : ℝ} {s s' : Snow}
    (h : evap_cond c i dt s = .ok s') (hz : s'.snowcover = true → s'.z_s ≤ D) : evap_cond (c.active v) i dt s = .ok s' := by
  unfold evap_cond at h ⊢
  by_cases hs : s.snowcover = false
  · rw [if_pos hs] at h ⊢
    exact h
  · have hs' : s.snowcover = true := by simpa using hs
    rw [if_neg hs] at h ⊢
    dsimp only at h ⊢
    by_cases h0 : s.layer_count = 0
    · have h3 : ¬ s.layer_count > 0 := by omega
      rw [if_pos (by exact h0)] at h ⊢
      simp only [pure_ok, bind_ok] at h ⊢
      rw [if_neg (by exact h3)] at h ⊢
      exact h
    · have h3 : s.layer_count > 0 := by omega
      rw [if_neg (by exact h0)] at h ⊢
      refine bind_follow h fun el h => ?_
      simp only [pure_ok, bind_ok] at h ⊢
      rw [if_pos (by exact h3)] at h ⊢
      refine bind_follow h fun q h => ?_
      cases h
      exact congrArg Except.ok (adj_snow_same hmax hD h1 h2 _ _ (by exact hs') hz)

theorem h2o_compact_active (hmax : 0 < c.max_z_s_0) (hD : 0 ≤ D) (h1 : D ≤ c.max_z_s_0) (h2 : D ≤ v) {i : InputData} {s s' : Snow}
    (h : h2o_compact c i s = .ok s') (hz : s'.snowcover = true → s'.z_s ≤ D) : h2o_compact (c.active v) i s = .ok s' := by
  unfold h2o_compact at h ⊢
  by_cases hc : s.snowcover = false ∨ s.rho > 550
  · rw [if_pos hc] at h ⊢
    exact h
  · have hs : s.snowcover = true := by
      cases hb : s.snowcover
      · exact absurd (.inl hb) hc
      · rfl
    rw [if_neg hc] at h ⊢
    dsimp only at h ⊢
    refine bind_follow h fun w h => ?_
    by_cases hw : w > 0.000001
    · rw [if_pos hw] at h ⊢
      refine bind_follow h fun b h => ?_
      refine bind_follow h fun q h => ?_
      refine bind_follow h fun z h => ?_
      cases h
      exact congrArg Except.ok (adj_layers_same hmax hD h1 h2 (by exact hs) hz)
    · rw [if_neg hw] at h ⊢
      exact h

theorem runoff_active (hmax : 0 < c.max_z_s_0) (hD : 0 ≤ D) (h1 : D ≤ c.max_z_s_0) (h2 : D ≤ v) {s s' : Snow}
    (h : runoff c s = .ok s') (hz : s.snowcover = true → s'.snowcover = true → s'.z_s ≤ D) : runoff (c.active v) s = .ok s' := by
  unfold runoff at h ⊢
  by_cases hc : s.snowcover = false ∨ s.layer_count = 0
  · rw [if_pos hc] at h ⊢
    exact h
  · have hs : s.snowcover = true := by
      cases hb : s.snowcover
      · exact absurd (.inl hb) hc
      · rfl
    rw [if_neg hc] at h ⊢
    dsimp only at h ⊢
    refine bind_follow h fun rd h => ?_
    by_cases hw : s.h2o_total > h2o_left s.z_s rd c.max_h2o_vol
    · rw [if_pos (by exact hw)] at h ⊢
      cases h
      exact congrArg Except.ok (adj_snow_same hmax hD h1 h2 _ _ (by exact hs) (hz hs))
    · rw [if_neg (by exact hw)] at h ⊢
      exact h

end

end Pysnobal
