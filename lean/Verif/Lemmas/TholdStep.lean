import Verif.Lemmas.ActiveStep

/-! # A run step with another small mass threshold -/

namespace Pysnobal

noncomputable section

/-- The environment with another small mass threshold. -/
def Env.thold (v : ℝ) (c : Env) : Env := { c with small_threshold := v }

/-- A pack heavier than `b` whose lower layer, if there is one, weighs at least `b`. -/
def Firm (c : Env) (b : ℝ) (s : Snow) : Prop := b < s.m_s ∧ (s.z_s ≤ c.max_z_s_0 ∨ b ≤ (s.z_s - c.max_z_s_0) * s.rho)

variable {c : Env} {v a b : ℝ}

theorem layers_keep {m z mx r t1 t2 : ℝ} (ht : t1 ≤ b) (hv : t2 ≤ b) (h : z ≤ mx ∨ b ≤ (z - mx) * r) :
    (z ≤ mx ∧ ¬ z - mx > 0) ∨ (z - mx > 0 ∧ ¬ (z - mx) * r < t1 ∧ ¬ (z - mx) * r < t2) := by
  by_cases hz : z ≤ mx
  · exact .inl ⟨hz, by linarith⟩
  · rcases h with h | h
    · exact absurd h hz
    · refine .inr ⟨by linarith [not_le.mp hz], ?_, ?_⟩ <;> linarith

theorem calc_layers_thold (h1 : c.small_threshold ≤ b) (h2 : v ≤ b) {s : Snow} (h : Firm c b s) :
    s.calc_layers (c.thold v) = s.calc_layers c := by
  unfold Snow.calc_layers
  rw [if_neg (show ¬ s.m_s ≤ c.small_threshold from by linarith [h.1]),
    if_neg (show ¬ s.m_s ≤ (c.thold v).small_threshold from by show ¬ s.m_s ≤ v; linarith [h.1])]
  dsimp only
  rcases layers_keep (m := s.m_s) h1 h2 h.2 with ⟨e, q⟩ | ⟨q1, q2, q3⟩
  · rw [if_neg (show ¬ s.z_s - (c.thold v).max_z_s_0 > 0 from q), if_neg (show ¬ s.z_s - (c.thold v).max_z_s_0 > 0 from q),
      if_neg q, if_neg q]
    simp only [zero_mul, ite_self]
  · rw [if_pos (show s.z_s - (c.thold v).max_z_s_0 > 0 from q1), if_pos (show s.z_s - (c.thold v).max_z_s_0 > 0 from q1),
      if_pos q1, if_pos q1]
    rw [if_neg (show ¬ (s.z_s - (c.thold v).max_z_s_0) * s.rho < (c.thold v).small_threshold from q3),
      if_neg (show ¬ (s.z_s - (c.thold v).max_z_s_0) * s.rho < (c.thold v).small_threshold from q3), if_neg q2, if_neg q2]
    rfl

theorem adj_layers_thold (h1 : c.small_threshold ≤ b) (h2 : v ≤ b) {s : Snow} (h : Firm c b s) :
    adj_layers (c.thold v) s = adj_layers c s := by
  unfold adj_layers
  rw [calc_layers_thold h1 h2 h]

theorem adj_layers_keep (hmax : 0 < c.max_z_s_0) (h1 : c.small_threshold ≤ b) (h2 : v ≤ b) {s : Snow} (hs : s.snowcover = true)
    (h : (adj_layers c s).snowcover = true ∧ Firm c b (adj_layers c s)) : adj_layers (c.thold v) s = adj_layers c s := by
  refine adj_layers_thold h1 h2 ?_
  rcases adj_layers_cases hmax s with ⟨q, _, _, h3, h4⟩ | ⟨q, _⟩
  · have := h.2
    unfold Firm at this ⊢
    rwa [q.m_s, h3, h4] at this
  · have := h.1
    rw [q.snowcover] at this; cases this

theorem adj_snow_keep (hmax : 0 < c.max_z_s_0) (h1 : c.small_threshold ≤ b) (h2 : v ≤ b) (dz dm : ℝ) {s : Snow}
    (hs : s.snowcover = true) (h : (adj_snow c dz dm s).snowcover = true ∧ Firm c b (adj_snow c dz dm s)) :
    adj_snow (c.thold v) dz dm s = adj_snow c dz dm s := by
  by_cases hr : adjRho dz dm s > 600
  · rw [adj_snow_clip hr] at h
    rw [adj_snow_clip hr, adj_snow_clip hr]
    exact adj_layers_keep hmax h1 h2 hs h
  · by_cases hz : dz = 0
    · subst hz
      rw [adj_snow_still hr, adj_snow_still hr]
    · rw [adj_snow_move hr hz] at h
      rw [adj_snow_move hr hz, adj_snow_move hr hz]
      exact adj_layers_keep hmax h1 h2 hs h

theorem init_snow_thold (ha : a ≤ c.small_threshold) (ha' : a ≤ v) (h1 : c.small_threshold ≤ b) (h2 : v ≤ b) {s : Snow}
    (h : s.rho * s.z_s ≤ a ∨ Firm c b { s with m_s := s.rho * s.z_s }) : init_snow (c.thold v) s = init_snow c s := by
  have e : Snow.calc_layers (c.thold v) { s with m_s := s.rho * s.z_s } = Snow.calc_layers c { s with m_s := s.rho * s.z_s } := by
    rcases h with h | h
    · unfold Snow.calc_layers
      rw [if_pos (show s.rho * s.z_s ≤ c.small_threshold from by linarith),
        if_pos (show s.rho * s.z_s ≤ (c.thold v).small_threshold from by show _ ≤ v; linarith)]
    · exact calc_layers_thold h1 h2 h
  unfold init_snow
  rw [e]
  rfl

theorem time_compact_thold (hmax : 0 < c.max_z_s_0) (h1 : c.small_threshold ≤ b) (h2 : v ≤ b) {dt : ℝ} {s s' : Snow}
    (h : time_compact c dt s = .ok s') (hz : s.snowcover = true → s'.snowcover = true ∧ Firm c b s') : time_compact (c.thold v) dt s = .ok s' := by
  unfold time_compact at h ⊢
  by_cases hc : s.snowcover = false ∨ s.rho ≥ RHO_MAX
  · rw [if_pos hc] at h ⊢
    exact h
  · have hs : s.snowcover = true := by
      cases hb : s.snowcover
      · exact absurd (.inl hb) hc
      · rfl
    rw [if_neg hc] at h ⊢
    refine bind_follow h fun rate h => ?_
    dsimp only at h ⊢
    refine bind_follow h fun d1 h => ?_
    refine bind_follow h fun d2 h => ?_
    refine bind_follow h fun z h => ?_
    cases h
    exact congrArg Except.ok (adj_layers_keep hmax h1 h2 (by exact hs) (hz hs))

theorem precip_event_thold (hmax : 0 < c.max_z_s_0) (ha : a ≤ c.small_threshold) (ha' : a ≤ v) (h1 : c.small_threshold ≤ b) (h2 : v ≤ b) {i : InputData} {s s' : Snow}
    (h : precip_event c i s = .ok s') (hz : s.snowcover = true → s'.snowcover = true ∧ Firm c b s')
    (hn : i.precip_now = true → s.snowcover = false → i.m_snow > 0 → i.rho_snow * i.z_snow ≤ a ∨
      Firm c b { (freshSnow i s) with m_s := i.rho_snow * i.z_snow }) : precip_event (c.thold v) i s = .ok s' := by
  have e := precip_event_ok h
  unfold precip_event at h ⊢
  by_cases hp : i.precip_now = true
  · rw [if_pos hp] at h ⊢
    by_cases hs : s.snowcover = true
    · rw [if_pos hs] at h ⊢
      have : adj_snow (c.thold v) i.z_snow i.m_pp s = adj_snow c i.z_snow i.m_pp s := by
        refine adj_snow_keep hmax h1 h2 _ _ hs ?_
        rcases e with ⟨h', _⟩ | ⟨_, _, t, rfl, rfl⟩ | ⟨_, h', _⟩ | ⟨_, h', _⟩
        · rw [hp] at h'; cases h'
        · exact hz hs
        · rw [hs] at h'; cases h'
        · rw [hs] at h'; cases h'
      rw [this]
      exact h
    · rw [if_neg hs] at h ⊢
      by_cases hm : i.m_snow > 0
      · rw [if_pos hm] at h ⊢
        rw [init_snow_thold ha ha' h1 h2 (by exact hn hp (by simpa using hs) hm)]
        exact h
      · rw [if_neg hm] at h ⊢
        exact h
  · rw [if_neg hp] at h ⊢
    exact h

theorem snowmelt_thold (hmax : 0 < c.max_z_s_0) (h1 : c.small_threshold ≤ b) (h2 : v ≤ b) {dt : ℝ} {s s' : Snow}
    (h : snowmelt c dt s = .ok s') (hz : s.snowcover = true → s'.snowcover = true ∧ Firm c b s') : snowmelt (c.thold v) dt s = .ok s' := by
  unfold snowmelt at h ⊢
  by_cases hs : s.snowcover = false
  · rw [if_pos hs] at h ⊢
    exact h
  · rw [if_neg hs] at h ⊢
    dsimp only at h ⊢
    obtain ⟨⟨t1, r1⟩, k1, h⟩ := bind_eq_ok.mp h
    rw [k1, bind_ok]
    dsimp only at h ⊢
    obtain ⟨⟨t2, r2⟩, k2, h⟩ := bind_eq_ok.mp h
    rw [k2, bind_ok]
    dsimp only at h ⊢
    have hc : (refreezeSnap t2 r2).snowcover = true := by
      rw [refreezeSnap_cover, show t2.snowcover = t1.snowcover from refreezeLower_cover k2,
        show t1.snowcover = (meltLayers dt s).snowcover from refreezeSurf_cover k1, meltLayers_cover]
      simpa using hs
    by_cases hm : (refreezeSnap t2 r2).melt > 0
    · rw [if_pos hm] at h ⊢
      refine bind_follow h fun q h => ?_
      cases h
      exact congrArg Except.ok (adj_snow_keep hmax h1 h2 _ _ hc (hz (by simpa using hs)))
    · rw [if_neg hm] at h ⊢
      exact h

theorem evap_cond_thold (hmax : 0 < c.max_z_s_0) (h1 : c.small_threshold ≤ b) (h2 : v ≤ b) {i : InputData} {dt : ℝ} {s s' : Snow}
    (h : evap_cond c i dt s = .ok s') (hz : s.snowcover = true → s'.snowcover = true ∧ Firm c b s') : evap_cond (c.thold v) i dt s = .ok s' := by
  unfold evap_cond at h ⊢
  by_cases hs : s.snowcover = false
  · rw [if_pos hs] at h ⊢
    exact h
  · have hs' : s.snowcover = true := by simpa using hs
    rw [if_neg hs] at h ⊢
    dsimp only at h ⊢
    by_cases h0 : s.layer_count = 0
    · have h3 : ¬ s.layer_count > 0 := by omega
      rw [if_pos (by exact h0)] at h ⊢
      simp only [pure_ok, bind_ok] at h ⊢
      rw [if_neg (by exact h3)] at h ⊢
      exact h
    · have h3 : s.layer_count > 0 := by omega
      rw [if_neg (by exact h0)] at h ⊢
      refine bind_follow h fun el h => ?_
      simp only [pure_ok, bind_ok] at h ⊢
      rw [if_pos (by exact h3)] at h ⊢
      refine bind_follow h fun q h => ?_
      cases h
      exact congrArg Except.ok (adj_snow_keep hmax h1 h2 _ _ (by exact hs') (hz hs'))

theorem h2o_compact_thold (hmax : 0 < c.max_z_s_0) (h1 : c.small_threshold ≤ b) (h2 : v ≤ b) {i : InputData} {s s' : Snow}
    (h : h2o_compact c i s = .ok s') (hz : s.snowcover = true → s'.snowcover = true ∧ Firm c b s') : h2o_compact (c.thold v) i s = .ok s' := by
  unfold h2o_compact at h ⊢
  by_cases hc : s.snowcover = false ∨ s.rho > 550
  · rw [if_pos hc] at h ⊢
    exact h
  · have hs : s.snowcover = true := by
      cases hb : s.snowcover
      · exact absurd (.inl hb) hc
      · rfl
    rw [if_neg hc] at h ⊢
    dsimp only at h ⊢
    refine bind_follow h fun w h => ?_
    by_cases hw : w > 0.000001
    · rw [if_pos hw] at h ⊢
      refine bind_follow h fun b h => ?_
      refine bind_follow h fun q h => ?_
      refine bind_follow h fun z h => ?_
      cases h
      exact congrArg Except.ok (adj_layers_keep hmax h1 h2 (by exact hs) (hz hs))
    · rw [if_neg hw] at h ⊢
      exact h

theorem runoff_thold (hmax : 0 < c.max_z_s_0) (h1 : c.small_threshold ≤ b) (h2 : v ≤ b) {s s' : Snow}
    (h : runoff c s = .ok s') (hz : s.snowcover = true → s'.snowcover = true ∧ Firm c b s') : runoff (c.thold v) s = .ok s' := by
  unfold runoff at h ⊢
  by_cases hc : s.snowcover = false ∨ s.layer_count = 0
  · rw [if_pos hc] at h ⊢
    exact h
  · have hs : s.snowcover = true := by
      cases hb : s.snowcover
      · exact absurd (.inl hb) hc
      · rfl
    rw [if_neg hc] at h ⊢
    dsimp only at h ⊢
    refine bind_follow h fun rd h => ?_
    by_cases hw : s.h2o_total > h2o_left s.z_s rd c.max_h2o_vol
    · rw [if_pos (by exact hw)] at h ⊢
      cases h
      exact congrArg Except.ok (adj_snow_keep hmax h1 h2 _ _ (by exact hs) (hz hs))
    · rw [if_neg (by exact hw)] at h ⊢
      exact h

end

end Pysnobal
