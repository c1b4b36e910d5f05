import Verif.Props.TurbTies
import Verif.Props.Refreeze
import Verif.Props.Thermal
import Verif.Props.Clipping

/-! # C83: in a thaw the pack only warms, and the run cannot fail except on exact ties -/

namespace Pysnobal

noncomputable section

/-! ## Specification -/

/-- Thaw weather: dry, air and ground not below freezing, wind, a vapour pressure not below that over melting snow, a sky
that radiates at least as much as melting snow. -/
structure Rec.Thaw (P_a : ℝ) (r : Rec) : Prop where
  dry : r.m_pp ≤ 0
  sun : 0 ≤ r.S_n
  sky : STEF_BOLTZ * FREEZE ^ 4 ≤ r.I_lw
  air : FREEZE ≤ r.t_a ∧ r.t_a ≤ BOIL
  wind : 0 < r.u
  ground : FREEZE ≤ r.t_g ∧ r.t_g ≤ BOIL ∧ ∀ e, sati r.t_g = .ok e → e < P_a
  moist : 610.71 ≤ r.e_a ∧ r.e_a < P_a

/-- The vapour pressure of none of the records is above saturation over ice at the air temperature of any of them. -/
def Unsaturated (rows : List Rec) : Prop :=
  ∀ r ∈ rows, ∀ q ∈ rows, ∀ sv, sati q.t_a = .ok sv → r.e_a ≤ sv

/-- Weather records of a thaw: every record is thaw weather, and the vapour pressure of each is below saturation over ice
at its own air temperature and those of its neighbours. -/
structure ThawRows (P_a : ℝ) (rows : List Rec) : Prop where
  thaw : ∀ r ∈ rows, r.Thaw P_a
  unsat : rows.IsChain fun r q => Unsaturated [r, q]

/-- The configuration leaves the instruments more than 5.9 roughness lengths above a pack as deep as the active layer,
and starts with a pack above absolute zero. -/
structure Config.ThawStart (g : Config) : Prop where
  z_0 : 0 < g.init_z_0
  z_u : 5.9 * g.init_z_0 < g.z_u - g.max_active
  z_t : 5.9 * g.init_z_0 < g.z_t - g.max_active
  surf : 0 < g.init_t_s_0
  mean : 0 < g.init_t_s

/-! ## The forcing of every run step -/

/-- Thaw weather as a run step sees it. -/
structure ThawIn (c : Env) (i : InputData) : Prop where
  dry : i.precip_now = false
  sun : 0 ≤ i.S_n
  sky : STEF_BOLTZ * FREEZE ^ 4 ≤ i.I_lw
  air : FREEZE ≤ i.t_a ∧ i.t_a ≤ BOIL
  wind : 0 < i.u
  ground : FREEZE ≤ i.t_g ∧ i.t_g ≤ BOIL ∧ ∀ e, sati i.t_g = .ok e → e < c.P_a
  moist : 610.71 ≤ i.e_a ∧ i.e_a < c.P_a
  unsat : ∀ sv, sati i.t_a = .ok sv → i.e_a ≤ sv

/-- The working forcing `i` is the fraction `w` of the way from `i1` to `i2`. -/
structure AtShare (i1 i2 : InputData) (w : ℝ) (i : InputData) : Prop where
  dry : i.precip_now = i1.precip_now
  sun : i.S_n = i1.S_n + w * (i2.S_n - i1.S_n)
  sky : i.I_lw = i1.I_lw + w * (i2.I_lw - i1.I_lw)
  air : i.t_a = i1.t_a + w * (i2.t_a - i1.t_a)
  wind : i.u = i1.u + w * (i2.u - i1.u)
  ground : i.t_g = i1.t_g + w * (i2.t_g - i1.t_g)
  moist : i.e_a = i1.e_a + w * (i2.e_a - i1.e_a)

theorem mix_ge {a b w x : ℝ} (h0 : 0 ≤ w) (h1 : w ≤ 1) (ha : x ≤ a) (hb : x ≤ b) : x ≤ a + w * (b - a) := by
  nlinarith

theorem mix_le {a b w x : ℝ} (h0 : 0 ≤ w) (h1 : w ≤ 1) (ha : a ≤ x) (hb : b ≤ x) : a + w * (b - a) ≤ x := by
  nlinarith

theorem sati_mono {s t v w : ℝ} (h : s ≤ t) (hb : t ≤ BOIL) (hv : sati s = .ok v) (hw : sati t = .ok w) : v ≤ w := by
  rcases h.eq_or_lt with h | h
  · rw [h, hw] at hv; cases hv; rfl
  · exact (C35_sati_increasing _ _ _ _ h hb hv hw).le

theorem AtShare.thaw {c : Env} {r1 r2 : Rec} (t1 : r1.Thaw c.P_a) (t2 : r2.Thaw c.P_a)
    (hu : Unsaturated [r1, r2]) {i1 i2 : InputData} (n1 : InputData.new r1 = .ok i1) (n2 : InputData.new r2 = .ok i2)
    {w : ℝ} (h0 : 0 ≤ w) (h1 : w ≤ 1) {i : InputData} (h : AtShare i1 i2 w i) : ThawIn c i := by
  obtain ⟨rfl, _⟩ := new_ok n1
  obtain ⟨rfl, _⟩ := new_ok n2
  have hf := freeze_pos
  refine ⟨?_, ?_, ?_, ⟨?_, ?_⟩, ?_, ⟨?_, ?_, ?_⟩, ⟨?_, ?_⟩, ?_⟩
  · rw [h.dry]
    simpa [Rec.toInput] using t1.dry
  · rw [h.sun]; exact mix_ge h0 h1 t1.sun t2.sun
  · rw [h.sky]; exact mix_ge h0 h1 t1.sky t2.sky
  · rw [h.air]; exact mix_ge h0 h1 t1.air.1 t2.air.1
  · rw [h.air]; exact mix_le h0 h1 t1.air.2 t2.air.2
  · rw [h.wind]
    have := mix_ge h0 h1 (min_le_left r1.u r2.u) (min_le_right r1.u r2.u)
    exact lt_of_lt_of_le (lt_min t1.wind t2.wind) this
  · rw [h.ground]; exact mix_ge h0 h1 t1.ground.1 t2.ground.1
  · rw [h.ground]; exact mix_le h0 h1 t1.ground.2.1 t2.ground.2.1
  · intro e he
    have hm : i.t_g ≤ max r1.t_g r2.t_g := by
      rw [h.ground]; exact mix_le h0 h1 (le_max_left _ _) (le_max_right _ _)
    have key : ∀ r : Rec, r.Thaw c.P_a → i.t_g ≤ r.t_g → e < c.P_a := by
      intro r t hle
      obtain ⟨y, hy⟩ := sati_ok_iff.mpr (hf.trans_le t.ground.1)
      exact lt_of_le_of_lt (sati_mono hle t.ground.2.1 he hy) (t.ground.2.2 y hy)
    rcases max_choice r1.t_g r2.t_g with q | q
    · rw [q] at hm; exact key r1 t1 hm
    · rw [q] at hm; exact key r2 t2 hm
  · rw [h.moist]; exact mix_ge h0 h1 t1.moist.1 t2.moist.1
  · rw [h.moist]
    have := mix_le h0 h1 (le_max_left r1.e_a r2.e_a) (le_max_right r1.e_a r2.e_a)
    exact lt_of_le_of_lt this (max_lt t1.moist.2 t2.moist.2)
  · intro sv hsv
    have hm : min r1.t_a r2.t_a ≤ i.t_a := by
      rw [h.air]; exact mix_ge h0 h1 (min_le_left _ _) (min_le_right _ _)
    have hb : i.t_a ≤ BOIL := by rw [h.air]; exact mix_le h0 h1 t1.air.2 t2.air.2
    have he : i.e_a ≤ max r1.e_a r2.e_a := by
      rw [h.moist]; exact mix_le h0 h1 (le_max_left _ _) (le_max_right _ _)
    have key : ∀ r ∈ [r1, r2], ∀ q ∈ [r1, r2], r.e_a = max r1.e_a r2.e_a → q.t_a = min r1.t_a r2.t_a → i.e_a ≤ sv := by
      intro r hr q hq e1 e2
      have hq0 : 0 < q.t_a := by
        rw [e2]; exact lt_min (hf.trans_le t1.air.1) (hf.trans_le t2.air.1)
      obtain ⟨y, hy⟩ := sati_ok_iff.mpr hq0
      have h1 := hu r hr q hq y hy
      have h2 := sati_mono (by rw [e2]; exact hm) hb hy hsv
      linarith
    rcases max_choice r1.e_a r2.e_a with q | q <;> rcases min_choice r1.t_a r2.t_a with q' | q'
    · exact key r1 (by simp) r1 (by simp) q.symm q'.symm
    · exact key r1 (by simp) r2 (by simp) q.symm q'.symm
    · exact key r2 (by simp) r1 (by simp) q.symm q'.symm
    · exact key r2 (by simp) r2 (by simp) q.symm q'.symm

/-- A run step in thaw weather leaves the working forcing as it is. -/
theorem stepPhys_unclipped {c : Env} {dt : ℝ} {dl : InputData} {p p' : Phys} (h : stepPhys c dt dl p = .ok p')
    (hu : ∀ sv, sati p.input1.t_a = .ok sv → p.input1.e_a ≤ sv) : p'.input1.e_a = p.input1.e_a := by
  have ha : (applied dl p.input1).e_a = p.input1.e_a ∧ (applied dl p.input1).t_a = p.input1.t_a := by
    unfold applied InputData.update_precip_deltas
    split <;> exact ⟨rfl, rfl⟩
  obtain ⟨p1, h1, _, hp⟩ := stepPhys_ok h
  have e : p'.input1 = p1.input1 := by rw [hp]
  rw [e]
  rcases energy_balance_ok h1 with ⟨_, r, p2, G, G0, M, k1, _, _, k2⟩ | ⟨_, k2⟩
  · obtain ⟨sv, es, k3, _, k4, _⟩ := h_le_ok k1
    simp only [ha.2] at k3
    have : p1.input1 = p2.input1 := by rw [k2]
    rw [this, k4]
    simp only [ha.1]
    exact min_eq_left (hu sv k3)
  · rw [k2]; exact ha.1

/-- The working forcing along run steps that begin a data step. -/
theorem runs_thaw {c : Env} {ts : Tsteps} {all : Bool} {i1 i2 : InputData} {dl : Level → InputData} (hn : TileOK ts)
    (hd : ∀ lv, dl lv = (deltaRec i1 i2 (ts lv).intervals_per_timestep).toInput)
    (hth : ∀ w i, 0 ≤ w → w ≤ 1 → AtShare i1 i2 w i → ThawIn c i) {m m' : Model}
    {l : List (RStep Phys)} (h : (snobalSim c ts all dl).Runs m l m') :
    ∀ w, 0 ≤ w → w + (l.map fun y => 1 / ((ts y.lv).intervals_per_timestep : ℝ)).sum ≤ 1 →
      AtShare i1 i2 w m.phys.input1 → ThawIn c m'.phys.input1 ∧ ∀ x ∈ l, ThawIn c x.pre.input1 ∧ ThawIn c x.post.input1 := by
  have hpos : ∀ lv, (0 : ℝ) < ((ts lv).intervals_per_timestep : ℝ) := fun lv => by exact_mod_cast hn.ipt_pos lv
  induction h with
  | nil =>
    intro w h0 h1 ha
    simp only [List.map_nil, List.sum_nil, add_zero] at h1
    exact ⟨hth w _ h0 h1 ha, by simp⟩
  | @enter st st' l h ih =>
    intro w h0 h1 ha
    refine ih w h0 h1 ?_
    show AtShare i1 i2 w (if st.phys.input1.precip_now then _ else _ : Phys).input1
    split
    · exact ⟨ha.dry, ha.sun, ha.sky, ha.air, ha.wind, ha.ground, ha.moist⟩
    · exact ha
  | @step st st1 st2 l lv p hb hp hd1 h ih =>
    intro w h0 h1 ha
    simp only [List.map_cons, List.sum_cons] at h1
    have hlv := hpos lv
    have hs : 0 ≤ (l.map fun y => 1 / ((ts y.lv).intervals_per_timestep : ℝ)).sum :=
      List.sum_nonneg fun x hx => by
        obtain ⟨y, _, rfl⟩ := List.mem_map.mp hx
        exact (one_div_pos.mpr (hpos y.lv)).le
    have hv : 0 < 1 / ((ts lv).intervals_per_timestep : ℝ) := one_div_pos.mpr hlv
    have hpre := hth w _ h0 (by linarith) ha
    obtain ⟨p', a, hp', _, e1, e2, ho⟩ := do_tstep_ok hd1
    rw [hp] at hp'
    cases hp'
    obtain ⟨k1, k2, k3, k4, k5, k6, k7, _⟩ := stepPhys_keeps hp
    have k8 := stepPhys_unclipped hp hpre.unsat
    have f : st1.phys.input1 = p.input1.add_deltas (dl lv) := by rw [e1]; rfl
    have hpost : AtShare i1 i2 w p.input1 := by
      refine ⟨?_, ?_, ?_, ?_, ?_, ?_, ?_⟩
      · rw [k7]; exact ha.dry
      · rw [k1]; exact ha.sun
      · rw [k2]; exact ha.sky
      · rw [k3]; exact ha.air
      · rw [k4]; exact ha.wind
      · rw [k5]; exact ha.ground
      · rw [k8]; exact ha.moist
    have hnext : AtShare i1 i2 (w + 1 / ((ts lv).intervals_per_timestep : ℝ)) st1.phys.input1 := by
      rw [f, hd]
      refine ⟨?_, ?_, ?_, ?_, ?_, ?_, ?_⟩ <;> simp only [InputData.add_deltas, InputData.update_precip_deltas, Rec.toInput, deltaRec]
      · exact hpost.dry
      · rw [hpost.sun]; ring
      · rw [hpost.sky]; ring
      · rw [hpost.air]; ring
      · rw [hpost.wind]; ring
      · rw [hpost.ground]; ring
      · rw [hpost.moist]; ring
    obtain ⟨q1, q2⟩ := ih (w + 1 / ((ts lv).intervals_per_timestep : ℝ)) (by linarith) (by linarith) hnext
    refine ⟨q1, fun x hx => ?_⟩
    rcases List.mem_cons.mp hx with rfl | hx
    · exact ⟨hpre, hth w _ h0 (by linarith) hpost⟩
    · exact q2 x hx

/-! ## The fluxes -/

/-- Instruments more than 5.9 roughness lengths above snow of depth up to the active layer. -/
structure Env.High (c : Env) : Prop where
  rel : c.relative_hts = false
  z_0 : 0 < c.z_0
  z_u : 5.9 * c.z_0 < c.z_u - c.max_z_s_0
  z_t : 5.9 * c.z_0 < c.z_t - c.max_z_s_0

/-- In thaw weather heat and vapour flow towards snow that is not above freezing. -/
theorem thaw_exchange {c : Env} (hc : c.High) (hP : 610.71 < c.P_a) {p : Phys} (hi : ThawIn c p.input1) (hg : GuessP p)
    (hz : p.snow.z_s ≤ c.max_z_s_0) (h0 : 0 < p.snow.t_s_0) (h1 : p.snow.t_s_0 ≤ FREEZE) :
    ∃ r p1, h_le c p = .ok (r, p1) ∧ 0 < r.h ∧ 0 ≤ r.e ∧ 0 ≤ r.le := by
  have hf := freeze_pos
  have hta : 0 < p.input1.t_a := hf.trans_le hi.air.1
  obtain ⟨sv, hsv⟩ := sati_ok_iff.mpr hta
  obtain ⟨es, hes⟩ := sati_ok_iff.mpr h0
  obtain ⟨w, hsw⟩ := satw_ok_iff.mpr hta
  have hes0 := sati_value_pos hes
  have hes' : es ≤ 610.71 := sati_le_freeze h1 hes
  have hw : 610.71 < w := by
    obtain ⟨wf, hwf⟩ := satw_ok_iff.mpr hf
    have := satw_freeze_gt wf hwf
    rcases hi.air.1.eq_or_lt with h | h
    · rw [← h, hwf] at hsw; cases hsw; exact this
    · exact this.trans (C35_satw_increasing _ _ _ _ h hi.air.2 hwf hsw)
  obtain ⟨ea, hea⟩ : ∃ ea, ea = min (min p.input1.e_a sv) w := ⟨_, rfl⟩
  have hmin : min p.input1.e_a sv = p.input1.e_a := min_eq_left (hi.unsat sv hsv)
  have hle : es ≤ ea := by
    rw [hea, hmin]
    exact le_min (hes'.trans hi.moist.1) (hes'.trans hw.le)
  have hlt : ea < c.P_a := by
    rw [hea, hmin]
    exact lt_of_le_of_lt (min_le_left _ _) hi.moist.2
  have hq : 0 ≤ vapourFraction ea c.P_a - vapourFraction es c.P_a := by
    have hm1 : (0:ℝ) < MOL_H2O := by norm_num [MOL_H2O]
    have hm2 : (0:ℝ) < MOL_AIR := by norm_num [MOL_AIR]
    unfold vapourFraction
    rw [sub_nonneg, div_le_div_iff₀]
    · have e0 : (0:ℝ) < MOL_H2O * MOL_AIR * c.P_a := by
        have : 0 < c.P_a := by linarith
        positivity
      nlinarith
    · have := mul_pos hm2 (show 0 < c.P_a - es by linarith)
      have := mul_pos hm1 hes0
      linarith
    · have := mul_pos hm2 (show 0 < c.P_a - ea by linarith)
      have := mul_pos hm1 (lt_of_lt_of_le hes0 hle)
      linarith
  have hz0 := hc.z_0
  obtain ⟨zt, ezt⟩ : ∃ zt, zt = if c.relative_hts then c.z_t else c.z_t - p.snow.z_s := ⟨_, rfl⟩
  have hzt : 5.9 * c.z_0 < zt := by
    rw [ezt, hc.rel]; simp only [Bool.false_eq_true, if_false]; linarith [hc.z_t]
  obtain ⟨θ, eθ⟩ : ∃ θ, θ = p.input1.t_a + GRAVITY / CP_AIR * zt := ⟨_, rfl⟩
  have hgc : 0 < GRAVITY / CP_AIR := div_pos grav_pos cpair_pos
  have hθ : p.snow.t_s_0 < θ := by
    have : 0 < zt := by linarith
    have := mul_pos hgc this
    rw [eθ]; linarith [hi.air.1]
  have hθ0 : 0 < θ := h0.trans hθ
  obtain ⟨r, κ, k1, k2, _, k3, k4⟩ := C52_turbulence_stratified c p hz0
    (zu := if c.relative_hts then c.z_u else c.z_u - p.snow.z_s) rfl ezt
    (by rw [hc.rel]; simp only [Bool.false_eq_true, if_false]; linarith [hc.z_u]) hzt hi.wind hta h0
    (by linarith [hi.moist.1]) hsv hes hsw (by rw [hmin]; exact hi.moist.2) (by linarith) eθ hθ.ne' (by
      rw [← hea]
      have := div_pos (sub_pos.mpr hθ) hθ0
      linarith) hg
  have hr : 0 ≤ r.e := by rw [k4, ← hea]; exact mul_nonneg k2.le hq
  refine ⟨r, _, k1, ?_, hr, ?_⟩
  · rw [k3]; exact mul_pos k2 (mul_pos cpair_pos (sub_pos.mpr hθ))
  · obtain ⟨sv', es', _, _, _, _, _, _, _, hh⟩ := h_le_ok k1
    rw [(C34_latent_heat _ _ hh).1 h1]
    refine mul_nonneg ?_ hr
    show 0 ≤ lh_sub p.snow.t_s_0
    unfold lh_sub lh_vap lh_fus
    linarith

/-- … and so does radiation. -/
theorem thaw_radiation {i : InputData} {s : Snow} {c : Env} (hi : ThawIn c i) (h0 : 0 < s.t_s_0) (h1 : s.t_s_0 ≤ FREEZE) :
    0 ≤ net_radiation i s := by
  have : s.t_s_0 ^ 4 ≤ FREEZE ^ 4 := pow_le_pow_left₀ h0.le h1 4
  have hs : (0:ℝ) ≤ STEF_BOLTZ := by norm_num [STEF_BOLTZ]
  have h2 := mul_le_mul_of_nonneg_left this hs
  have h3 := hi.sky
  have h4 := hi.sun
  unfold net_radiation
  have : 0 ≤ SNOW_EMISSIVITY * (i.I_lw - STEF_BOLTZ * s.t_s_0 ^ 4) :=
    mul_nonneg (by norm_num [SNOW_EMISSIVITY]) (by linarith)
  linarith

/-! ## The pack -/

/-- A one-layer pack in a thaw: between absolute zero and freezing, its cold content not below that of its mass at its
temperature; a pack of negative mass (drained of more than there was) is at freezing. -/
structure Thawing (s : Snow) : Prop where
  mass : s.m_s ≠ 0
  surf : 0 < s.t_s_0 ∧ s.t_s_0 ≤ FREEZE
  mean : 0 < s.t_s ∧ s.t_s ≤ FREEZE
  cold : s.cc_s_0 ≤ 0
  store : 0 < s.m_s → cp_ice s.t_s_0 * s.m_s * (s.t_s_0 - FREEZE) ≤ s.cc_s_0
  over : s.m_s < 0 → s.t_s_0 = FREEZE ∧ s.t_s = FREEZE

theorem new_tsno_mass {m t cc x : ℝ} (h : new_tsno m t cc = .ok x) : m ≠ 0 := by
  unfold new_tsno at h
  obtain ⟨q, hq, h⟩ := bind_eq_ok.mp h
  rw [pdiv_eq_ok] at hq
  intro h0
  exact hq.1 (by rw [h0, zero_mul])

theorem cp_ice_le {s t : ℝ} (h : s ≤ t) : cp_ice s ≤ cp_ice t := by
  unfold cp_ice CAL_TO_J
  have h1 : (0:ℝ) ≤ 4.186798188 := by norm_num
  refine div_le_div_of_nonneg_right (mul_le_mul_of_nonneg_left ?_ h1) (by norm_num)
  linarith

theorem applied_dry {dl i : InputData} (h : i.precip_now = false) : applied dl i = i := by
  unfold applied
  rw [if_neg (by rw [h]; simp)]

variable {c : Env} {dt : ℝ} {dl : InputData} {p p' : Phys} {s0 s1 s2 s3 s4 s5 s6 : Snow}

/-- An overdrawn pack is released by the step. -/
theorem StepChain.overdrawn (hc : c.OK) (k : StepChain c dt dl p p' s0 s1 s2 s3 s4 s5 s6) (hi : Inv c p.snow)
    (hm : p.snow.m_s < 0) : p'.snow.snowcover = false := by
  by_contra hcov
  have hcov' : p'.snow.snowcover = true := by simpa using hcov
  obtain ⟨_, _, _, _, _, f1, f0, hl⟩ := k.persist hc.max_z hcov'
  have hz := (hi.lc_pos_iff hc.max_z).mp hl
  have hr : p.snow.rho < 0 := by
    rw [hi.dens hz]; exact div_neg_of_neg_of_pos hm (hi.z_pos hz)
  have e0 : s0.m_s = p.snow.m_s ∧ s0.rho = p.snow.rho := by rw [k.start]; exact ⟨rfl, rfl⟩
  rcases time_compact_ok k.tc with ⟨q | q, _⟩ | ⟨_, _, _, d1, d2, _, _, _, _, _, e⟩
  · rw [f0] at q; cases q
  · rw [e0.2] at q
    have : (0:ℝ) < RHO_MAX := by norm_num [RHO_MAX]
    linarith
  · rcases adj_layers_cases hc.max_z { s0 with rho := s0.rho + (d1 + d2) * s0.rho
                                               z_s := s0.m_s / (s0.rho + (d1 + d2) * s0.rho) } with ⟨_, a, _⟩ | ⟨a, _⟩
    · have := show c.small_threshold < s0.m_s from a
      have := hc.small
      linarith [e0.1]
    · rw [← e] at a
      have := a.snowcover
      rw [f1] at this; cases this

/-- The temperature of a one-layer pack after a step. -/
theorem StepChain.single_temp (hmax : 0 < c.max_z_s_0) (k : StepChain c dt dl p p' s0 s1 s2 s3 s4 s5 s6)
    (hs : p'.snow.snowcover = true) (hlc : p'.snow.layer_count = 1) :
    p'.snow.t_s = p'.snow.t_s_0 ∧ p'.snow.m_s_0 ≠ 0 ∧
      p'.snow.cc_s_0 = cp_ice p.snow.t_s_0 * p'.snow.m_s_0 * (p'.snow.t_s_0 - FREEZE) := by
  have f6 := (k.persist hmax hs).1
  have g1 : p'.snow.cc_s_0 = s6.cc_s_0 ∧ p'.snow.layer_count = s6.layer_count ∧ p'.snow.m_s_0 = s6.m_s_0 := by
    rw [k.frame7]; exact ⟨rfl, rfl, rfl⟩
  rcases k.fin with ⟨_, hadj⟩ | ⟨h, _⟩
  · rw [g1.2.1] at hlc
    rcases adjust_ok hadj with ⟨_, t, ht, e⟩ | ⟨h2, _⟩ | ⟨h2, _⟩ | ⟨h2, _⟩
    · have h1 := new_tsno_cold ht
      rw [k.surface_temp hmax f6] at h1
      have h2 := new_tsno_mass ht
      refine ⟨by rw [e], by rw [g1.2.2]; exact h2, ?_⟩
      rw [g1.1, g1.2.2, h1, e]
    · omega
    · omega
    · omega
  · rw [f6] at h; cases h

/-- What a run step in a thaw does to a shallow pack. -/
structure Warmed (dt : ℝ) (x : RStep Phys) : Prop where
  radiation : 0 ≤ x.post.snow.en.R_n
  heat : 0 < x.post.snow.en.H
  latent : 0 ≤ x.post.snow.en.L_v_E
  soil : 0 ≤ x.post.snow.en.G
  gain : 0 < x.post.snow.en.delta_Q_0
  vapour : 0 ≤ x.post.snow.E
  lasts : x.post.snow.snowcover = true → x.post.snow.E * dt ≤ x.post.snow.E_s ∧
    x.pre.snow.cc_s_0 ≤ x.post.snow.cc_s_0 ∧ x.post.snow.cc_s_0 ≤ 0 ∧
    (x.post.snow.layer_count = 1 → x.pre.snow.t_s_0 ≤ x.post.snow.t_s_0 ∧ x.post.snow.t_s_0 ≤ FREEZE ∧
      (x.post.snow.t_s_0 < FREEZE → x.pre.snow.m_s ≤ x.post.snow.m_s))

theorem shallow_single (hmax : 0 < c.max_z_s_0) {s : Snow} (hi : Inv c s) (hz : s.z_s ≤ c.max_z_s_0) (hl : 0 < s.layer_count) :
    s.layer_count = 1 := by
  have h0 := (hi.lc_pos_iff hmax).mp hl
  rcases hi.zl.eq_or_lt with h | h
  · exact (hi.toL h0).lc.1 h.symm
  · have := hi.full h
    have := hi.sum
    linarith

theorem thaw_runStep {g : Config} {x : RStep Phys} (ho : c.OK) (hc : mkEnv g = .ok c) (hh : c.High) (hP : 610.71 < c.P_a)
    (hzg : 0 < c.z_g) (hdt : 0 < dt) (hi : Inv c x.pre.snow) (hi' : Inv c x.post.snow) (hw : 0 ≤ x.pre.snow.h2o)
    (hw' : 0 ≤ x.post.snow.h2o)
    (hg : GuessP x.pre) (t : ThawIn c x.pre.input1) (t' : ThawIn c x.post.input1)
    (h : stepPhys c dt dl x.pre = .ok x.post) (hz : x.pre.snow.z_s ≤ c.max_z_s_0)
    (hp : x.pre.snow.layer_count = 1 → Thawing x.pre.snow) :
    (x.post.snow.layer_count = 1 → Thawing x.post.snow) ∧ (0 < x.pre.snow.layer_count → 0 < x.pre.snow.m_s → Warmed dt x) := by
  obtain ⟨s0, s1, s2, s3, s4, s5, s6, k⟩ := step_chain ho.max_z hi h
  have hsoil : SoilOK c x.post.input1 :=
    ⟨hzg.ne', hP, freeze_pos.trans_le t'.ground.1, t'.ground.2.2⟩
  -- the ended pack
  have hend : x.post.snow.snowcover = false → x.post.snow.layer_count = 0 := by
    intro hs
    rcases k.ended ho.max_z hs with h | ⟨hp, _⟩
    · exact h
    · rw [t'.dry] at hp; cases hp
  by_cases hlc : 0 < x.pre.snow.layer_count
  swap
  · refine ⟨fun h1 => ?_, fun h => absurd h hlc⟩
    by_cases hs : x.post.snow.snowcover = true
    · exact absurd (k.persist ho.max_z hs).2.2.2.2.2.2.2 hlc
    · have := hend (by simpa using hs); omega
  have hl1 := shallow_single ho.max_z hi hz hlc
  have T := hp hl1
  rcases lt_or_gt_of_ne T.mass with hneg | hm
  · have hs := k.overdrawn ho hi hneg
    refine ⟨fun h1 => ?_, fun _ h => absurd h (not_lt.mpr hneg.le)⟩
    have := hend hs; omega
  -- fluxes
  have h0 := (hi.lc_pos_iff ho.max_z).mp hlc
  have hzp := hi.z_pos h0
  have hr : 0 < x.pre.snow.rho := by rw [hi.dens h0]; exact div_pos hm hzp
  have hfl : 0 ≤ x.post.snow.en.R_n ∧ 0 < x.post.snow.en.H ∧ 0 ≤ x.post.snow.en.L_v_E ∧ 0 ≤ x.post.snow.en.G ∧
      0 < x.post.snow.en.delta_Q_0 ∧ 0 ≤ x.post.snow.E := by
    rcases stepPhys_energy h with ⟨_, r, p1, G, G0, M, k1, k2, k3, k4, k5⟩ | ⟨h0', _⟩
    · rw [applied_dry t.dry] at k1 k5
      obtain ⟨r', p1', j1, j2, j3, j4⟩ := thaw_exchange hh hP (p := { x.pre with
        input1 := x.pre.input1
        snow := { x.pre.snow with h2o_total := 0, snowcover := decide (x.pre.snow.layer_count > 0) } }) t hg hz T.surf.1 T.surf.2
      rw [k1] at j1
      cases j1
      have hR := thaw_radiation t T.surf.1 T.surf.2
      have hG : 0 ≤ G ∧ G0 = G := by
        unfold heat_transfer at k2
        rw [if_pos hl1] at k2
        obtain ⟨y, hy, k2⟩ := bind_eq_ok.mp k2
        simp only [pure_ok, Except.ok.injEq, Prod.mk.injEq] at k2
        refine ⟨?_, by rw [← k2.1, ← k2.2]⟩
        rw [← k2.1]
        by_contra hn
        have := (g_soil_sign hsoil hzg t'.ground.2.1 hr (b := true) h0 T.surf.2 hy).2.mp (not_le.mp hn)
        simp only [if_true] at this
        linarith [T.surf.2, t'.ground.1]
      have hM : M = 0 := by
        unfold advec at k3
        rw [if_neg (by rw [t'.dry]; simp)] at k3
        cases k3; rfl
      rw [k5, k4]
      dsimp only
      refine ⟨hR, j2, j4, hG.1, ?_, j3⟩
      rw [hM, hG.2]; linarith [hG.1]
    · omega
  obtain ⟨f1, f2, f3, f4, f5, f6⟩ := hfl
  -- the lasting pack
  have hlast : x.post.snow.snowcover = true → x.post.snow.E * dt ≤ x.post.snow.E_s ∧
      x.pre.snow.cc_s_0 ≤ x.post.snow.cc_s_0 ∧ x.post.snow.cc_s_0 ≤ 0 ∧
      (x.post.snow.layer_count = 1 → Thawing x.post.snow ∧ x.pre.snow.t_s_0 ≤ x.post.snow.t_s_0 ∧
        (x.post.snow.t_s_0 < FREEZE → x.pre.snow.m_s ≤ x.post.snow.m_s)) := by
    intro hs
    obtain ⟨q6, q5, q4, q3, q2, q1, q0, _⟩ := k.persist ho.max_z hs
    obtain ⟨x1, x2, x3⟩ := k.fluxE ho.max_z q5
    obtain ⟨_, _, el, w', hel, _, hE, st4, _⟩ := k.flag4 ho.max_z q4
    have hel0 : 0 ≤ el := by
      have hT := k.base_temp ho.max_z q3
      rw [soilEvap_eq] at hel
      have hlc3 : Snow.layer_count { s3 with h2o_total := evapH2o s3.h2o_total (s3.E * dt) } = s3.layer_count := rfl
      rw [hlc3] at hel
      dsimp only at hel
      have hb : ∀ T' ∈ packTemps x.pre.snow, 0 < T' ∧ T' ≤ FREEZE := by
        intro T' hT'
        unfold packTemps at hT'
        rw [if_neg (by omega)] at hT'
        simp only [List.mem_cons, List.not_mem_nil, or_false] at hT'
        rcases hT' with rfl | rfl
        · exact T.surf
        · exact T.mean
      obtain ⟨b1, b2⟩ := hb _ hT
      exact soilExchange_nonneg hsoil hzg hdt.le b1 b2 (b2.trans t'.ground.1) t'.ground.2.1 hel
    have hEs : x.post.snow.E * dt ≤ x.post.snow.E_s := by rw [x1, x2, hE]; linarith
    have hEs0 : 0 ≤ x.post.snow.E_s := (mul_nonneg f6 hdt.le).trans hEs
    obtain ⟨r0, rl, w, z1, z2, z3, z4, two, a, b, wb, db, eb, fb, qq⟩ :=
      k.energyBooks (g := g) ho (mkEnv_ok hc).2.2.1 (mkEnv_ok hc).2.1 (mkEnv_ok hc).1 hdt hw
        (fun hpn => by rw [t'.dry] at hpn; cases hpn) hs
    have h2 : two = false := ((qq t'.dry hm).1 hl1 (by rw [← (mkEnv_ok hc).1]; exact hz)).1
    have hlf : (0:ℝ) < lh_fus FREEZE := by rw [lf_eq]; norm_num
    have hgain : 0 ≤ x.post.snow.en.delta_Q_0 * dt := (mul_pos f5 hdt).le
    have hs1 := wb.surface
    have hs2 := fb.surface
    rw [h2, if_neg (by simp), mul_one] at hs2
    have hr0 := mul_nonneg hlf.le wb.surface_nonneg
    have hcc : x.pre.snow.cc_s_0 ≤ x.post.snow.cc_s_0 := by
      have : x.pre.snow.cc_s_0 ≤ min 0 (x.pre.snow.cc_s_0 + x.post.snow.en.delta_Q_0 * dt) :=
        le_min T.cold (by linarith)
      linarith
    have hcc0 : x.post.snow.cc_s_0 ≤ 0 := by
      have h1 := min_max_cancel (x.pre.snow.cc_s_0 + x.post.snow.en.delta_Q_0 * dt)
      have h3 := min_le_left (max 0 (-(x.pre.snow.cc_s_0 + x.post.snow.en.delta_Q_0 * dt)))
        (lh_fus FREEZE * (x.pre.snow.h2o + waterIn g x + x.post.snow.melt))
      linarith
    refine ⟨hEs, hcc, hcc0, fun hl' => ?_⟩
    obtain ⟨u1, u2, u3⟩ := k.single_temp ho.max_z hs hl'
    have hm0 : x.post.snow.m_s_0 = x.post.snow.m_s := by
      have hz0' := (hi'.lc_pos_iff ho.max_z).mp (by omega)
      have hzl : x.post.snow.z_s_l = 0 := by
        rcases hi'.zl.eq_or_lt with h | h
        · exact h.symm
        · have := (hi'.toL hz0').lc.2 h; omega
      rw [(hi'.pack hz0').1, (hi'.pack hz0').2.1, hi'.sum, hzl, add_zero]
    rw [hm0] at u2 u3
    have hcp := cp_ice_pos T.surf.1.le
    rcases hcc0.eq_or_lt with e0 | hlt
    · -- at freezing
      have ht' : x.post.snow.t_s_0 = FREEZE := by
        rw [e0] at u3
        rcases mul_eq_zero.mp u3.symm with q | q
        · rcases mul_eq_zero.mp q with q | q
          · exact absurd q hcp.ne'
          · exact absurd q u2
        · linarith
      refine ⟨⟨u2, by rw [ht']; exact ⟨freeze_pos, le_refl _⟩, by rw [u1, ht']; exact ⟨freeze_pos, le_refl _⟩, hcc0,
        fun _ => by rw [ht', e0]; simp, fun _ => ⟨ht', by rw [u1, ht']⟩⟩, by rw [ht']; exact T.surf.2, fun hlt => ?_⟩
      rw [ht'] at hlt; exact absurd hlt (lt_irrefl _)
    · -- still cold
      have hfs := frozen_share hs1 hs2 hlt
      have hdry := wb.dry (by rw [(eb.single h2).1, hfs]; ring)
      have hmass := step_mass ho.max_z hi h hs
      have hsp : stepPrecip x.post = 0 := by
        unfold stepPrecip
        rw [if_neg (by rw [t'.dry]; simp)]
      rw [hsp] at hmass
      have hmm : x.pre.snow.m_s ≤ x.post.snow.m_s := by linarith
      have hm' : 0 < x.post.snow.m_s := lt_of_lt_of_le hm hmm
      have hst := T.store hm
      have hle : x.pre.snow.t_s_0 ≤ x.post.snow.t_s_0 := by
        have h1 : cp_ice x.pre.snow.t_s_0 * (x.pre.snow.m_s * (x.pre.snow.t_s_0 - FREEZE)) ≤
            cp_ice x.pre.snow.t_s_0 * (x.post.snow.m_s * (x.post.snow.t_s_0 - FREEZE)) := by
          have := hst.trans hcc
          rw [u3] at this
          linarith [mul_assoc (cp_ice x.pre.snow.t_s_0) x.pre.snow.m_s (x.pre.snow.t_s_0 - FREEZE),
            mul_assoc (cp_ice x.pre.snow.t_s_0) x.post.snow.m_s (x.post.snow.t_s_0 - FREEZE)]
        have h2 := le_of_mul_le_mul_left h1 hcp
        have h3 : x.post.snow.m_s * (x.pre.snow.t_s_0 - FREEZE) ≤ x.pre.snow.m_s * (x.pre.snow.t_s_0 - FREEZE) :=
          mul_le_mul_of_nonpos_right hmm (by linarith [T.surf.2])
        have h4 := le_of_mul_le_mul_left (h3.trans h2) hm'
        linarith
      have hlt' : x.post.snow.t_s_0 < FREEZE := by
        by_contra hn
        have : 0 ≤ cp_ice x.pre.snow.t_s_0 * x.post.snow.m_s * (x.post.snow.t_s_0 - FREEZE) :=
          mul_nonneg (mul_pos hcp hm').le (by linarith [not_lt.mp hn])
        linarith
      have hb : 0 < x.post.snow.t_s_0 ∧ x.post.snow.t_s_0 ≤ FREEZE := ⟨T.surf.1.trans_le hle, hlt'.le⟩
      refine ⟨⟨u2, hb, by rw [u1]; exact hb, hcc0, fun _ => ?_, fun h => absurd h (not_lt.mpr hm'.le)⟩, hle, fun _ => hmm⟩
      rw [u3]
      have h1 := cp_ice_le hle
      have h2 : x.post.snow.m_s * (x.post.snow.t_s_0 - FREEZE) ≤ 0 := mul_nonpos_of_nonneg_of_nonpos hm'.le (by linarith)
      rw [mul_assoc, mul_assoc]
      exact mul_le_mul_of_nonpos_right h1 h2
  refine ⟨fun h1 => ?_, fun _ _ => ⟨f1, f2, f3, f4, f5, f6, fun hs => ?_⟩⟩
  · by_cases hs : x.post.snow.snowcover = true
    · exact ((hlast hs).2.2.2 h1).1
    · have := hend (by simpa using hs); omega
  · obtain ⟨a1, a2, a3, a4⟩ := hlast hs
    exact ⟨a1, a2, a3, fun h1 => ⟨(a4 h1).2.1, (a4 h1).1.surf.2, (a4 h1).2.2⟩⟩

/-! ## The run -/

/-- What holds of every run step of a run in a thaw. -/
structure ThawFacts (c : Env) (ts : Tsteps) (x : RStep Phys) : Prop where
  pre : WetInv c x.pre.snow
  post : WetInv c x.post.snow
  guess : GuessP x.pre
  before : ThawIn c x.pre.input1
  after : ThawIn c x.post.input1
  step : ∃ d, stepPhys c (ts x.lv).time_step d x.pre = .ok x.post

/-- The run rule behind `trace_guess`. -/
theorem guessRule (c : Env) (ts : Tsteps) :
    RunRule c ts (fun _ => True) (fun _ p => GuessP p) (fun _ _ => True) (fun _ => True) :=
  ⟨fun _ _ _ _ _ _ h => h, fun _ _ _ _ _ _ _ _ _ _ _ => trivial, fun _ _ _ _ h _ => h,
   fun _ _ _ _ p' _ h hs => ⟨trivial, (stepPhys_guess hs h : GuessP p')⟩, .inr fun _ _ _ => trivial⟩

theorem runs_thawFacts {c : Env} {ts : Tsteps} (ho : c.OK) (ht : TileOK ts) {all : Bool} {r1 r2 : Rec} {i1 i2 : InputData}
    (a1 : r1.Admissible) (a2 : r2.Admissible)
    (t1 : r1.Thaw c.P_a) (t2 : r2.Thaw c.P_a) (hu : Unsaturated [r1, r2]) (n1 : InputData.new r1 = .ok i1)
    (n2 : InputData.new r2 = .ok i2) {dl : Level → InputData} (hdl : inputDeltas ts i1 i2 = .ok dl) {m m' : Model}
    (hm1 : WetInv c m.phys.snow) (hm2 : GuessP m.phys) {l : List (RStep Phys)}
    (h : (snobalSim c ts all dl).Runs { m with phys := { m.phys with input1 := i1 } } l m')
    (hs : (l.map fun y => 1 / ((ts y.lv).intervals_per_timestep : ℝ)).sum ≤ 1) :
    ThawIn c m'.phys.input1 ∧ WetInv c m'.phys.snow ∧ GuessP m'.phys ∧ ∀ x ∈ l, ThawFacts c ts x := by
  have hd : ∀ lv, dl lv = (deltaRec i1 i2 (ts lv).intervals_per_timestep).toInput := fun lv =>
    (deltaFor_ok (inputDeltas_ok hdl lv)).2
  obtain ⟨q1, q2⟩ := runs_thaw ht hd (fun w i h0 h1 ha => ha.thaw t1 t2 hu n1 n2 h0 h1) h 0 (le_refl _)
    (by rw [zero_add]; exact hs)
    ⟨rfl, (by simp), (by simp), (by simp), (by simp), (by simp), (by simp)⟩
  have hds : ∀ lv, ShareOf i1 (dl lv) := fun lv =>
    (wetRule ho ht).delta r1 r2 i1 i2 lv _ a1 a2 n1 n2 (inputDeltas_ok hdl lv)
  obtain ⟨w1, _, _, w4⟩ := (wetRule ho ht).runs hds h (forcingRule_start a1 n1 hm1)
  obtain ⟨g1, _, _, g4⟩ := (guessRule c ts).runs (i := i1) (fun _ => trivial) h hm2
  exact ⟨q1, w1.1, g1, fun x hx => ⟨(w4 x hx).1.1, (w4 x hx).2, (g4 x hx).1, (q2 x hx).1, (q2 x hx).2,
    _, (h.mem hx).1⟩⟩

theorem Rec.Thaw.admissible {P : ℝ} {r : Rec} (h : r.Thaw P) : r.Admissible := fun h' => absurd h' (not_lt.mpr h.dry)

theorem Rec.Thaw.accepted {P : ℝ} {r : Rec} (h : r.Thaw P) : r.Accepted := fun h' => absurd h' (not_lt.mpr h.dry)

theorem dataSteps_thaw {c : Env} {ts : Tsteps} (ho : c.OK) (ht : TileOK ts) {all : Bool} {i1 : InputData} {rs : List Rec}
    {m m' : Model} {ls : List (List (RStep Phys))} (h : DataSteps c ts all i1 rs m ls m') :
    ∀ r1, InputData.new r1 = .ok i1 → ThawRows c.P_a (r1 :: rs) → WetInv c m.phys.snow → GuessP m.phys →
      WetInv c m'.phys.snow ∧ GuessP m'.phys ∧ ∀ x ∈ ls.flatten, ThawFacts c ts x := by
  induction h with
  | nil => intro r1 _ _ h1 h2; exact ⟨h1, h2, by simp⟩
  | @cons i1 i2 r rs m m1 m' l ls n2 _ he _ ih =>
    intro r1 n1 hT h1 h2
    obtain ⟨dl, mid, hdl, hr, hl, hout⟩ := he.parts
    have hs := share_sum ht hl 1
    rw [List.map_map] at hs
    obtain ⟨_, q2, q3, q4⟩ := runs_thawFacts ho ht (hT.thaw r1 (by simp)).admissible (hT.thaw r (by simp)).admissible
      (hT.thaw r1 (by simp)) (hT.thaw r (by simp)) (List.isChain_cons_cons.mp hT.unsat).1 n1 n2 hdl h1 h2 hr (le_of_eq hs)
    have e := (Executed.mid_phys hout).1
    rw [← e] at q2 q3
    obtain ⟨w1, w2, w3⟩ := ih r n2 ⟨fun x hx => hT.thaw x (by simp [hx]), (List.isChain_cons_cons.mp hT.unsat).2⟩ q2 q3
    refine ⟨w1, w2, fun x hx => ?_⟩
    rw [List.flatten_cons, List.mem_append] at hx
    exact hx.elim (q4 x) (w3 x)

theorem high_of {g : Config} {c : Env} (hc : mkEnv g = .ok c) (hs : g.ThawStart) : c.High := by
  obtain ⟨q1, _, _, q4, q5, q6, q7, _⟩ := mkEnv_ok hc
  exact ⟨q5, by rw [q4]; exact hs.z_0, by rw [q4, q6, q1]; exact hs.z_u, by rw [q4, q7, q1]; exact hs.z_t⟩

/-- The pack at the start of the run. -/
theorem start_thawing {g : Config} (ha : g.AdmissibleStart) (hcold : g.ColdStart) (hst : g.ThawStart) {c : Env}
    (hc : mkEnv g = .ok c) {s : Snow} (hs : init_snow c (recordSnow g) = .ok s) (hl : s.layer_count = 1) : Thawing s := by
  have ho := ha.toAdmissible.env hc
  have hi := init_snow_inv ho.max_z hs rfl
  rcases init_snow_out ho.max_z hs with h | h
  · obtain ⟨k1, k2, d, _, _, k3, k4, k5, k6, _, _, _, _, _, k7, k8, k9, _⟩ := h
    have hz0 := (hi.lc_pos_iff ho.max_z).mp (by omega)
    have hzl : s.z_s_l = 0 := by
      rcases hi.zl.eq_or_lt with h | h
      · exact h.symm
      · have := (hi.toL hz0).lc.2 h; omega
    have hm0 : s.m_s_0 = s.m_s := by
      rw [(hi.pack hz0).1, (hi.pack hz0).2.1, hi.sum, hzl, add_zero]
    have hm : 0 < s.m_s := by rw [k3]; exact lt_of_le_of_lt ho.small k1
    have e1 : s.t_s_0 = g.init_t_s_0 := k8
    have e2 : s.t_s = g.init_t_s := k7
    have e3 : s.cc_s_0 = cp_ice s.t_s_0 * s.m_s * (s.t_s_0 - FREEZE) := by
      rw [k9, hm0, k8]
      unfold cold_content heat_stor
      split_ifs with hlt
      · rfl
      · have : (recordSnow g).t_s_0 = FREEZE := le_antisymm hcold.surf (not_lt.mp hlt)
        rw [this]; ring
    have hb : 0 < s.t_s_0 ∧ s.t_s_0 ≤ FREEZE := by rw [e1]; exact ⟨hst.surf, hcold.surf⟩
    refine ⟨hm.ne', hb, by rw [e2]; exact ⟨hst.mean, hcold.mean.2⟩, ?_, fun _ => e3.ge, fun h => absurd h (not_lt.mpr hm.le)⟩
    rw [e3]
    exact mul_nonpos_of_nonneg_of_nonpos (mul_pos (cp_ice_pos hb.1.le) hm).le (by linarith [hb.2])
  · obtain ⟨_, _, _, _, k1, _⟩ := h
    have := (hi.lc_pos_iff ho.max_z).mp (by omega)
    linarith

/-- Along run steps that start with a shallow pack, the pack is a thawing one. -/
theorem thaw_history {g : Config} {ts : Tsteps} (ht : TileOK ts) (ho : c.OK) (hc : mkEnv g = .ok c) (hh : c.High)
    (hP : 610.71 < c.P_a) (hzg : 0 < c.z_g) : ∀ {l : List (RStep Phys)} {s s' : Snow}, Unbroken s l s' →
      (∀ x ∈ l, ThawFacts c ts x ∧ x.pre.snow.z_s ≤ c.max_z_s_0) → (s.layer_count = 1 → Thawing s) →
      (s'.layer_count = 1 → Thawing s') ∧ ∀ x ∈ l, (x.pre.snow.layer_count = 1 → Thawing x.pre.snow) ∧
        (0 < x.pre.snow.layer_count → 0 < x.pre.snow.m_s → Warmed (ts x.lv).time_step x) := by
  intro l
  induction l with
  | nil => intro s s' h _ h0; cases h; exact ⟨h0, by simp⟩
  | cons x l ih =>
    intro s s' h hf h0
    obtain ⟨rfl, h⟩ := h
    obtain ⟨f, hz⟩ := hf x (by simp)
    obtain ⟨d, hd⟩ := f.step
    obtain ⟨q1, q2⟩ := thaw_runStep ho hc hh hP hzg (ht.step_pos x.lv) f.pre.1 f.post.1 f.pre.2 f.post.2 f.guess f.before
      f.after hd hz h0
    obtain ⟨w1, w2⟩ := ih h (fun y hy => hf y (by simp [hy])) q1
    refine ⟨w1, fun y hy => ?_⟩
    rcases List.mem_cons.mp hy with rfl | hy
    · exact ⟨h0, q2⟩
    · exact w2 y hy

/-- A pack that is there at the end was there, and colder, at the beginning. -/
theorem thaw_back {g : Config} {ts : Tsteps} (ho : c.OK) (hc : mkEnv g = .ok c) :
    ∀ {l : List (RStep Phys)} {s s' : Snow}, Unbroken s l s' →
      (∀ x ∈ l, ThawFacts c ts x ∧ x.pre.snow.z_s ≤ c.max_z_s_0 ∧ (x.pre.snow.layer_count = 1 → Thawing x.pre.snow) ∧
        (0 < x.pre.snow.layer_count → 0 < x.pre.snow.m_s → Warmed (ts x.lv).time_step x)) →
      s'.z_s ≤ c.max_z_s_0 → 0 < s'.layer_count → 0 < s'.m_s →
      s.t_s_0 ≤ s'.t_s_0 ∧ s.cc_s_0 ≤ s'.cc_s_0 ∧ s.z_s ≤ c.max_z_s_0 ∧ 0 < s.layer_count ∧ 0 < s.m_s := by
  intro l
  induction l with
  | nil => intro s s' h _ h1 h2 h3; cases h; exact ⟨le_refl _, le_refl _, h1, h2, h3⟩
  | cons x l ih =>
    intro s s' h hf h1 h2 h3
    obtain ⟨rfl, h⟩ := h
    obtain ⟨f, hz, hT, hW⟩ := hf x (by simp)
    obtain ⟨d, hd⟩ := f.step
    obtain ⟨w1, w2, w3, w4, w5⟩ := ih h (fun y hy => hf y (by simp [hy])) h1 h2 h3
    obtain ⟨s0, s1, s2, s3, s4, s5, s6, k⟩ := step_chain ho.max_z f.pre.1 hd
    have hs : x.post.snow.snowcover = true := by
      by_contra hn
      rcases k.ended ho.max_z (by simpa using hn) with h | ⟨hp, _⟩
      · omega
      · rw [f.after.dry] at hp; cases hp
    have hl := (k.persist ho.max_z hs).2.2.2.2.2.2.2
    have hm : 0 < x.pre.snow.m_s := by
      rcases lt_or_gt_of_ne (hT (shallow_single ho.max_z f.pre.1 hz hl)).mass with hn | hn
      · have := k.overdrawn ho f.pre.1 hn
        rw [hs] at this; cases this
      · exact hn
    obtain ⟨_, v1, _, v2⟩ := (hW hl hm).lasts hs
    have := (v2 (shallow_single ho.max_z f.post.1 w3 w4)).1
    exact ⟨this.trans w1, v1.trans w2, hz, hl, hm⟩

/-- The run steps of a run in a thaw. -/
theorem trace_thaw {g : Config} (hg : g.Tiled) (ha : g.AdmissibleStart) (hcold : g.ColdStart) (hst : g.ThawStart)
    {c : Env} (hc : mkEnv g = .ok c) {ts : Tsteps} (hts : parse_time_steps g = .ok ts)
    {rows : List Rec} (hr : ThawRows c.P_a rows) {ls : List (List (RStep Phys))} {m : Model} (h : RunTrace g rows ls m) :
    (∀ x ∈ ls.flatten, ThawFacts c ts x) ∧ WetInv c m.phys.snow ∧ GuessP m.phys ∧
      ∃ s, (s.layer_count = 1 → Thawing s) ∧ Unbroken s ls.flatten m.phys.snow := by
  obtain ⟨c', ts', i1, m0, r, rs, rfl, e1, e2, e3, e4, e5⟩ := h
  rw [hc] at e2; cases e2
  rw [hts] at e1; cases e1
  have ho := ha.toAdmissible.env hc
  obtain ⟨_, _, _, k1, k2, k3, _⟩ := mkModel_ok e4
  obtain ⟨w1, w2, w3⟩ := dataSteps_thaw ho (parse_tile hg hts) e5 r e3 hr (wet_start ha hc k1) (.inl ⟨k2, k3⟩)
  exact ⟨w3, w1, w2, _, start_thawing ha hcold hst hc k1, (dataSteps_unbroken e5).1⟩

/-! ## How the run can fail -/

/-- The density compaction of an overdrawn pack (negative mass `m`, density `ρ`) leaves a density of exactly zero. -/
def CompactionTie (dt m ρ : ℝ) : Prop :=
  (23.5 * Real.cos (Real.pi * m / 2000) + 24.5) / (dt / 3600) + 0.01 + 0.026 * m * Real.exp (-21 * (ρ / 999.87)) = 0

theorem g_soil_abs (c : Env) (i : InputData) (b : Bool) (s : Snow) : g_soil c i b { s with rho := |s.rho| } = g_soil c i b s := by
  have h : ∀ a : ℝ, CAL_TO_J * 77e-4 * (|a| / 1000) * (|a| / 1000) = CAL_TO_J * 77e-4 * (a / 1000) * (a / 1000) := by
    intro a
    have := abs_mul_abs_self a
    linear_combination (CAL_TO_J * 77e-4 / 1000000) * this
  unfold g_soil Snow.kts Snow.e_s_0 Snow.e_s_l
  simp only [h]

/-- The energy balance of a one-layer pack at or below freezing completes if the turbulent-transfer routine does, whatever the
sign of its mass. -/
theorem energy_single {c : Env} (ho : c.OK) {dt : ℝ} (hdt : 0 < dt) {p : Phys} (hi : Inv c p.snow) (hs : SoilOK c p.input1)
    (hzg : 0 < c.z_g) (hb : p.input1.t_g ≤ BOIL) (hl : p.snow.layer_count = 1) (T : Thawing p.snow) {r : HleOut} {p1 : Phys}
    (hh : h_le c p = .ok (r, p1)) : ∃ p', energy_balance c dt p = .ok p' := by
  obtain ⟨sv, _, _, _, e1, e2, _⟩ := h_le_ok hh
  have h0 := (hi.lc_pos_iff ho.max_z).mp (by omega)
  have hs1 : SoilOK c p1.input1 := by
    rw [e1]
    exact ⟨hs.z_g, hs.press, hs.warm, hs.vapour⟩
  have hzl : p.snow.z_s_l = 0 := by
    rcases hi.zl.eq_or_lt with h | h
    · exact h.symm
    · have := (hi.toL h0).lc.2 h; omega
  have hrho : p.snow.rho ≠ 0 := by
    intro h
    have := (hi.pack h0).1
    rw [h, zero_mul] at this
    exact T.mass this
  have hfr : Snow.Frozen { p.snow with rho := |p.snow.rho| } :=
    ⟨T.surf, T.mean, by show 0 < p.snow.t_s_l ∧ p.snow.t_s_l ≤ FREEZE; rw [(hi.one hzl).2.2]; exact t_none_ok⟩
  obtain ⟨G, hG⟩ := g_soil_prog hs1 hzg (by rw [e1]; exact hb) hfr (abs_pos.mpr hrho) (b := true) h0
  rw [g_soil_abs] at hG
  obtain ⟨M, hM⟩ := advec_prog (i := p1.input1) hdt.ne' p.snow
  unfold energy_balance
  rw [if_pos (by omega)]
  dsimp only
  rw [hh, bind_ok]
  dsimp only
  have hT : heat_transfer c p1.input1 p.snow = .ok (G, G) := by
    unfold heat_transfer
    rw [if_pos hl, hG, bind_ok]
    rfl
  rw [e2, hT, bind_ok]
  dsimp only
  rw [hM, bind_ok]
  exact ⟨_, rfl⟩

/-- The mass balance of an overdrawn pack at freezing in dry weather raises only if its compacted density is exactly zero. -/
theorem overdrawn_raises {c : Env} (ho : c.OK) {dt : ℝ} (hdt : 0 < dt) {i : InputData} (hi : i.precip_now = false) {s : Snow}
    (hm : s.m_s < 0) (hr : s.rho < 0) (ht : s.t_s = FREEZE) {e : Err} (h : mass_balance c i dt s = .error e) :
    e = .zeroDivision ∧ CompactionTie dt s.m_s s.rho := by
  have hgone : ∀ s1 : Snow, s1.snowcover = false → ∃ s', (do
      let s ← precip_event c i s1
      let s ← snowmelt c dt s
      let s ← evap_cond c i dt s
      let s ← h2o_compact c i s
      let s ← runoff c s
      if s.snowcover then s.adjust_layer_temps else pure s : Except Err Snow) = .ok s' := by
    intro s1 h1
    unfold precip_event snowmelt evap_cond h2o_compact runoff
    rw [if_neg (by rw [hi]; simp), bind_ok, if_pos (by exact h1), bind_ok, if_pos (by exact h1), bind_ok,
      if_pos (.inl (by exact h1)), bind_ok, if_pos (.inl (by exact h1)), bind_ok, if_neg (by simp [h1])]
    exact ⟨_, rfl⟩
  unfold mass_balance at h
  rcases bind_eq_error.mp h with h | ⟨s1, h1, h⟩
  · unfold time_compact at h
    by_cases hc : s.snowcover = false ∨ s.rho ≥ RHO_MAX
    · rw [if_pos hc] at h; cases h
    rw [if_neg hc] at h
    have hdt' : dt / 3600 ≠ 0 := by positivity
    have hrate : compactRate dt s = .ok ((R1 * Real.cos (Real.pi * s.m_s / SWE_MAX) + R2) / (dt / 3600)) := by
      unfold compactRate
      rw [if_neg (by unfold SWE_MAX; linarith), pdiv_of_ne hdt']
    obtain ⟨q, hq⟩ : ∃ q, q = (R1 * Real.cos (Real.pi * s.m_s / SWE_MAX) + R2) / (dt / 3600) := ⟨_, rfl⟩
    have hq0 : 0 < q := by
      rw [hq]
      refine div_pos ?_ (by positivity)
      have := Real.neg_one_le_cos (Real.pi * s.m_s / SWE_MAX)
      unfold R1 R2
      nlinarith
    rw [hrate, ← hq, bind_ok, if_pos (by linarith)] at h
    dsimp only at h
    rw [pdiv_of_ne hq0.ne', bind_ok, pdiv_of_ne hq0.ne', bind_ok] at h
    rcases bind_eq_error.mp h with h | ⟨z, _, h⟩
    · unfold pdiv at h
      split at h
      · rename_i h0
        refine ⟨(Except.error.inj h).symm, ?_⟩
        rw [ht] at h0
        simp only [sub_self, mul_zero, Real.exp_zero, mul_one] at h0
        have h1 : s.rho * (q + 0.01 + 0.026 * s.m_s * Real.exp (-21 * (s.rho / RHO_W0))) = 0 := by
          have := congrArg (· * q) h0
          simp only [zero_mul] at this
          rw [← this]
          field_simp
          ring_nf
        have h2 := (mul_eq_zero.mp h1).resolve_left hr.ne
        unfold CompactionTie
        rw [hq] at h2
        unfold R1 R2 SWE_MAX RHO_W0 at h2
        exact h2
      · cases h
    · cases h
  · have hs1 : s1.snowcover = false := by
      rcases time_compact_ok h1 with ⟨q | q, e⟩ | ⟨_, _, _, d1, d2, _, _, _, _, _, e⟩
      · rw [e]; exact q
      · linarith
      · rcases adj_layers_cases ho.max_z { s with rho := s.rho + (d1 + d2) * s.rho
                                                  z_s := s.m_s / (s.rho + (d1 + d2) * s.rho) } with ⟨_, a, _⟩ | ⟨a, _⟩
        · have := show c.small_threshold < s.m_s from a
          have := ho.small
          linarith
        · rw [← e] at a
          exact a.snowcover
    obtain ⟨s', hs'⟩ := hgone s1 hs1
    rw [hs'] at h
    cases h

theorem Unbroken.split : ∀ {l l' : List (RStep Phys)} {s u : Snow}, Unbroken s (l ++ l') u →
    ∃ t, Unbroken s l t ∧ Unbroken t l' u := by
  intro l
  induction l with
  | nil => intro l' s u h; exact ⟨s, rfl, h⟩
  | cons x l ih =>
    intro l' s u h
    obtain ⟨t, h1, h2⟩ := ih h.2
    exact ⟨t, ⟨h.1, h1⟩, h2⟩

/-! ## C83 -/

/-- C83, the steps: in a thaw, as long as the pack has not been deeper than the active layer, every run step that starts
with snow of positive mass on the ground gains energy: net radiation, latent heat and soil heat are not negative, sensible
heat and the net gain are positive, no vapour leaves the surface; and if the pack lasts, its cold content does not grow (a pack
of one layer does not get colder, nor lighter while it is still below freezing). -/
theorem C83_thaw_warms (g : Config) (hg : g.Tiled) (ha : g.AdmissibleStart) (hcold : g.ColdStart) (hst : g.ThawStart)
    (hz : 0 < g.z_g) (c : Env) (hc : mkEnv g = .ok c) (hP : 610.71 < c.P_a) (rows : List Rec) (hr : ThawRows c.P_a rows)
    (ls : List (List (RStep Phys))) (m : Model) (h : RunTrace g rows ls m) (a : List (RStep Phys)) (x : RStep Phys)
    (b : List (RStep Phys)) (hx : ls.flatten = a ++ x :: b) (hsh : ∀ y ∈ a ++ [x], y.pre.snow.z_s ≤ g.max_active)
    (hl : 0 < x.pre.snow.layer_count) (hm : 0 < x.pre.snow.m_s) :
    ∃ ts, parse_time_steps g = .ok ts ∧ Warmed (ts x.lv).time_step x := by
  obtain ⟨_, ts, _, hts⟩ := simulate_parts h.simulate
  refine ⟨ts, hts, ?_⟩
  obtain ⟨f, _, _, s, hs, hu⟩ := trace_thaw hg ha hcold hst hc hts hr h
  have ho := ha.toAdmissible.env hc
  obtain ⟨q1, _, _, _, _, _, _, q8, _⟩ := mkEnv_ok hc
  rw [hx, show a ++ x :: b = (a ++ [x]) ++ b by simp] at hu
  obtain ⟨t, hu1, _⟩ := hu.split
  have hh := thaw_history (parse_tile hg hts) ho hc (high_of hc hst) hP (by rw [q8]; exact hz) hu1
    (fun y hy => ⟨f y (by rw [hx, show a ++ x :: b = (a ++ [x]) ++ b by simp]; exact List.mem_append_left _ hy),
      by rw [q1]; exact hsh y hy⟩) hs
  exact (hh.2 x (by simp)).2 hl hm

/-- C83, the history: the pack in place at the start of a run step was there, and was no warmer and had no less cold content,
at the start of every earlier run step. -/
theorem C83_thaw_monotone (g : Config) (hg : g.Tiled) (ha : g.AdmissibleStart) (hcold : g.ColdStart) (hst : g.ThawStart)
    (hz : 0 < g.z_g) (c : Env) (hc : mkEnv g = .ok c) (hP : 610.71 < c.P_a) (rows : List Rec) (hr : ThawRows c.P_a rows)
    (ls : List (List (RStep Phys))) (m : Model) (h : RunTrace g rows ls m) (a : List (RStep Phys)) (x : RStep Phys)
    (b : List (RStep Phys)) (y : RStep Phys) (d : List (RStep Phys)) (hx : ls.flatten = a ++ x :: (b ++ y :: d))
    (hsh : ∀ w ∈ a ++ x :: (b ++ [y]), w.pre.snow.z_s ≤ g.max_active)
    (hl : 0 < y.pre.snow.layer_count) (hm : 0 < y.pre.snow.m_s) :
    0 < x.pre.snow.layer_count ∧ 0 < x.pre.snow.m_s ∧ x.pre.snow.t_s_0 ≤ y.pre.snow.t_s_0 ∧
      x.pre.snow.cc_s_0 ≤ y.pre.snow.cc_s_0 := by
  obtain ⟨_, ts, _, hts⟩ := simulate_parts h.simulate
  obtain ⟨f, _, _, s, hs, hu⟩ := trace_thaw hg ha hcold hst hc hts hr h
  have ho := ha.toAdmissible.env hc
  obtain ⟨q1, _, _, _, _, _, _, q8, _⟩ := mkEnv_ok hc
  have e : a ++ x :: (b ++ y :: d) = (a ++ x :: (b ++ [y])) ++ d := by simp
  rw [hx] at f
  rw [hx, e] at hu
  obtain ⟨t, hu1, _⟩ := hu.split
  have hf : ∀ w ∈ a ++ x :: (b ++ [y]), ThawFacts c ts w ∧ w.pre.snow.z_s ≤ c.max_z_s_0 := fun w hw =>
    ⟨f w (by rw [e]; exact List.mem_append_left _ hw), by rw [q1]; exact hsh w hw⟩
  have hh := thaw_history (parse_tile hg hts) ho hc (high_of hc hst) hP (by rw [q8]; exact hz) hu1 hf hs
  obtain ⟨u, _, hu2⟩ := hu1.split
  obtain ⟨hxu, hu3⟩ := hu2
  obtain ⟨v, hu4, hu5⟩ := hu3.split
  obtain ⟨hyv, _⟩ := hu5
  have hu6 : Unbroken x.pre.snow (x :: b) y.pre.snow := ⟨rfl, by rw [hyv]; exact hu4⟩
  have hin : ∀ w ∈ x :: b, w ∈ a ++ x :: (b ++ [y]) := fun w hw => by
    simp only [List.mem_cons, List.mem_append] at hw ⊢
    tauto
  obtain ⟨k1, k2, _, k4, k5⟩ := thaw_back ho hc hu6
    (fun w hw => ⟨(hf w (hin w hw)).1, (hf w (hin w hw)).2, (hh.2 w (hin w hw)).1, (hh.2 w (hin w hw)).2⟩)
    (by rw [q1]; exact hsh y (by simp)) hl hm
  exact ⟨k4, k5, k1, k2⟩

/-- C83, failures: a run in a thaw ends in an exception only if the pack is or was deeper than the active layer, or with a
division by zero in a run step that starts with snow on the ground: because the mass balance used the pack up exactly (C81), or
because the compaction of a pack of negative mass ends in a density of exactly zero. -/
theorem C83_thaw_raises (g : Config) (hg : g.Tiled) (ha : g.AdmissibleStart) (hcold : g.ColdStart) (hst : g.ThawStart)
    (hv : 0 < g.max_h2o) (hz : 0 < g.z_g) (c : Env) (hc : mkEnv g = .ok c) (hP : 610.71 < c.P_a)
    (rows : List Rec) (hr : ThawRows c.P_a rows) (ts : Tsteps)
    (hts : parse_time_steps g = .ok ts) (k : ℕ) (hk : k + 1 < rows.length)
    (ls : List (List (RStep Phys))) (m : Model) (htr : RunTrace g (rows.take (k + 1)) ls m) (i1 i2 : InputData)
    (n1 : InputData.new rows[k] = .ok i1) (n2 : InputData.new rows[k + 1] = .ok i2)
    (l : List (RStep Phys)) (mid : Model) (lv : Level) (d : InputData) (rest : List Level) (e : Err)
    (h : StepRaises c ts g.output_all i1 i2 m l mid lv d rest e) :
    ∃ s, s = mid.phys.snow ∧ 0 < s.layer_count ∧
      ((∃ x ∈ ls.flatten ++ l, g.max_active < x.pre.snow.z_s) ∨ g.max_active < s.z_s ∨
       (e = .zeroDivision ∧
         ((s.m_s < 0 ∧ CompactionTie (ts lv).time_step s.m_s s.rho) ∨
          ∃ p1, energy_balance c (ts lv).time_step (stepStart d mid.phys) = .ok p1 ∧
            UsedUp c p1.input1 (ts lv).time_step p1.snow))) := by
  have ht := parse_tile hg hts
  have ho := ha.toAdmissible.env hc
  obtain ⟨q1, _, _, _, _, _, _, q8, _⟩ := mkEnv_ok hc
  have hzg : 0 < c.z_g := by rw [q8]; exact hz
  obtain ⟨s, es, hlc, hcases⟩ := C81_run_raises g hg ha hcold hv hz c hc hP rows
    (fun r hx => ⟨(hr.thaw r hx).accepted, (hr.thaw r hx).admissible, freeze_pos.trans_le (hr.thaw r hx).ground.1,
      (hr.thaw r hx).ground.2⟩) ts hts k hk ls m htr i1 i2 n1 n2 l mid lv d rest e h
  refine ⟨s, es, hlc, ?_⟩
  by_contra hno
  push Not at hno
  obtain ⟨o1, o2, o3⟩ := hno
  -- the facts
  obtain ⟨f, w1, w2, s0, hs0, hu⟩ := trace_thaw hg ha hcold hst hc hts
    (rows := rows.take (k + 1)) ⟨fun r hx => hr.thaw r (List.mem_of_mem_take hx), hr.unsat.take _⟩ htr
  obtain ⟨dl, hdl, hruns⟩ := h.runs
  have hsum : (l.map fun y => 1 / ((ts y.lv).intervals_per_timestep : ℝ)).sum ≤ 1 := by
    have h1 := share_sum ht h.tiles 1
    rw [List.map_append, List.sum_append, List.map_map] at h1
    have h2 : 0 ≤ ((lv :: rest).map fun lv => 1 / ((ts lv).intervals_per_timestep : ℝ)).sum :=
      List.sum_nonneg fun x hx => by
        obtain ⟨y, _, rfl⟩ := List.mem_map.mp hx
        exact (one_div_pos.mpr (by exact_mod_cast ht.ipt_pos y)).le
    have h3 : (l.map fun y => 1 / ((ts y.lv).intervals_per_timestep : ℝ)).sum =
        (l.map ((fun lv => (1:ℝ) / ((ts lv).intervals_per_timestep : ℝ)) ∘ fun x => x.lv)).sum := rfl
    rw [h3]; linarith
  have a1 := hr.thaw rows[k] (List.getElem_mem _)
  have a2 := hr.thaw rows[k + 1] (List.getElem_mem _)
  obtain ⟨v1, v2, v3, v4⟩ := runs_thawFacts ho ht a1.admissible a2.admissible a1 a2
    (List.isChain_iff_getElem.mp hr.unsat k hk) n1 n2 hdl w1 w2 hruns hsum
  have hu' : Unbroken s0 (ls.flatten ++ l) s := by
    have := runs_unbroken hruns
    rw [es]; exact hu.append this
  have hf : ∀ x ∈ ls.flatten ++ l, ThawFacts c ts x ∧ x.pre.snow.z_s ≤ c.max_z_s_0 := fun x hx =>
    ⟨(List.mem_append.mp hx).elim (f x) (v4 x), by rw [q1]; exact o1 x hx⟩
  have hT := (thaw_history ht ho hc (high_of hc hst) hP hzg hu' hf hs0).1
  have hi : Inv c s := by rw [es]; exact v2.1
  have hzs : s.z_s ≤ c.max_z_s_0 := by rw [q1]; exact o2
  have hl1 := shallow_single ho.max_z hi hzs hlc
  have T := hT hl1
  have hin : stepStart d mid.phys = { mid.phys with
      snow := { s with h2o_total := 0, snowcover := decide (s.layer_count > 0) } } := by
    unfold stepStart
    rw [applied_dry v1.dry, es]
  obtain ⟨r, p2, hh, _⟩ := thaw_exchange (high_of hc hst) hP (p := stepStart d mid.phys) (by rw [hin]; exact v1)
    (by rw [hin]; exact v3) (by rw [hin]; exact hzs) (by rw [hin]; exact T.surf.1) (by rw [hin]; exact T.surf.2)
  have hsoil : SoilOK c mid.phys.input1 := ⟨hzg.ne', hP, freeze_pos.trans_le v1.ground.1, v1.ground.2.2⟩
  rcases hcases with q | ⟨q | q | q | ⟨x, hx, q, _⟩⟩ | q | ⟨q, p1, q2, q3⟩
  · rw [hh] at q; cases q
  · linarith [T.surf.1]
  · linarith [T.mean.1]
  · have hz0 := (hi.lc_pos_iff ho.max_z).mp hlc
    have hzl : s.z_s_l = 0 := by
      rcases hi.zl.eq_or_lt with h | h
      · exact h.symm
      · have := (hi.toL hz0).lc.2 h; omega
    rw [(hi.one hzl).2.2] at q
    linarith [t_none_ok.1]
  · have := shallow_single ho.max_z (hf x hx).1.pre.1 (hf x hx).2 (by omega)
    omega
  · have hneg : s.m_s < 0 := lt_of_le_of_ne q T.mass
    have i0 : Inv c (stepStart d mid.phys).snow := by
      rw [hin]; exact start_inv ho.max_z hi
    have hz0 := (hi.lc_pos_iff ho.max_z).mp hlc
    have hrho : s.rho < 0 := by rw [hi.dens hz0]; exact div_neg_of_neg_of_pos hneg (hi.z_pos hz0)
    obtain ⟨p1, hp1⟩ := energy_single (dt := (ts lv).time_step) ho (ht.step_pos lv) i0 (by rw [hin]; exact hsoil) hzg
      (by rw [hin]; exact v1.ground.2.1) (by rw [hin]; exact hl1)
      (by rw [hin]; exact ⟨T.mass, T.surf, T.mean, T.cold, T.store, T.over⟩) hh
    have hrz := h.raises
    rw [stepPhys_eq, hp1, bind_ok] at hrz
    have g1 := energy_balance_snow hp1
    rw [hin] at g1
    have g2 : p1.input1.precip_now = false := by
      rw [(energy_balance_input hp1).1, hin]; exact v1.dry
    rcases bind_eq_error.mp hrz with hrz | ⟨_, _, hrz⟩
    · obtain ⟨k1, k2⟩ := overdrawn_raises ho (ht.step_pos lv) g2 (by rw [g1]; exact hneg) (by rw [g1]; exact hrho)
        (by rw [g1]; exact (T.over hneg).2) hrz
      refine (o3 k1).1 hneg ?_
      rw [g1] at k2
      exact k2
    · cases hrz
  · exact (o3 q).2 p1 q2 q3

end

end Pysnobal
