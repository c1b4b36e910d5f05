import Verif.Props.Profile
import Verif.Props.IceWater
import Verif.Props.Energy

/-! # C34, C61: exchange coefficients of heat and vapour -/

namespace Pysnobal

noncomputable section

/-- `hle1` only returns for valid input. -/
theorem hle1_valid {a : HleIn} {r : HleOut} (h : hle1 a = .ok r) : HleValid a := by
  obtain ⟨ea, k, it, s, h1, h2, _⟩ := hle1_ok h
  exact check_valid h1 h2

theorem density_of {a : HleIn} {ea : ℝ} {k : HleConst} (h : hleConst a ea = .ok k) : k.dens = a.density ea := by
  obtain ⟨qa, qs, vt, _, _, _, q4, _, _, _, _, _, _, _, _, _, v1, v2⟩ := hleConst_ok h
  unfold HleIn.density
  rw [q4] at v1
  exact virtual_density v1 v2

/-- C34: stably stratified air.  For every valid input with wind, temperature and humidity measured at one
height, heights above 5.9 roughness lengths and air that is not heavier than the air at the surface (and not of
exactly the same potential temperature), `hle1` returns, and there is one positive exchange coefficient `κ`,
not above that of the neutral profile, such that the heat flux is `κ` times the difference in heat and the
vapour flux `κ` times the difference in humidity. -/
theorem C34_stably_stratified (a : HleIn) (v : HleValid a) (hu : 5.9 * a.z0 < a.zu)
    (ha : 5.9 * a.z0 < a.za) (hq : a.zq = a.za) (hw : 0 < a.wind_speed) (hg : GuessOK a)
    (ht : a.theta ≠ a.surface_temp) (sat : ℝ) (hs : satw a.air_temp = .ok sat)
    (hb : 0 ≤ (a.theta - a.surface_temp) / a.theta +
      0.61 * (vapourFraction (min a.ea sat) a.press - vapourFraction a.es a.press)) :
    ∃ r κ, hle1 a = .ok r ∧ 0 < r.ustar ∧ r.ustar ≤ 0.41 * a.wind_speed / a.profile a.zu ∧
      0 < κ ∧ κ ≤ 0.41 * (0.41 * a.wind_speed / a.profile a.zu) * a.density (min a.ea sat) / a.profile a.za ∧
      r.h = κ * (CP_AIR * (a.theta - a.surface_temp)) ∧
      r.e = κ * (vapourFraction (min a.ea sat) a.press - vapourFraction a.es a.press) := by
  obtain ⟨w, hw', hc⟩ := hleCheck_of v
  rw [hs] at hw'
  cases hw'
  obtain ⟨k, hk, _⟩ := hleConst_of v hc
  obtain ⟨qa, qs, vt, q1, q2, q3, q4, q5, q6, q7, q8, q9, _, l1, l2, l3, _⟩ := hleConst_ok hk
  have et : k.air_temp = a.theta := q4
  have hlog : ∀ z : ℝ, Real.log ((z - 2 * PAESCHKE * a.z0 / 3) / a.z0) = a.profile z := fun z => by
    unfold HleIn.profile PAESCHKE
    congr 2; ring
  rw [hlog] at l1 l2 l3
  rw [spec_hum_spec q1, spec_hum_spec q2] at q3
  have hst : Stratified k := by
    refine .inr ⟨by rw [q6, q7, hq], by rw [l2, l3, hq], ?_⟩
    rw [q5, et, q3]; exact hb
  obtain ⟨r, hr, _, r1, r2, κe, κh, g1, g2, g3, g4, g5, g6, g7⟩ :=
    stable_core v hu (by rw [hq]; exact ha) ha hw hg ht hc hk hst
  have := g7 (by rw [q6, q7, hq]) (by rw [l2, l3, hq])
  subst this
  rw [l1, l2, density_of hk] at g4
  rw [l1] at r2
  refine ⟨r, κe, hr, r1, r2, g1, g4, ?_, ?_⟩
  · rw [g6, q5, et]
  · rw [g5, q3]

/-- C34: warm moist air over a cold surface is stably stratified. -/
example : ∃ r κ, hle1 stableIn = .ok r ∧ 0 < r.ustar ∧ 0 < κ ∧
    r.h = κ * (CP_AIR * (stableIn.theta - stableIn.surface_temp)) ∧
    r.e = κ * (vapourFraction (min stableIn.ea SEA_LEVEL) stableIn.press -
      vapourFraction stableIn.es stableIn.press) := by
  obtain ⟨v, hu, hw, hg, ht, _⟩ := stableIn_ok
  have hm : min stableIn.ea SEA_LEVEL = 20 := by
    rw [show stableIn.ea = 20 from rfl]; exact min_eq_left (by norm_num [SEA_LEVEL])
  have ht' : stableIn.surface_temp < stableIn.theta := by
    unfold HleIn.theta
    unfold DALR at ht
    exact ht
  obtain ⟨r, κ, h1, h2, _, h3, _, h4, h5⟩ := C34_stably_stratified stableIn v hu
    (by norm_num [stableIn, calmIn]) rfl hw hg ht'.ne' SEA_LEVEL satw_boil (by
      have e0 : stableIn.surface_temp = 200 := rfl
      have a1 : 0 ≤ (stableIn.theta - stableIn.surface_temp) / stableIn.theta :=
        div_nonneg (by linarith) (by rw [e0] at ht'; linarith)
      have a2 : 0 ≤ vapourFraction (min stableIn.ea SEA_LEVEL) stableIn.press -
          vapourFraction stableIn.es stableIn.press := by
        rw [hm, show stableIn.es = 1 from rfl, show stableIn.press = 101324.6 from rfl]
        unfold vapourFraction
        norm_num [MOL_H2O, MOL_AIR]
      linarith)
  exact ⟨r, κ, h1, h2, h3, h4, h5⟩

/-- C52: the turbulent-transfer routine of a step completes in windy, stably stratified air: positive wind,
instruments more than 5.9 roughness lengths above the snow, vapour pressures below the air pressure, air that is
not heavier than the air at the snow surface and not of exactly the same potential temperature. -/
theorem C52_turbulence_stratified (c : Env) (p : Phys) (hz0 : 0 < c.z_0) {zu zt sv es w θ : ℝ}
    (ezu : zu = if c.relative_hts then c.z_u else c.z_u - p.snow.z_s)
    (ezt : zt = if c.relative_hts then c.z_t else c.z_t - p.snow.z_s)
    (hzu : 5.9 * c.z_0 < zu) (hzt : 5.9 * c.z_0 < zt)
    (hw : 0 < p.input1.u) (hta : 0 < p.input1.t_a) (hts : 0 < p.snow.t_s_0) (hea : 0 < p.input1.e_a)
    (hsv : sati p.input1.t_a = .ok sv) (hes : sati p.snow.t_s_0 = .ok es) (hsw : satw p.input1.t_a = .ok w)
    (hP : min p.input1.e_a sv < c.P_a) (hP' : es < c.P_a)
    (eθ : θ = p.input1.t_a + GRAVITY / CP_AIR * zt) (hne : θ ≠ p.snow.t_s_0)
    (hb : 0 ≤ (θ - p.snow.t_s_0) / θ +
      0.61 * (vapourFraction (min (min p.input1.e_a sv) w) c.P_a - vapourFraction es c.P_a))
    (hguess : (p.init_ustar = none ∧ p.init_factor = none) ∨
      ∃ u f, p.init_ustar = some u ∧ p.init_factor = some f ∧ 0 ≤ u * f ∧ (u = 0 → f = 0)) :
    ∃ r κ, h_le c p = .ok (r, { p with input1 := { p.input1 with e_a := min p.input1.e_a sv }
                                       init_ustar := some r.ustar, init_factor := some r.factor }) ∧
      0 < κ ∧
      κ ≤ 0.41 ^ 2 * p.input1.u *
        moistDensity (√(min (min p.input1.e_a sv) w * es)) c.P_a (√(θ * p.snow.t_s_0)) /
        (Real.log ((zu - 4.9 * c.z_0) / c.z_0) * Real.log ((zt - 4.9 * c.z_0) / c.z_0)) ∧
      r.h = κ * (CP_AIR * (θ - p.snow.t_s_0)) ∧
      r.e = κ * (vapourFraction (min (min p.input1.e_a sv) w) c.P_a - vapourFraction es c.P_a) := by
  obtain ⟨a, ha⟩ : ∃ a : HleIn, a = { press := c.P_a, air_temp := p.input1.t_a, surface_temp := p.snow.t_s_0
                                      za := zt, ea := min p.input1.e_a sv, es := es, zq := zt
                                      wind_speed := p.input1.u, zu := zu
                                      z0 := c.z_0, init_ustar := p.init_ustar
                                      init_factor := p.init_factor } := ⟨_, rfl⟩
  have eth : a.theta = θ := by rw [eθ, ha]; rfl
  have v : HleValid a := by
    rw [ha]
    exact ⟨hz0, by dsimp only; linarith, by dsimp only; linarith, by dsimp only; linarith, hta, hts,
      lt_min hea (sati_value_pos hsv), sati_value_pos hes, hP, hP', fun w' hw'' => by
        rw [hsw] at hw''; cases hw''; exact (sub_le_sub_right (min_le_right _ _) 25).trans (C35_ice_within_tolerance _ _ _ hsv hsw)⟩
  obtain ⟨r, κ, hr, _, _, k1, k2, k3, k4⟩ := C34_stably_stratified a v (by rw [ha]; exact hzu)
    (by rw [ha]; exact hzt) (by rw [ha]) (by rw [ha]; exact hw) (by rw [ha]; exact hguess)
    (by rw [eth, ha]; exact hne) w (by rw [ha]; exact hsw) (by rw [eth, ha]; exact hb)
  rw [eth] at k3
  refine ⟨r, κ, ?_, k1, k2.trans (le_of_eq ?_), by rw [k3, ha], by rw [k4, ha]⟩
  · have hi : (if p.input1.e_a > sv then { p.input1 with e_a := sv } else p.input1) =
        { p.input1 with e_a := min p.input1.e_a sv } := by
      split
      · rename_i h; rw [min_eq_right h.le]
      · rename_i h; rw [min_eq_left (not_lt.mp h)]
    rw [ha] at hr
    unfold h_le InputData.sat_vp Snow.e_s_0
    rw [hsv, bind_ok]
    dsimp only
    rw [hi, hes, bind_ok]
    dsimp only
    rw [← ezu, ← ezt, hr, bind_ok, if_neg (by rw [hle1_status hr]; simp)]
    rfl
  · unfold HleIn.density HleIn.profile
    rw [eth, ha]
    dsimp only
    ring_nf

/-- C34: whenever `hle1` returns with a final stability that is not unstable (`0 ≤ w`), heat and vapour flow down
their gradients: the fluxes are the differences times positive coefficients. -/
theorem C34_down_gradient (a : HleIn) (r : HleOut) (h : hle1 a = .ok r) (hu : 5.9 * a.z0 < a.zu)
    (hq : 5.9 * a.z0 < a.zq) (ha : 5.9 * a.z0 < a.za) (hw : 0 < a.wind_speed) :
    ∃ sat w, satw a.air_temp = .ok sat ∧ Profile a (min a.ea sat) w r.ustar r.h r.e ∧
      (0 ≤ w → 0 < r.ustar ∧ ∃ κh κe, 0 < κh ∧ 0 < κe ∧ r.h = κh * (CP_AIR * (a.theta - a.surface_temp)) ∧
        r.e = κe * (vapourFraction (min a.ea sat) a.press - vapourFraction a.es a.press)) := by
  obtain ⟨sat, ea, w, hs, rfl, p, _⟩ := C58_profile_equations a r h
  refine ⟨sat, w, hs, p, fun hw0 => ?_⟩
  have v := hle1_valid h
  obtain ⟨_, k, _, _, h1, hk, _⟩ := hle1_ok h
  obtain ⟨w', hw', hc⟩ := hleCheck_of v
  rw [hs] at hw'
  cases hw'
  rw [h1] at hc
  cases hc
  have hd : 0 < a.density (min a.ea sat) := by
    obtain ⟨k', hk', hd, _⟩ := hleConst_of v h1
    rw [density_of hk'] at hd
    exact hd
  have hlog : ∀ z : ℝ, 5.9 * a.z0 < z → 0 < a.profile z := fun z hz => by
    have := (profileArg_gt_one v.z0).mpr hz
    unfold HleIn.profile
    rw [show (z - 4.9 * a.z0) / a.z0 = (z - 2 * PAESCHKE * a.z0 / 3) / a.z0 by unfold PAESCHKE; ring]
    exact Real.log_pos this
  have hz : ∀ z : ℝ, 5.9 * a.z0 < z → 0 ≤ z * w := fun z hz => mul_nonneg (by have := v.z0; linarith) hw0
  have hM : ∀ ζ : ℝ, 0 ≤ ζ → psiM ζ ≤ 0 ∧ psiH ζ ≤ 0 := fun ζ hζ => by
    unfold psiM psiH
    rw [if_pos hζ, if_pos hζ]
    have : 0 ≤ min ζ 1 := le_min hζ zero_le_one
    constructor <;> linarith
  have d1 : 0 < a.profile a.zu - psiM (a.zu * w) := by
    have := hlog _ hu; have := (hM _ (hz _ hu)).1; linarith
  have d2 : 0 < a.profile a.za - psiH (a.za * w) := by
    have := hlog _ ha; have := (hM _ (hz _ ha)).2; linarith
  have d3 : 0 < a.profile a.zq - psiH (a.zq * w) := by
    have := hlog _ hq; have := (hM _ (hz _ hq)).2; linarith
  have hU : 0 < r.ustar := by
    have := p.wind
    rw [← eq_div_iff d1.ne'] at this
    rw [this]; positivity
  refine ⟨hU, 0.41 * r.ustar * a.density (min a.ea sat) / (a.profile a.za - psiH (a.za * w)),
    0.41 * r.ustar * a.density (min a.ea sat) / (a.profile a.zq - psiH (a.zq * w)), by positivity, by positivity, ?_, ?_⟩
  · have := p.heat
    rw [← eq_div_iff d2.ne'] at this
    rw [this]; ring
  · have := p.vapour
    rw [← eq_div_iff d3.ne'] at this
    rw [this]; ring

/-! ## C61: run steps -/

/-- First guesses carried from one run step to the next. -/
def GuessP (p : Phys) : Prop :=
  (p.init_ustar = none ∧ p.init_factor = none) ∨
  ∃ u f, p.init_ustar = some u ∧ p.init_factor = some f ∧ 0 ≤ u * f ∧ (u = 0 → f = 0)

theorem h_le_guess {c : Env} {p p' : Phys} {r : HleOut} (h : h_le c p = .ok (r, p')) : GuessP p' := by
  obtain ⟨_, _, _, _, _, _, h1, h2, _, h3⟩ := h_le_ok h
  obtain ⟨sat, ea, w, hs, rfl, _, hf, _⟩ := C58_profile_equations _ r h3
  have v := hle1_valid h3
  obtain ⟨w', hw', hc⟩ := hleCheck_of v
  rw [hs] at hw'
  cases hw'
  obtain ⟨k, hk, hd, _⟩ := hleConst_of v hc
  rw [density_of hk] at hd
  refine .inr ⟨_, _, h1, h2, ?_, fun h0 => by rw [hf, h0]; simp⟩
  rw [hf, show ∀ x d : ℝ, x * (0.41 * x * d) = 0.41 * (x * x) * d from fun x d => by ring]
  have := mul_self_nonneg r.ustar
  positivity

theorem stepPhys_guess {c : Env} {dt : ℝ} {d : InputData} {p p' : Phys} (h : stepPhys c dt d p = .ok p')
    (hg : GuessP p) : GuessP p' := by
  obtain ⟨p1, h1, _, hp⟩ := stepPhys_ok h
  rcases energy_balance_ok h1 with ⟨_, r, p2, G, G0, M, h2, _, _, e⟩ | ⟨_, e⟩
  · have := h_le_guess h2
    rw [hp, e]; exact this
  · rw [hp, e]; exact hg

theorem trace_guess {g : Config} {rows : List Rec} {ls : List (List (RStep Phys))} {m : Model}
    (h : RunTrace g rows ls m) : ∃ c ts, mkEnv g = .ok c ∧ parse_time_steps g = .ok ts ∧
      ∀ l ∈ ls, ∀ x ∈ l, ∃ d, GuessP x.pre ∧ stepPhys c (ts x.lv).time_step d x.pre = .ok x.post := by
  obtain ⟨c, ts, hc, hts⟩ := simulate_parts h.simulate
  refine ⟨c, ts, hc, hts, fun l hl x hx => ?_⟩
  have R : RunRule c ts (fun _ => True) (fun _ p => GuessP p) (fun _ _ => True) (fun _ => True) :=
    ⟨fun _ _ _ _ _ _ h => h, fun _ _ _ _ _ _ _ _ _ _ _ => trivial, fun _ _ _ _ h _ => h,
     fun _ _ _ _ p' _ h hs => ⟨trivial, (stepPhys_guess hs h : GuessP p')⟩, .inr fun _ _ _ => trivial⟩
  obtain ⟨_, d, _, hI, _, hs⟩ := RunRule.trace hc hts R (fun _ _ _ _ _ _ => .inl ⟨rfl, rfl⟩)
    (fun _ _ => trivial) h l hl x hx
  exact ⟨d, hI, hs⟩

/-- C61, run step: in every run step that starts with snow on the ground, with `Δθ` the potential temperature of
the air (at its height above the snow) minus that of the surface and `Δq` the specific humidity of the air minus
that at the surface (saturated over ice): sensible heat and vapour flux are in the ratio of the differences in heat and humidity; both
vanish without wind; and in stably stratified air with wind and instruments more than 5.9 roughness lengths above
the snow they are `Δθ` and `Δq` times one positive exchange coefficient, not above that of the neutral profile. -/
theorem C61_exchange_step (g : Config) (rows : List Rec) (ls : List (List (RStep Phys))) (m : Model)
    (h : RunTrace g rows ls m) (c : Env) (hc : mkEnv g = .ok c) : ∀ l ∈ ls, ∀ x ∈ l, 0 < x.pre.snow.layer_count →
      ∃ sat es θ Δθ Δq, satw x.post.input1.t_a = .ok sat ∧ sati x.pre.snow.t_s_0 = .ok es ∧
        θ = x.post.input1.t_a + GRAVITY / CP_AIR * (g.z_t - x.pre.snow.z_s) ∧
        Δθ = θ - x.pre.snow.t_s_0 ∧
        Δq = vapourFraction (min x.post.input1.e_a sat) c.P_a - vapourFraction es c.P_a ∧
        x.post.snow.en.H * Δq = x.post.snow.E * (CP_AIR * Δθ) ∧
        (x.post.input1.u = 0 → x.post.snow.en.H = 0 ∧ x.post.snow.E = 0) ∧
        (0 < x.post.input1.u → 5.9 * g.init_z_0 < g.z_u - x.pre.snow.z_s →
          5.9 * g.init_z_0 < g.z_t - x.pre.snow.z_s → 0 ≤ Δθ / θ + 0.61 * Δq →
          ∃ κ, 0 < κ ∧
            κ ≤ 0.41 ^ 2 * x.post.input1.u *
              moistDensity (√(min x.post.input1.e_a sat * es)) c.P_a (√(θ * x.pre.snow.t_s_0)) /
              (Real.log ((g.z_u - x.pre.snow.z_s - 4.9 * g.init_z_0) / g.init_z_0) *
                Real.log ((g.z_t - x.pre.snow.z_s - 4.9 * g.init_z_0) / g.init_z_0)) ∧
            x.post.snow.en.H = κ * (CP_AIR * Δθ) ∧ x.post.snow.E = κ * Δq) := by
  obtain ⟨c', ts, hc', hts, hx⟩ := trace_guess h
  rw [hc] at hc'
  cases hc'
  intro l hl x hxl hlc
  obtain ⟨d, hI, hs⟩ := hx l hl x hxl
  rcases stepPhys_energy hs with ⟨_, r, p1, G, G0, M, h1, _, _, hE, hen⟩ | ⟨h0, _⟩
  swap
  · omega
  have hp1 : x.post.input1 = p1.input1 := by
    obtain ⟨q, k1, _, k3⟩ := stepPhys_ok hs
    rcases energy_balance_ok k1 with ⟨_, r', q', _, _, _, k4, _, _, e⟩ | ⟨h0, _⟩
    · rw [h1] at k4
      cases k4
      rw [k3, e]
    · exact absurd h0 hlc.ne'
  obtain ⟨sv, es, hsv, hes, e1, e2, _, _, _, hh⟩ := h_le_ok h1
  have hH : x.post.snow.en.H = r.h := by rw [hen]
  obtain ⟨ez1, ez2, ez3, ez4⟩ : c.z_t = g.z_t ∧ c.z_u = g.z_u ∧ c.z_0 = g.init_z_0 ∧ c.relative_hts = false := by
    unfold mkEnv at hc
    obtain ⟨P, _, hc⟩ := bind_eq_ok.mp hc
    simp only [pure_ok, Except.ok.injEq] at hc
    rw [← hc]
    exact ⟨rfl, rfl, rfl, rfl⟩
  have eta : x.post.input1.t_a = (applied d x.pre.input1).t_a := by rw [hp1, e1]
  have eea : x.post.input1.e_a = min (applied d x.pre.input1).e_a sv := by rw [hp1, e1]
  have eu : x.post.input1.u = (applied d x.pre.input1).u := by rw [hp1, e1]
  obtain ⟨a, hadef⟩ : ∃ a : HleIn, a = { press := c.P_a, air_temp := x.post.input1.t_a
                                         surface_temp := x.pre.snow.t_s_0
                                         za := g.z_t - x.pre.snow.z_s
                                         ea := x.post.input1.e_a, es := es
                                         zq := g.z_t - x.pre.snow.z_s
                                         wind_speed := x.post.input1.u
                                         zu := g.z_u - x.pre.snow.z_s
                                         z0 := g.init_z_0, init_ustar := x.pre.init_ustar
                                         init_factor := x.pre.init_factor } := ⟨_, rfl⟩
  have hra : hle1 a = .ok r := by
    rw [hadef, eta, eea, eu]
    simp only [ez4, ez1, ez2, ez3] at hh
    exact hh
  obtain ⟨sat, ea, w, hsat, rfl, p, _⟩ := C58_profile_equations a r hra
  have v := hle1_valid hra
  have eth : a.theta = x.post.input1.t_a + GRAVITY / CP_AIR * (g.z_t - x.pre.snow.z_s) := by rw [hadef]; rfl
  refine ⟨sat, es, a.theta, _, _, by rw [hadef] at hsat; exact hsat, hes, eth, rfl, rfl, ?_, ?_, ?_⟩
  · rw [hH, hE]
    have p1 := p.heat
    have p2 := p.vapour
    have hn := p.regular.2.1
    have hz : a.zq = a.za := by rw [hadef]
    rw [hz] at p2
    rw [← eq_div_iff hn] at p1 p2
    have f1 : a.surface_temp = x.pre.snow.t_s_0 := by rw [hadef]
    have f2 : a.ea = x.post.input1.e_a := by rw [hadef]
    have f3 : a.es = es := by rw [hadef]
    have f4 : a.press = c.P_a := by rw [hadef]
    rw [f1, f2] at p1
    rw [f2, f3, f4] at p2
    rw [p1, p2]
    ring
  · intro hu
    obtain ⟨c1, c2, _⟩ := C34_calm_air a (by rw [hadef]; exact hu) r hra
    rw [hH, hE]; exact ⟨c1, c2⟩
  · intro hu hzu hzt hst
    have hne : a.theta ≠ a.surface_temp := by
      intro he
      exact C32_neutral_never_returns a he r hra
    obtain ⟨r', κ, hr', _, _, k1, k2, k3, k4⟩ := C34_stably_stratified a v (by rw [hadef]; exact hzu)
      (by rw [hadef]; exact hzt) (by rw [hadef]) (by rw [hadef]; exact hu)
      (by rw [hadef]; exact hI) hne sat hsat (by rw [hadef] at hst ⊢; exact hst)
    rw [hra] at hr'
    cases hr'
    refine ⟨κ, k1, k2.trans (le_of_eq ?_), ?_, ?_⟩
    · unfold HleIn.density HleIn.profile
      rw [hadef]
      dsimp only
      ring_nf
    · rw [hH, k3, hadef]
    · rw [hE, k4, hadef]

end

end Pysnobal
