import Verif.Props.Exchange

/-! # C100: a reversed wind reverses the turbulent exchange -/

namespace Pysnobal

noncomputable section

/-! ## Specification -/

/-- The same arguments with the opposite wind, and the opposite first guesses (if any). -/
def HleIn.reversed (a : HleIn) : HleIn :=
  { a with wind_speed := -a.wind_speed, init_ustar := a.init_ustar.map (- ·), init_factor := a.init_factor.map (- ·) }

/-- The opposite fluxes, friction velocity and factor, with the same status. -/
def HleOut.reversed (r : HleOut) : HleOut := { h := -r.h, le := -r.le, e := -r.e, status := r.status, ustar := -r.ustar, factor := -r.factor }

/-- The same pack and forcing in the opposite wind. -/
def Phys.reversed (p : Phys) : Phys :=
  { p with input1 := { p.input1 with u := -p.input1.u }, init_ustar := p.init_ustar.map (- ·), init_factor := p.init_factor.map (- ·) }

/-- The same pack with the opposite turbulent fluxes, which count in the energy available at the surface and in the whole pack. -/
def Snow.exchangeReversed (s : Snow) : Snow :=
  { s with E := -s.E, en := { s.en with H := -s.en.H, L_v_E := -s.en.L_v_E, delta_Q_0 := s.en.delta_Q_0 - 2 * (s.en.H + s.en.L_v_E)
                                        delta_Q := s.en.delta_Q - 2 * (s.en.H + s.en.L_v_E) } }

/-! ## Proof -/

def HleSt.reversed (s : HleSt) : HleSt := { lo := s.lo, ustar := -s.ustar, factor := -s.factor, e := -s.e, h := -s.h }

theorem pdiv_neg_num (x y : ℝ) : pdiv (-x) y = (pdiv x y).map (- ·) := by
  unfold pdiv
  split
  · rfl
  · simp only [Except.map, neg_div]

theorem emap_bind {α β γ : Type} (m : Except Err α) (f : α → β) (k : β → Except Err γ) : (m.map f >>= k) = m >>= fun x => k (f x) := by
  cases m <;> rfl

theorem ebind_map {α β γ : Type} (m : Except Err α) (k : α → Except Err β) (f : β → γ) : (m >>= k).map f = m >>= fun x => (k x).map f := by
  cases m <;> rfl

theorem hleLo_reversed (k : HleConst) (s : HleSt) : hleLo { k with wind_speed := -k.wind_speed } s.reversed = hleLo k s := by
  unfold hleLo
  dsimp only [HleSt.reversed]
  have e : VON_KARMAN * GRAVITY * (-s.h / (k.air_temp * CP_AIR) + 0.61 * -s.e) =
      -(VON_KARMAN * GRAVITY * (s.h / (k.air_temp * CP_AIR) + 0.61 * s.e)) := by ring
  rw [e]
  simp only [neg_eq_zero]
  split
  · rfl
  · congr 1
    rw [show -s.ustar * -s.ustar * -s.ustar * k.dens = -(s.ustar * s.ustar * s.ustar * k.dens) by ring, neg_div_neg_eq]

theorem hleStep_reversed (k : HleConst) (s : HleSt) :
    hleStep { k with wind_speed := -k.wind_speed } s.reversed = (hleStep k s).map HleSt.reversed := by
  unfold hleStep
  rw [hleLo_reversed]
  dsimp only
  rw [ebind_map]
  refine congrArg (_ >>= ·) (funext fun pm => ?_)
  rw [mul_neg, pdiv_neg_num, emap_bind, ebind_map]
  refine congrArg (_ >>= ·) (funext fun u => ?_)
  rw [ebind_map]
  refine congrArg (_ >>= ·) (funext fun pv => ?_)
  rw [show k.q_diff * (VON_KARMAN * -u * k.dens) * AV = -(k.q_diff * (VON_KARMAN * u * k.dens) * AV) by ring, pdiv_neg_num, emap_bind, ebind_map]
  refine congrArg (_ >>= ·) (funext fun e => ?_)
  rw [ebind_map]
  refine congrArg (_ >>= ·) (funext fun ph => ?_)
  rw [show k.t_diff * (VON_KARMAN * -u * k.dens) * AH * CP_AIR = -(k.t_diff * (VON_KARMAN * u * k.dens) * AH * CP_AIR) by ring, pdiv_neg_num,
    emap_bind, ebind_map]
  refine congrArg (_ >>= ·) (funext fun h => ?_)
  simp only [pure_ok, Except.map, HleSt.reversed]
  rw [show VON_KARMAN * -u * k.dens = -(VON_KARMAN * u * k.dens) by ring]

theorem hleLoop_reversed (k : HleConst) : ∀ (n it : ℕ) (s : HleSt),
    hleLoop { k with wind_speed := -k.wind_speed } n it s.reversed = (hleLoop k n it s).map (fun q => (q.1, q.2.reversed)) := by
  intro n
  induction n with
  | zero => intro it s; rfl
  | succ n ih =>
    intro it s
    unfold hleLoop
    rw [hleStep_reversed, emap_bind, ebind_map]
    refine congrArg (_ >>= ·) (funext fun s' => ?_)
    show (if hleConverged s.lo s'.lo = true then _ else _) = _
    split
    · rfl
    · exact ih _ _

theorem hleConst_reversed (a : HleIn) (ea : ℝ) :
    hleConst a.reversed ea = (hleConst a ea).map (fun k => { k with wind_speed := -k.wind_speed }) := by
  unfold hleConst
  simp only [ebind_map]
  rfl

theorem hleConst_wind {a : HleIn} {ea : ℝ} {k : HleConst} (h : hleConst a ea = .ok k) : k.wind_speed = a.wind_speed := by
  obtain ⟨_, _, _, _, _, _, _, _, _, _, _, e5, _⟩ := hleConst_ok h
  exact e5

theorem hleSolve_reversed (a : HleIn) (k : HleConst) :
    hleSolve a.reversed { k with wind_speed := -k.wind_speed } = (hleSolve a k).map (fun q => (q.1, q.2.reversed)) := by
  unfold hleSolve
  show (if k.air_temp = a.surface_temp then _ else _) = _
  split
  · rw [show (a.reversed).wind_speed = -a.wind_speed from rfl, mul_neg, pdiv_neg_num, emap_bind, ebind_map]
    refine congrArg (_ >>= ·) (funext fun u => ?_)
    dsimp only
    rw [show k.q_diff * (VON_KARMAN * -u * k.dens) * AV = -(k.q_diff * (VON_KARMAN * u * k.dens) * AV) by ring, pdiv_neg_num, emap_bind, ebind_map]
    refine congrArg (_ >>= ·) (funext fun e => ?_)
    rw [show k.t_diff * (VON_KARMAN * -u * k.dens) * CP_AIR * AH = -(k.t_diff * (VON_KARMAN * u * k.dens) * CP_AIR * AH) by ring, pdiv_neg_num,
      emap_bind, ebind_map]
    refine congrArg (_ >>= ·) (funext fun h => ?_)
    simp only [pure_ok, Except.map, HleSt.reversed]
    rw [show VON_KARMAN * -u * k.dens = -(VON_KARMAN * u * k.dens) by ring]
  · have key : ∀ u f : ℝ,
        (do let e ← pdiv (k.q_diff * -f * AV) k.ltsv
            let h ← pdiv (k.t_diff * -f * CP_AIR * AH) k.ltsh
            let (it, s) ← hleLoop { k with wind_speed := -k.wind_speed } ITMAX 0 { lo := none, ustar := -u, factor := -f, e, h }
            pure (some it, s)) =
        Except.map (fun q : Option ℕ × HleSt => (q.1, q.2.reversed))
          (do let e ← pdiv (k.q_diff * f * AV) k.ltsv
              let h ← pdiv (k.t_diff * f * CP_AIR * AH) k.ltsh
              let (it, s) ← hleLoop k ITMAX 0 { lo := none, ustar := u, factor := f, e, h }
              pure (some it, s)) := by
      intro u f
      rw [show k.q_diff * -f * AV = -(k.q_diff * f * AV) by ring, pdiv_neg_num, emap_bind, ebind_map]
      refine congrArg (_ >>= ·) (funext fun e => ?_)
      rw [show k.t_diff * -f * CP_AIR * AH = -(k.t_diff * f * CP_AIR * AH) by ring, pdiv_neg_num, emap_bind, ebind_map]
      refine congrArg (_ >>= ·) (funext fun h => ?_)
      have := hleLoop_reversed k ITMAX 0 { lo := none, ustar := u, factor := f, e, h }
      simp only [HleSt.reversed] at this
      rw [this, emap_bind, ebind_map]
      rfl
    obtain ⟨press, at0, st, za, ea, es, zq, w, zu, z0, iu, ifac⟩ := a
    dsimp only [HleIn.reversed]
    cases iu with
    | none =>
      dsimp only [Option.map]
      rw [mul_neg, pdiv_neg_num, emap_bind, ebind_map]
      refine congrArg (_ >>= ·) (funext fun u => ?_)
      cases ifac with
      | none =>
        dsimp only [Option.map]
        rw [show VON_KARMAN * -u * k.dens = -(VON_KARMAN * u * k.dens) by ring]
        exact key _ _
      | some f => exact key _ _
    | some u =>
      cases ifac with
      | none =>
        dsimp only [Option.map]
        simp only [pure_ok, bind_ok]
        rw [show VON_KARMAN * -u * k.dens = -(VON_KARMAN * u * k.dens) by ring]
        exact key _ _
      | some f => exact key _ _

theorem hleFinish_reversed (a : HleIn) (it : Option ℕ) (s : HleSt) :
    hleFinish a.reversed it s.reversed = (hleFinish a it s).map HleOut.reversed := by
  cases it with
  | none => rfl
  | some it =>
    unfold hleFinish
    simp only [Except.map, HleOut.reversed, HleSt.reversed, mul_neg]
    rfl

/-- C100: the turbulent-transfer routine does not check the wind speed.  For all arguments, with the opposite wind (and the opposite first
guesses) it does exactly the same, including every exception, except that both fluxes come out with the opposite sign. -/
theorem C100_reversed_wind (a : HleIn) : hle1 a.reversed = (hle1 a).map HleOut.reversed := by
  unfold hle1
  rw [ebind_map]
  refine congrArg (_ >>= ·) (funext fun ea => ?_)
  rw [hleConst_reversed, emap_bind, ebind_map]
  refine congrArg (_ >>= ·) (funext fun k => ?_)
  rw [hleSolve_reversed, emap_bind, ebind_map]
  exact congrArg (_ >>= ·) (funext fun q => hleFinish_reversed a q.1 q.2)

/-- C100: so does the turbulent part of a run step. -/
theorem h_le_reversed (c : Env) (p : Phys) : h_le c p.reversed = (h_le c p).map (fun q => (q.1.reversed, q.2.reversed)) := by
  unfold h_le
  rw [ebind_map]
  refine congrArg (_ >>= ·) (funext fun sat => ?_)
  dsimp only
  rw [ebind_map]
  refine congrArg (_ >>= ·) (funext fun es => ?_)
  rw [ebind_map]
  have e : (if p.reversed.input1.e_a > sat then { p.reversed.input1 with e_a := sat } else p.reversed.input1) =
      { (if p.input1.e_a > sat then { p.input1 with e_a := sat } else p.input1) with
        u := -(if p.input1.e_a > sat then { p.input1 with e_a := sat } else p.input1).u } := by
    show (if p.input1.e_a > sat then _ else _) = _
    split <;> rfl
  rw [e]
  generalize (if p.input1.e_a > sat then { p.input1 with e_a := sat } else p.input1) = i
  have h := C100_reversed_wind { press := c.P_a, air_temp := i.t_a, surface_temp := p.snow.t_s_0
                                 za := if c.relative_hts then c.z_t else c.z_t - p.snow.z_s, ea := i.e_a, es := es
                                 zq := if c.relative_hts then c.z_t else c.z_t - p.snow.z_s, wind_speed := i.u
                                 zu := if c.relative_hts then c.z_u else c.z_u - p.snow.z_s, z0 := c.z_0
                                 init_ustar := p.init_ustar, init_factor := p.init_factor }
  refine (congrArg (· >>= _) h).trans ?_
  rw [emap_bind]
  refine congrArg (_ >>= ·) (funext fun r => ?_)
  show (if r.status ≠ 0 then _ else _) = _
  split <;> rfl

/-- C100: in the opposite wind the energy balance of a run step, including every exception, has the opposite sensible and latent heat and
the opposite vapour flux and the same radiation, ground heat, heat between the layers and advected heat. -/
theorem C100_energy_balance (c : Env) (dt : ℝ) (p : Phys) (hp : 0 < p.snow.layer_count) :
    energy_balance c dt p.reversed = (energy_balance c dt p).map (fun q => { q.reversed with snow := q.snow.exchangeReversed }) := by
  unfold energy_balance
  rw [if_pos (by exact hp), if_pos hp]
  dsimp only
  rw [h_le_reversed, emap_bind, ebind_map]
  refine congrArg (_ >>= ·) (funext fun q => ?_)
  obtain ⟨r, p'⟩ := q
  dsimp only
  rw [ebind_map]
  refine congrArg (_ >>= ·) (funext fun g => ?_)
  obtain ⟨G, G_0⟩ := g
  dsimp only
  rw [ebind_map]
  refine congrArg (_ >>= ·) (funext fun M => ?_)
  simp only [pure_ok, Except.map]
  congr 1
  unfold Phys.reversed Snow.exchangeReversed HleOut.reversed net_radiation
  dsimp only
  congr 3
  all_goals ring

/-- C100: a negative wind speed takes heat out of the snow surface into warmer air and moisture into more humid air: in stably stratified air
both fluxes are a negative coefficient times the differences. -/
theorem C100_negative_wind (a : HleIn) (v : HleValid a) (hu : 5.9 * a.z0 < a.zu) (ha : 5.9 * a.z0 < a.za) (hq : a.zq = a.za)
    (hw : a.wind_speed < 0) (hg : GuessOK a) (ht : a.theta ≠ a.surface_temp) (sat : ℝ) (hs : satw a.air_temp = .ok sat)
    (hb : 0 ≤ (a.theta - a.surface_temp) / a.theta + 0.61 * (vapourFraction (min a.ea sat) a.press - vapourFraction a.es a.press)) :
    ∃ r κ, hle1 a = .ok r ∧ κ < 0 ∧ r.h = κ * (CP_AIR * (a.theta - a.surface_temp)) ∧
      r.e = κ * (vapourFraction (min a.ea sat) a.press - vapourFraction a.es a.press) := by
  have hg' : GuessOK a.reversed := by
    rcases hg with ⟨h1, h2⟩ | ⟨u, f, h1, h2, h3, h4⟩
    · exact .inl ⟨by simp [HleIn.reversed, h1], by simp [HleIn.reversed, h2]⟩
    · exact .inr ⟨-u, -f, by simp [HleIn.reversed, h1], by simp [HleIn.reversed, h2], by rw [neg_mul_neg]; exact h3,
        fun h => by rw [h4 (by linarith)]; simp⟩
  obtain ⟨r, κ, h1, _, _, h2, _, h3, h4⟩ := C34_stably_stratified a.reversed
    ⟨v.z0, v.zu, v.zq, v.za, v.air, v.surf, v.ea, v.es, v.eaP, v.esP, v.sat⟩ hu ha hq
    (by show 0 < -a.wind_speed; linarith) hg' ht sat hs hb
  rw [C100_reversed_wind] at h1
  cases h : hle1 a with
  | error e => rw [h] at h1; cases h1
  | ok q =>
    rw [h] at h1
    cases h1
    refine ⟨q, -κ, rfl, by linarith, ?_, ?_⟩
    · have : -q.h = κ * (CP_AIR * (a.theta - a.surface_temp)) := h3
      linarith
    · have : -q.e = κ * (vapourFraction (min a.ea sat) a.press - vapourFraction a.es a.press) := h4
      linarith

/-- C100, run step: no run rejects a negative wind speed.  In every run step that starts with snow on the ground, in stably stratified air with
negative wind and instruments more than 5.9 roughness lengths above the snow, sensible heat and vapour flux are the differences in heat and
humidity between air and snow times a negative coefficient: the snow loses heat to warmer air. -/
theorem C100_negative_wind_run (g : Config) (rows : List Rec) (ls : List (List (RStep Phys))) (m : Model)
    (h : RunTrace g rows ls m) (c : Env) (hc : mkEnv g = .ok c) : ∀ l ∈ ls, ∀ x ∈ l, 0 < x.pre.snow.layer_count →
      ∃ sat es θ Δθ Δq, satw x.post.input1.t_a = .ok sat ∧ sati x.pre.snow.t_s_0 = .ok es ∧
        θ = x.post.input1.t_a + GRAVITY / CP_AIR * (g.z_t - x.pre.snow.z_s) ∧
        Δθ = θ - x.pre.snow.t_s_0 ∧
        Δq = vapourFraction (min x.post.input1.e_a sat) c.P_a - vapourFraction es c.P_a ∧
        (x.post.input1.u < 0 → 5.9 * g.init_z_0 < g.z_u - x.pre.snow.z_s → 5.9 * g.init_z_0 < g.z_t - x.pre.snow.z_s →
          0 ≤ Δθ / θ + 0.61 * Δq → ∃ κ, κ < 0 ∧ x.post.snow.en.H = κ * (CP_AIR * Δθ) ∧ x.post.snow.E = κ * Δq) := by
  obtain ⟨c', ts, hc', hts, hx⟩ := trace_guess h
  rw [hc] at hc'
  cases hc'
  intro l hl x hxl hlc
  obtain ⟨d, hI, hs⟩ := hx l hl x hxl
  rcases stepPhys_energy hs with ⟨_, r, p1, G, G0, M, h1, _, _, hE, hen⟩ | ⟨h0, _⟩
  swap
  · omega
  have hp1 : x.post.input1 = p1.input1 := by
    obtain ⟨q, k1, _, k3⟩ := stepPhys_ok hs
    rcases energy_balance_ok k1 with ⟨_, r', q', _, _, _, k4, _, _, e⟩ | ⟨h0, _⟩
    · rw [h1] at k4
      cases k4
      rw [k3, e]
    · exact absurd h0 hlc.ne'
  obtain ⟨sv, es, hsv, hes, e1, e2, _, _, _, hh⟩ := h_le_ok h1
  have hH : x.post.snow.en.H = r.h := by rw [hen]
  obtain ⟨ez1, ez2, ez3, ez4⟩ : c.z_t = g.z_t ∧ c.z_u = g.z_u ∧ c.z_0 = g.init_z_0 ∧ c.relative_hts = false := by
    unfold mkEnv at hc
    obtain ⟨P, _, hc⟩ := bind_eq_ok.mp hc
    simp only [pure_ok, Except.ok.injEq] at hc
    rw [← hc]
    exact ⟨rfl, rfl, rfl, rfl⟩
  have eta : x.post.input1.t_a = (applied d x.pre.input1).t_a := by rw [hp1, e1]
  have eea : x.post.input1.e_a = min (applied d x.pre.input1).e_a sv := by rw [hp1, e1]
  have eu : x.post.input1.u = (applied d x.pre.input1).u := by rw [hp1, e1]
  obtain ⟨a, hadef⟩ : ∃ a : HleIn, a = { press := c.P_a, air_temp := x.post.input1.t_a
                                         surface_temp := x.pre.snow.t_s_0
                                         za := g.z_t - x.pre.snow.z_s
                                         ea := x.post.input1.e_a, es := es
                                         zq := g.z_t - x.pre.snow.z_s
                                         wind_speed := x.post.input1.u
                                         zu := g.z_u - x.pre.snow.z_s
                                         z0 := g.init_z_0, init_ustar := x.pre.init_ustar
                                         init_factor := x.pre.init_factor } := ⟨_, rfl⟩
  have hra : hle1 a = .ok r := by
    rw [hadef, eta, eea, eu]
    simp only [ez4, ez1, ez2, ez3] at hh
    exact hh
  obtain ⟨sat, _, _, hsat, rfl, _, _⟩ := C58_profile_equations a r hra
  have eth : a.theta = x.post.input1.t_a + GRAVITY / CP_AIR * (g.z_t - x.pre.snow.z_s) := by rw [hadef]; rfl
  refine ⟨sat, es, a.theta, _, _, by rw [hadef] at hsat; exact hsat, hes, eth, rfl, rfl, ?_⟩
  intro hu hzu hzt hst
  obtain ⟨r', κ, hr', k1, k3, k4⟩ := C100_negative_wind a (hle1_valid hra) (by rw [hadef]; exact hzu)
    (by rw [hadef]; exact hzt) (by rw [hadef]) (by rw [hadef]; exact hu)
    (by rw [hadef]; exact hI) (fun he => C32_neutral_never_returns a he r hra) sat hsat (by rw [hadef] at hst ⊢; exact hst)
  rw [hra] at hr'
  cases hr'
  exact ⟨κ, k1, by rw [hH, k3, hadef], by rw [hE, k4, hadef]⟩

end

end Pysnobal
