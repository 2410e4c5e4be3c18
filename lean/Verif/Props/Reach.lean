import Verif.Props.Aloft

/-!
# C136: how far the wind carries a balloon, and episodes that never raise
-/

namespace BLE

variable {K W Rd : Type}

/-- No wind of the weather is faster than `B` metres per second, anywhere and at any time of an episode. -/
def Spec.WindLimit (E : World K W) (B : ℝ) : Prop :=
  ∀ k d w x y p (t : ℤ) g, 0 ≤ t → groundTruth E.nz E.C (WindField.reset E.J E.C k d w) x y p t = .ok g →
    Real.sqrt (g.1 ^ 2 + g.2 ^ 2) ≤ B

/-- One step of the arena moves the balloon at most as far as the wind can in the time that passes. -/
theorem reach_arena {E : World K W} {B : ℝ} (hB : Spec.WindLimit E B) {A : Arena K W} {i : ℕ}
    (hA : Spec.InEpisode E A i) (a : Command) (s s' : BState) (hs : s = A.heap.balls i) (hs' : s' = (A.step E a).1.heap.balls i) :
    Real.sqrt (s'.x ^ 2 + s'.y ^ 2) ≤
      Real.sqrt (s.x ^ 2 + s.y ^ 2) + B * (((s'.timeElapsed - s.timeElapsed : ℤ) : ℝ) / 1000000) := by
  rcases arenaStep_ball E a A i hA.ball with ⟨e, -, h⟩ | ⟨w, hw, h, -⟩
  · rw [h] at hs'
    simp only at hs'
    rw [← hs] at hs'
    subst hs'
    simp
  · rw [h, Function.update_self, ← hs] at hs'
    rw [← hs] at hw
    obtain ⟨k, d, w0, hweather⟩ := hA.weather
    unfold windAtBalloon at hw
    rw [hweather] at hw
    have lim := hB k d w0 _ _ _ _ w (by rw [hs]; exact hA.flyer.clock) hw
    obtain ⟨d1, d2⟩ := C16_drift E.sun (A.heap.atms A.atm) w.1 w.2 a agentStep defaultStride s
    obtain ⟨j, -, hj⟩ := simulateStep_time E.sun (A.heap.atms A.atm) w.1 w.2 a s
    rw [← hs'] at d1 d2 hj
    have h0 : (0 : ℝ) ≤ ((s'.timeElapsed - s.timeElapsed : ℤ) : ℝ) / 1000000 := by
      have : (0 : ℤ) ≤ s'.timeElapsed - s.timeElapsed := by rw [hj]; omega
      have : (0 : ℝ) ≤ ((s'.timeElapsed - s.timeElapsed : ℤ) : ℝ) := by exact_mod_cast this
      positivity
    have key := drift_triangle s.x s.y w.1 w.2 _ B h0 lim
    rw [← d1, ← d2, add_sub_cancel, add_sub_cancel] at key
    exact key

/-- Every reset succeeds; after any actions the balloon is in its episode and no further away than the wind can carry it. -/
theorem reach_episode (c : EnvCfg K W Rd) (hJ : Spec.SaneDraws c.world.J) (two : Bool) (hR : c.world.R = gpr two)
    (cal : Calendar) (hcal : Spec.Gregorian cal) (hE : c.world.sun = realSun cal) (hC : Spec.GoodWind c.world.C)
    {B : ℝ} (hB : Spec.WindLimit c.world B) (v : Env K W Rd) (seed : Option ℤ) :
    ∃ v0 o i, v.reset c seed = (v0, .ok o) ∧ ∀ as s, s = (Spec.after c as v0).arena.heap.balls i →
      Spec.InEpisode c.world (Spec.after c as v0).arena i ∧ (v0.arena.heap.balls i).status = .ok ∧
      Real.sqrt (s.x ^ 2 + s.y ^ 2) ≤ 200000 + B * ((s.timeElapsed : ℝ) / 1000000) := by
  have key0 : ∀ w0 : Env K W Rd, ∃ v0 o i, w0.reset c none = (v0, .ok o) ∧ Spec.InEpisode c.world v0.arena i ∧
      ∃ α, Spec.ValidStart α (v0.arena.heap.balls i) := by
    intro w0
    unfold Env.reset
    simp only
    obtain ⟨A', obs, i, h1, h2, -, h4, -⟩ := C102_reset c.world hJ two hR cal hcal hE hC
      (c.world.J.split w0.rng 2 1) w0.arena
    rw [h1]
    simp only [h2.ball]
    exact ⟨_, _, i, rfl, h2, h4⟩
  have key : ∃ v0 o i, v.reset c seed = (v0, .ok o) ∧ Spec.InEpisode c.world v0.arena i ∧
      ∃ α, Spec.ValidStart α (v0.arena.heap.balls i) := by
    cases seed with
    | none => exact key0 v
    | some sd => exact key0 (v.seed c sd)
  obtain ⟨v0, o, i, hr, k1, α, k2⟩ := key
  refine ⟨v0, o, i, hr, fun as => ?_⟩
  induction as using List.reverseRecOn with
  | nil =>
    rintro s rfl
    refine ⟨k1, k2.flying.1, ?_⟩
    simp only [Spec.after, List.foldl_nil]
    rw [k2.flying.2.1]
    have := k2.near
    norm_num at this ⊢; exact this
  | append_singleton as a ih =>
    rintro s hs
    obtain ⟨e1, e2, e3⟩ := ih _ rfl
    unfold Spec.after at e1 e3 hs ⊢
    rw [List.foldl_append] at hs ⊢
    simp only [List.foldl_cons, List.foldl_nil] at hs ⊢
    rcases envStep_arena c a (as.foldl (fun v a => (v.step c a).1) v0) with h | ⟨cmd, h⟩
    · rw [h] at hs ⊢
      subst hs
      exact ⟨e1, e2, e3⟩
    · rw [h] at hs ⊢
      refine ⟨inEpisode_step e1 cmd, e2, ?_⟩
      have := reach_arena hB e1 cmd _ s rfl hs
      refine this.trans ?_
      push_cast
      linarith

/-- C136. If no wind is faster than `B`, then after a reset with any seed and any `n` actions the balloon is at most
200 km + `B` times the elapsed time away from its station, and that time is at most three minutes per action. -/
theorem C136_reach (c : EnvCfg K W Rd) (hJ : Spec.SaneDraws c.world.J) (two : Bool) (hR : c.world.R = gpr two)
    (cal : Calendar) (hcal : Spec.Gregorian cal) (hE : c.world.sun = realSun cal) (hC : Spec.GoodWind c.world.C)
    (B : ℝ) (hB : Spec.WindLimit c.world B) (v : Env K W Rd) (seed : Option ℤ) (as : List ℤ) :
    ∃ i A s, A = (Spec.after c as (v.reset c seed).1).arena ∧ A.ball = some i ∧ s = A.heap.balls i ∧
      Real.sqrt (s.x ^ 2 + s.y ^ 2) ≤ 200000 + B * ((s.timeElapsed : ℝ) / 1000000) ∧
      0 ≤ s.timeElapsed ∧ s.timeElapsed ≤ 180 * 1000000 * as.length := by
  obtain ⟨v0, o, i, hr, h⟩ := reach_episode c hJ two hR cal hcal hE hC hB v seed
  obtain ⟨h1, h2, h3⟩ := h as _ rfl
  rw [hr]
  refine ⟨i, _, _, rfl, h1.ball, rfl, h3, h1.flyer.clock, ?_⟩
  obtain ⟨j, t, hj, ht, ⟨k, hk, hte⟩, -⟩ := C97_from_reset c hJ
    (by rw [hE]; exact C94_real_sun cal hcal.1) v v0 seed o hr as
  have hij : j = i := by
    have := h1.ball
    rw [hj] at this
    injection this
  subst hij
  subst ht
  rw [hte]
  omega

/-- C136, episodes never raise. If no wind is faster than `B` and `180 B (n + 1)` is at most 4,200 km, then after a reset
with any seed and any `n` actions every further step with action 0, 1 or 2 succeeds, unless the flight was reported as over
(or 14.3 million steps have been flown). -/
theorem C136_no_crash (c : EnvCfg K W Rd) (hJ : Spec.SaneDraws c.world.J) (two : Bool) (hR : c.world.R = gpr two)
    (cal : Calendar) (hcal : Spec.Gregorian cal) (hE : c.world.sun = realSun cal) (hC : Spec.GoodWind c.world.C)
    (q : RewardParams) (hh : 0 < q.halflife) (hrew : c.rewardFn = reward c.world.sun q)
    (B : ℝ) (hB0 : 0 ≤ B) (hB : Spec.WindLimit c.world B) (v : Env K W Rd) (seed : Option ℤ) :
    ∃ v0 o i, v.reset c seed = (v0, .ok o) ∧ ∀ (as : List ℤ) (a : ℤ), a = 0 ∨ a = 1 ∨ a = 2 →
      180 * B * (as.length + 1) ≤ 4200000 → as.length < 14300000 →
      (Spec.after c as v0).arena.ball = some i ∧
      (((Spec.after c as v0).arena.heap.balls i).status = .ok → ∃ out, ((Spec.after c as v0).step c a).2 = .ok out) := by
  obtain ⟨v0, o, i, hr, hre⟩ := reach_episode c hJ two hR cal hcal hE hC hB v seed
  have ball : ∀ bs : List ℤ, (Spec.after c bs v0).arena.ball = some i := fun bs => (hre bs _ rfl).1.ball
  obtain ⟨v0', o', i', hr', h⟩ := C135_no_crash c hJ two hR cal hcal hE hC q hh hrew v seed
  rw [hr] at hr'
  simp only [Prod.mk.injEq, Except.ok.injEq] at hr'
  obtain ⟨rfl, rfl⟩ := hr'
  have dist : ∀ bs : List ℤ, 180 * B * bs.length ≤ 4200000 →
      (Spec.after c bs v0).arena.ball = some i → Real.sqrt (((Spec.after c bs v0).arena.heap.balls i).x ^ 2 +
        ((Spec.after c bs v0).arena.heap.balls i).y ^ 2) ≤ 4400000 := by
    intro bs hl hi
    obtain ⟨j, A, s, hA, hj, hs, hd, t0, t1⟩ := C136_reach c hJ two hR cal hcal hE hC B hB v seed bs
    rw [hr] at hA
    simp only at hA
    subst hA
    rw [hi] at hj
    injection hj with hj
    subst hj
    subst hs
    refine hd.trans ?_
    have t1' : (((Spec.after c bs v0).arena.heap.balls i).timeElapsed : ℝ) / 1000000 ≤ 180 * bs.length := by
      rw [div_le_iff₀ (by norm_num)]
      have : ((((Spec.after c bs v0).arena.heap.balls i).timeElapsed : ℤ) : ℝ) ≤ ((180 * 1000000 * bs.length : ℤ) : ℝ) := by
        exact_mod_cast t1
      push_cast at this
      linarith
    have := mul_le_mul_of_nonneg_left t1' hB0
    linarith
  refine ⟨v0, o, i, hr, fun as a ha hl hn => ⟨ball as, fun hst => ?_⟩⟩
  rcases hstep : ((Spec.after c as v0).step c a).2 with e | out
  · exfalso
    obtain ⟨s, s', hs, hs', hi, g⟩ := h as a e hstep
    have hii := hi
    rw [ball as] at hii
    injection hii with hii
    subst hii
    rw [← hs] at hst
    have l0 : (0 : ℝ) ≤ 180 * B := by positivity
    rcases g with g | g | g | g | g
    · omega
    · exact g hst
    · have := dist as (by linarith) hi
      rw [← hs] at this
      linarith
    · have := dist (as ++ [a]) (by push_cast [List.length_append, List.length_singleton]; linarith) (ball _)
      rw [← hs'] at this
      linarith
    · omega
  · exact ⟨out, rfl⟩

/-! ### Wind fields with a speed limit -/

theorem speed_le {u v a b B : ℝ} (hu : |u| ≤ a) (hv : |v| ≤ b) (h0 : 0 ≤ B) (h : a ^ 2 + b ^ 2 ≤ B ^ 2) :
    Real.sqrt (u ^ 2 + v ^ 2) ≤ B := by
  rw [Real.sqrt_le_iff]
  have h1 := mul_self_le_mul_self (abs_nonneg u) hu
  have h2 := mul_self_le_mul_self (abs_nonneg v) hv
  rw [abs_mul_abs_self] at h1 h2
  exact ⟨h0, by nlinarith⟩

/-- C136, the static wind field. Its winds (10 m/s plus noise) are at most 21.1 m/s, if the noise generator's values are in
[-1, 1]. -/
theorem C136_static_limit (E : World K Unit) (hC : E.C = staticWind K) (hnz : ∀ s a b c d, |E.nz s a b c d| ≤ 1) :
    Spec.WindLimit E 21.1 := by
  intro k d w x y p t g ht hg
  obtain ⟨f, n, hf, hn, e1, e2⟩ := (C37_ground_truth _ _ _ _ _ _ _ _).1 hg
  obtain ⟨m, hm, m1, m2⟩ := C87_noise_bounded E.J E.nz hnz (E.J.split k 2 0) w.noise x y p t
  have : m = n := by
    have h := hm.symm.trans hn
    injection h
  subst this
  have a1 := abs_lt.1 m1
  have a2 := abs_lt.1 m2
  rw [hC] at hf
  simp only [staticWind] at hf
  rw [e1, e2]
  split_ifs at hf <;> injection hf with hf <;> subst hf <;> simp only
  · exact speed_le (a := 19) (b := 9) (abs_le.2 ⟨by linarith, by linarith⟩) (abs_le.2 ⟨by linarith, by linarith⟩)
      (by norm_num) (by norm_num)
  · exact speed_le (a := 9) (b := 19) (abs_le.2 ⟨by linarith, by linarith⟩) (abs_le.2 ⟨by linarith, by linarith⟩)
      (by norm_num) (by norm_num)
  · exact speed_le (a := 19) (b := 9) (abs_le.2 ⟨by linarith, by linarith⟩) (abs_le.2 ⟨by linarith, by linarith⟩)
      (by norm_num) (by norm_num)
  · exact speed_le (a := 9) (b := 19) (abs_le.2 ⟨by linarith, by linarith⟩) (abs_le.2 ⟨by linarith, by linarith⟩)
      (by norm_num) (by norm_num)

/-- C136, the sampled wind field. If the two components of every sampled grid value are at most `V`, no wind is faster than
`1.42 (V + 9)`. -/
theorem C136_grid_limit (E : World K (Option GridField)) (s : FieldShape) (hs : Spec.ProperShape s)
    (sample : K → ℤ → GridField) (hC : E.C = gridWind s sample) (hnz : ∀ s a b c d, |E.nz s a b c d| ≤ 1) (V : ℝ)
    (hV : ∀ key date i j k l, i < s.latlngSlices → j < s.latlngSlices → k < s.pressureSlices → l < s.timeSlices →
      |(sample key date i j k l).1| ≤ V ∧ |(sample key date i j k l).2| ≤ V) (hV0 : 0 ≤ V) :
    Spec.WindLimit E (1.42 * (V + 9)) := by
  intro k d w x y p t g ht hg
  obtain ⟨f, n, hf, hn, e1, e2⟩ := (C37_ground_truth _ _ _ _ _ _ _ _).1 hg
  obtain ⟨m, hm, m1, m2⟩ := C87_noise_bounded E.J E.nz hnz (E.J.split k 2 0) w.noise x y p t
  have : m = n := by
    have h := hm.symm.trans hn
    injection h
  subst this
  have a1 := abs_lt.1 m1
  have a2 := abs_lt.1 m2
  obtain ⟨f', hf', b1, b2⟩ := C35_within_extremes s hs (sample (E.J.split k 2 1) d) x y p t ht (-V, -V) (V, V)
    fun i hi j hj q hq l hl =>
      ⟨abs_le.1 (hV _ d i j q l hi hj hq hl).1, abs_le.1 (hV _ d i j q l hi hj hq hl).2⟩
  have : f' = f := by
    rw [hC] at hf
    have h := hf'.symm.trans hf
    injection h
  subst this
  rw [e1, e2]
  simp only at b1 b2
  exact speed_le (a := V + 9) (b := V + 9) (abs_le.2 ⟨by linarith, by linarith⟩) (abs_le.2 ⟨by linarith, by linarith⟩)
    (by positivity) (by nlinarith)

/-- The sunny world keeps to the limit of the static field. -/
theorem sunny_limit : Spec.WindLimit sunnyCfg.world 21.1 :=
  C136_static_limit _ rfl fun _ _ _ _ _ => by norm_num [sunnyCfg, sunnyWorld, demoWorld]

/-- In the sunny world two days (960 steps) of flight never raise: after any at most 959 actions the next command is carried out,
unless the flight was reported as over. -/
example (seed a : ℤ) (as : List ℤ) (ha : a = 0 ∨ a = 1 ∨ a = 2) (hl : as.length < 960) (v : Env (List ℕ) Unit Unit) :
    ∃ v0 i, (v.reset sunnyCfg (some seed)).1 = v0 ∧ (((Spec.after sunnyCfg as v0).arena.heap.balls i).status = .ok →
      ∃ out, ((Spec.after sunnyCfg as v0).step sunnyCfg a).2 = .ok out) := by
  obtain ⟨v0, o, i, hr, h⟩ := C136_no_crash sunnyCfg sunnyWorld_draws true rfl gregorian gregorian_ok rfl good_static
    RewardParams.default (by norm_num [RewardParams.default]) rfl 21.1 (by norm_num) sunny_limit v (some seed)
  refine ⟨v0, i, by rw [hr], (h as a ha ?_ (by omega)).2⟩
  have : ((as.length + 1 : ℕ) : ℝ) ≤ ((960 : ℕ) : ℝ) := Nat.cast_le.2 hl
  push_cast at this
  linarith

/-- The first step after a reset is carried out. -/
example (seed : ℤ) (v : Env (List ℕ) Unit Unit) :
    ∃ out, ((v.reset sunnyCfg (some seed)).1.step sunnyCfg 2).2 = .ok out := by
  obtain ⟨v0, o, i, hr, h⟩ := C136_no_crash sunnyCfg sunnyWorld_draws true rfl gregorian gregorian_ok rfl good_static
    RewardParams.default (by norm_num [RewardParams.default]) rfl 21.1 (by norm_num) sunny_limit v (some seed)
  obtain ⟨v0', o', i', hr', h'⟩ := reach_episode sunnyCfg sunnyWorld_draws true rfl gregorian gregorian_ok rfl good_static
    sunny_limit v (some seed)
  rw [hr] at hr'
  simp only [Prod.mk.injEq, Except.ok.injEq] at hr'
  obtain ⟨rfl, rfl⟩ := hr'
  obtain ⟨b, k⟩ := h [] 2 (by norm_num) (by norm_num) (by norm_num)
  obtain ⟨g1, g2, -⟩ := h' [] _ rfl
  have : i' = i := by
    have := g1.ball
    rw [b] at this
    injection this with this
    exact this.symm
  subst this
  rw [hr]
  exact k g2

end BLE
