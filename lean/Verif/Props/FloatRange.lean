import Verif.Model.FloatRange
import Verif.Props.Float

/-!
# C118: the declared ranges survive floating-point rounding
-/

namespace BLE

theorem okBind {α β : Type} (a : α) (f : α → Except Err β) : ((Except.ok a : Except Err α) >>= f) = f a := rfl

theorem rd_zero {rd : ℝ → ℝ} (h : Rounding rd) : rd 0 = 0 := by
  have := h.exact _ (isFloat_int 0 (by norm_num))
  simpa using this

theorem rd_one {rd : ℝ → ℝ} (h : Rounding rd) : rd 1 = 1 := by
  have := h.exact _ (isFloat_int 1 (by norm_num))
  simpa using this

theorem rd_nonneg {rd : ℝ → ℝ} (h : Rounding rd) {x : ℝ} (hx : 0 ≤ x) : 0 ≤ rd x := by
  rw [← rd_zero h]; exact h.mono hx

theorem rd_nonpos {rd : ℝ → ℝ} (h : Rounding rd) {x : ℝ} (hx : x ≤ 0) : rd x ≤ 0 := by
  rw [← rd_zero h]; exact h.mono hx

theorem rd_le_one {rd : ℝ → ℝ} (h : Rounding rd) {x : ℝ} (hx : x ≤ 1) : rd x ≤ 1 := by
  rw [← rd_one h]; exact h.mono hx

/-- A positive number does not round to 0 (the exponent is unlimited, so there is no underflow). -/
theorem rd_pos {rd : ℝ → ℝ} (h : Rounding rd) {x : ℝ} (hx : 0 < x) : 0 < rd x := by
  have h1 : (2 : ℝ) ^ Int.log 2 x ≤ x := by
    have := Int.zpow_log_le_self (b := 2) (by norm_num) hx
    exact_mod_cast this
  have hf : IsFloat ((2 : ℝ) ^ Int.log 2 x) := ⟨1, Int.log 2 x, by norm_num, by simp⟩
  have := h.mono h1
  rw [h.exact _ hf] at this
  have hp : (0 : ℝ) < 2 ^ Int.log 2 x := by positivity
  linarith

theorem rd_quarter {rd : ℝ → ℝ} (h : Rounding rd) (m e : ℤ) (hm : |m| ≤ 2 ^ 53) :
    rd (m * (2 : ℝ) ^ e) = m * (2 : ℝ) ^ e := h.exact _ ⟨m, e, hm, rfl⟩

/-- C118. Rescaling with saturation is exact outside the interval, increasing, and never leaves [0, 1]; squashing a float never
leaves [0, 1]. -/
theorem C118_transforms (rd : ℝ → ℝ) (h : Rounding rd) :
    (∀ x lo hi : ℝ, lo < hi → ∃ y, rescaleSatF rd x lo hi = .ok y ∧ 0 ≤ y ∧ y ≤ 1 ∧
      (x ≤ lo → y = 0) ∧ (hi ≤ x → y = 1)) ∧
    (∀ x x' lo hi y y' : ℝ, x ≤ x' → rescaleSatF rd x lo hi = .ok y → rescaleSatF rd x' lo hi = .ok y' → y ≤ y') ∧
    (∀ x c : ℝ, IsFloat x → 0 ≤ x → 0 < c → ∃ y, squashF rd x c = .ok y ∧ 0 ≤ y ∧ y ≤ 1 ∧ (0 < x → 0 < y)) := by
  refine ⟨fun x lo hi hlt => ?_, fun x x' lo hi y y' hx h1 h2 => ?_, fun x c hf hx hc => ?_⟩
  · have hw : 0 < rd (hi - lo) := rd_pos h (by linarith)
    refine ⟨clip (rd (rd (x - lo) / rd (hi - lo))) 0 1, ?_, ?_, ?_, fun hx => ?_, fun hx => ?_⟩
    · unfold rescaleSatF rescaleF
      rw [if_neg (by linarith)]; rfl
    · exact le_min (le_max_right _ _) zero_le_one
    · exact min_le_right _ _
    · have : rd (rd (x - lo) / rd (hi - lo)) ≤ 0 :=
        rd_nonpos h (div_nonpos_of_nonpos_of_nonneg (rd_nonpos h (by linarith)) hw.le)
      unfold clip
      rw [max_eq_right this]; exact min_eq_left zero_le_one
    · have : 1 ≤ rd (rd (x - lo) / rd (hi - lo)) := by
        rw [← rd_one h]
        apply h.mono
        rw [le_div_iff₀ hw, one_mul]
        exact h.mono (by linarith)
      unfold clip
      exact min_eq_right (this.trans (le_max_left _ _))
  · unfold rescaleSatF rescaleF at h1 h2
    split_ifs at h1 h2 with hlt
    · cases h1
    · simp only [Except.map, Except.ok.injEq] at h1 h2
      subst h1 h2
      have hw : 0 < rd (hi - lo) := rd_pos h (by linarith)
      exact min_le_min_right _ (max_le_max_right _ (h.mono ((div_le_div_iff_of_pos_right hw).2 (h.mono (by linarith)))))
  · have hle : x ≤ rd (x + c) := by
      have := h.mono (show x ≤ x + c by linarith)
      rwa [h.exact _ hf] at this
    have hpos : 0 < rd (x + c) := rd_pos h (by linarith)
    refine ⟨rd (x / rd (x + c)), ?_, ?_, ?_, fun h0 => ?_⟩
    · unfold squashF
      rw [if_neg (not_le.2 hc), if_neg (not_lt.2 hx)]
    · exact rd_nonneg h (div_nonneg hx hpos.le)
    · exact rd_le_one h ((div_le_one hpos).2 hle)
    · exact rd_pos h (div_pos h0 hpos)

/-- C118. Whatever the power balance, the battery holds between nothing and its capacity, its state of charge is a number in
[0, 1] — 1 exactly when read off a full battery — and the ballonet never holds a negative amount of air. -/
theorem C118_battery (rd : ℝ → ℝ) (h : Rounding rd) (charge solar load : ℝ) (us : ℤ) (cap : ℝ) (hc : 0 < cap) :
    0 ≤ batteryF rd charge solar load us cap ∧ batteryF rd charge solar load us cap ≤ cap ∧
    (∀ b, 0 ≤ b → b ≤ cap → ∃ y, socF rd b cap = .ok y ∧ 0 ≤ y ∧ y ≤ 1 ∧ (0 < b → 0 < y)) ∧ socF rd cap cap = .ok 1 ∧
    (∀ mols flow, 0 ≤ molsAirF rd mols flow us) := by
  refine ⟨le_min (le_max_right _ _) hc.le, min_le_right _ _, fun b h0 h1 => ?_, ?_, fun _ _ => le_max_right _ _⟩
  · refine ⟨rd (b / cap), ?_, rd_nonneg h (div_nonneg h0 hc.le), rd_le_one h ((div_le_one hc).2 h1),
      fun hb => rd_pos h (div_pos hb hc)⟩
    unfold socF
    rw [if_neg hc.ne']
  · unfold socF
    rw [if_neg hc.ne', div_self hc.ne', rd_one h]

/-- C118. The pressure ratio of a float pressure is at least 1, and exactly 1 without superpressure. -/
theorem C118_ratio (rd : ℝ → ℝ) (h : Rounding rd) (p sp : ℝ) (hf : IsFloat p) (hp : 0 < p) :
    ∃ r, pressureRatioF rd p sp = .ok r ∧ 1 ≤ r ∧ (sp ≤ 0 → r = 1) := by
  refine ⟨_, if_neg hp.ne', ?_, fun hs => ?_⟩
  · rw [← rd_one h]
    apply h.mono
    rw [le_div_iff₀ hp, one_mul]
    have := h.mono (show p ≤ p + max sp 0 by linarith [le_max_right sp 0])
    rwa [h.exact _ hf] at this
  · rw [max_eq_right hs, add_zero, h.exact _ hf, div_self hp.ne', rd_one h]

theorem multiplierF_range {rd : ℝ → ℝ} (h : Rounding rd) (watts m : ℝ) (hm : powerMultiplierF rd watts = .ok m) :
    1 / 2 ≤ m ∧ m ≤ 1 := by
  obtain ⟨y, e, y0, y1, _⟩ := (C118_transforms rd h).1 watts 100 300 (by norm_num)
  unfold powerMultiplierF at hm
  rw [e] at hm
  simp only [pure, Except.pure, okBind, Except.ok.injEq] at hm
  subst hm
  have a0 : (7 / 8 : ℝ) ≤ rd 0.95 := by
    have := h.mono (show ((7 : ℤ) : ℝ) * (2 : ℝ) ^ (-3 : ℤ) ≤ 0.95 by norm_num)
    rw [rd_quarter h 7 (-3) (by norm_num)] at this
    norm_num at this ⊢
    linarith
  have a1 : rd 0.95 ≤ 1 := rd_le_one h (by norm_num)
  have b0 : 0 ≤ rd 0.3 := rd_nonneg h (by norm_num)
  have b1 : rd 0.3 ≤ 3 / 8 := by
    have := h.mono (show (0.3 : ℝ) ≤ ((3 : ℤ) : ℝ) * (2 : ℝ) ^ (-3 : ℤ) by norm_num)
    rw [rd_quarter h 3 (-3) (by norm_num)] at this
    norm_num at this ⊢
    linarith
  have c0 : 0 ≤ rd (rd 0.3 * y) := rd_nonneg h (mul_nonneg b0 y0)
  have c1 : rd (rd 0.3 * y) ≤ rd 0.3 := by
    have := h.mono (show rd 0.3 * y ≤ rd 0.3 by nlinarith)
    rwa [h.exact _ (h.range _)] at this
  constructor
  · have hh : rd (1 / 2) = 1 / 2 := by
      have := rd_quarter h 1 (-1) (by norm_num)
      norm_num at this ⊢
      exact this
    rw [← hh]
    exact h.mono (by rw [hh] at *; linarith)
  · exact rd_le_one h (by linarith)

theorem baseRewardF_range {rd : ℝ → ℝ} (h : Rounding rd) {M : MathLib} (hM : M.Sane) (q : RewardParams)
    (hf : IsFloat q.dropoff) (h0 : 0 ≤ q.dropoff) (hl : 0 < q.halflife) (d : ℝ) :
    ∃ r, baseRewardF rd M q d = .ok r ∧ (d ≤ kmF rd q.radiusKm → r = 1) ∧
      (kmF rd q.radiusKm < d → 0 ≤ r ∧ r ≤ q.dropoff) := by
  unfold baseRewardF
  split_ifs with hd hz
  · exact ⟨1, rfl, fun _ => rfl, fun hc => absurd hd (not_le.2 hc)⟩
  · exact absurd hz hl.ne'
  · refine ⟨_, rfl, fun hc => absurd hc hd, fun _ => ?_⟩
    have hd' : 0 ≤ d - kmF rd q.radiusKm := by linarith [not_le.1 hd]
    have hr : rd (rd (-0.69314718056) / q.halflife) ≤ 0 :=
      rd_nonpos h (div_nonpos_of_nonpos_of_nonneg (rd_nonpos h (by norm_num)) hl.le)
    have hk : 0 ≤ rd (rd (d - kmF rd q.radiusKm) / 1000) :=
      rd_nonneg h (div_nonneg (rd_nonneg h hd') (by norm_num))
    obtain ⟨e0, e1⟩ := hM.exp_range _ (rd_nonpos h (mul_nonpos_of_nonpos_of_nonneg hr hk))
    refine ⟨rd_nonneg h (mul_nonneg h0 e0), ?_⟩
    have := h.mono (show q.dropoff * _ ≤ q.dropoff from mul_le_of_le_one_right h0 e1)
    rwa [h.exact _ hf] at this

/-- C118. The reward is always computed and lies in [0, 1] for every drop-off in [0, 1] and positive half-life. With the default
drop-off, a balloon inside the station-keeping radius always gets at least 0.5 and one outside never more than 0.4375; without
the power penalty the reward inside is exactly 1. -/
theorem C118_reward (rd : ℝ → ℝ) (h : Rounding rd) (M : MathLib) (hM : M.Sane) (q : RewardParams)
    (hf : IsFloat q.dropoff) (h0 : 0 ≤ q.dropoff) (h1 : q.dropoff ≤ 1) (hl : 0 < q.halflife)
    (x y : ℝ) (cmd : Command) (excess : Bool) (watts : ℝ) :
    ∃ r, rewardF rd M q x y cmd excess watts = .ok r ∧ 0 ≤ r ∧ r ≤ 1 ∧
      (M.norm x y ≤ kmF rd q.radiusKm → 1 / 2 ≤ r) ∧
      (M.norm x y ≤ kmF rd q.radiusKm → cmd ≠ .down ∨ excess = true → r = 1) ∧
      (kmF rd q.radiusKm < M.norm x y → r ≤ q.dropoff) ∧
      (kmF rd q.radiusKm < M.norm x y → q.dropoff = rd 0.4 → r ≤ 7 / 16) := by
  obtain ⟨b, eb, bin, bout⟩ := baseRewardF_range h hM q hf h0 hl (M.norm x y)
  have b01 : 0 ≤ b ∧ b ≤ 1 := by
    rcases le_or_gt (M.norm x y) (kmF rd q.radiusKm) with hd | hd
    · rw [bin hd]; norm_num
    · exact ⟨(bout hd).1, (bout hd).2.trans h1⟩
  have hdo : q.dropoff = rd 0.4 → q.dropoff ≤ 7 / 16 := by
    intro e
    have := h.mono (show (0.4 : ℝ) ≤ ((7 : ℤ) : ℝ) * (2 : ℝ) ^ (-4 : ℤ) by norm_num)
    rw [rd_quarter h 7 (-4) (by norm_num), ← e] at this
    norm_num at this ⊢
    linarith
  unfold rewardF
  rw [eb]
  simp only [okBind]
  split_ifs with hc
  · obtain ⟨m, em⟩ : ∃ m, powerMultiplierF rd watts = .ok m := by
      obtain ⟨y, e, _⟩ := (C118_transforms rd h).1 watts 100 300 (by norm_num)
      unfold powerMultiplierF
      rw [e]
      exact ⟨_, rfl⟩
    obtain ⟨m0, m1⟩ := multiplierF_range h watts m em
    have fl : ∀ {z : ℝ}, IsFloat z → b * m ≤ z → rd (b * m) ≤ z := by
      intro z hz hle
      have := h.mono hle
      rwa [h.exact _ hz] at this
    rw [em]
    refine ⟨_, rfl, rd_nonneg h (by nlinarith), rd_le_one h (by nlinarith), fun hd => ?_, fun _ hn => ?_, fun hd => ?_,
      fun hd e => ?_⟩
    · have hh : rd (1 / 2) = 1 / 2 := by
        have := rd_quarter h 1 (-1) (by norm_num)
        norm_num at this ⊢
        exact this
      rw [← hh]
      exact h.mono (by rw [bin hd, one_mul]; exact m0)
    · rcases hn with hn | hn
      · exact absurd hc.1 hn
      · rw [hc.2] at hn; cases hn
    · exact fl hf (by nlinarith [(bout hd).1, (bout hd).2])
    · exact (fl hf (by nlinarith [(bout hd).1, (bout hd).2])).trans (hdo e)
  · refine ⟨b, rfl, b01.1, b01.2, fun hd => ?_, fun hd _ => bin hd, fun hd => (bout hd).2, fun hd e =>
      (bout hd).2.trans (hdo e)⟩
    rw [bin hd]; norm_num

/-- C118. The reward of a balloon that flies on does not grow with the distance, provided the platform's `exp` is increasing. -/
theorem C118_reward_monotone (rd : ℝ → ℝ) (h : Rounding rd) (M : MathLib) (hM : M.Sane) (hexp : Monotone M.exp)
    (q : RewardParams) (hf : IsFloat q.dropoff) (h0 : 0 ≤ q.dropoff) (h1 : q.dropoff ≤ 1) (hl : 0 < q.halflife)
    (x y x' y' : ℝ) (hd : M.norm x y ≤ M.norm x' y') (cmd : Command) (excess : Bool) (watts r r' : ℝ)
    (hr : rewardF rd M q x y cmd excess watts = .ok r) (hr' : rewardF rd M q x' y' cmd excess watts = .ok r') : r' ≤ r := by
  obtain ⟨b, eb, bin, bout⟩ := baseRewardF_range h hM q hf h0 hl (M.norm x y)
  obtain ⟨b', eb', bin', bout'⟩ := baseRewardF_range h hM q hf h0 hl (M.norm x' y')
  have hb : b' ≤ b := by
    rcases le_or_gt (M.norm x y) (kmF rd q.radiusKm) with hi | hi
    · rw [bin hi]
      rcases le_or_gt (M.norm x' y') (kmF rd q.radiusKm) with hi' | hi'
      · rw [bin' hi']
      · exact (bout' hi').2.trans h1
    · have hi' := hi.trans_le hd
      unfold baseRewardF at eb eb'
      rw [if_neg (not_le.2 hi), if_neg hl.ne'] at eb
      rw [if_neg (not_le.2 hi'), if_neg hl.ne'] at eb'
      simp only [Except.ok.injEq] at eb eb'
      rw [← eb, ← eb']
      apply h.mono
      apply mul_le_mul_of_nonneg_left _ h0
      apply hexp
      apply h.mono
      have hrate : rd (rd (-0.69314718056) / q.halflife) ≤ 0 :=
        rd_nonpos h (div_nonpos_of_nonpos_of_nonneg (rd_nonpos h (by norm_num)) hl.le)
      apply mul_le_mul_of_nonpos_left _ hrate
      apply h.mono
      apply (div_le_div_iff_of_pos_right (by norm_num)).2
      exact h.mono (by linarith)
  unfold rewardF at hr hr'
  rw [eb] at hr
  rw [eb'] at hr'
  simp only [okBind] at hr hr'
  split_ifs at hr hr' with hc
  · cases em : powerMultiplierF rd watts with
    | error e => rw [em] at hr; cases hr
    | ok m =>
      rw [em] at hr hr'
      cases hr
      cases hr'
      exact h.mono (mul_le_mul_of_nonneg_right hb (by linarith [(multiplierF_range h watts m em).1]))
  · cases hr
    cases hr'
    exact hb

/-- C118. Whenever the sixteen ambient features are computed, each of them lies, after being stored in single precision, inside
the box the environment declares. -/
theorem C118_ambient (rd : ℝ → ℝ) (h : Rounding rd) (M : MathLib) (hM : M.Sane) (st : ℝ → ℝ) (hs : Narrowing st)
    (a : AmbientInput) (hp : 0 < a.pressure) (hpf : IsFloat a.pressure) (hb : 0 ≤ a.charge) (hc : a.charge ≤ a.cap)
    (f : List ℝ) (hf : ambientF rd M a = .ok f) :
    f.length = 16 ∧ ∀ i v, f[i]? = some v → obsLow i ≤ st v ∧ ∀ u, obsHigh i = some u → st v ≤ u := by
  obtain ⟨y0, e0, f0⟩ := (C118_transforms rd h).1 a.pressure 5000 14000 (by norm_num)
  obtain ⟨y2, e2, f2⟩ := (C118_transforms rd h).1 a.solarAngle (-90) 90 (by norm_num)
  obtain ⟨y7, e7, f7⟩ := (C118_transforms rd h).2.2 (rd (M.norm a.x a.y / 1000)) 250 (h.range _)
    (rd_nonneg h (div_nonneg (hM.norm_range _ _) (by norm_num))) (by norm_num)
  obtain ⟨ratio, er, fr, _⟩ := C118_ratio rd h a.pressure a.sp hpf hp
  unfold ambientF at hf
  rw [e0, e2, e7, er] at hf
  simp only [okBind] at hf
  cases es : socF rd a.charge a.cap with
  | error e => rw [es] at hf; cases hf
  | ok soc =>
    have fs : 0 ≤ soc ∧ soc ≤ 1 := by
      by_cases hz : a.cap = 0
      · rw [socF, if_pos hz] at es; cases es
      · obtain ⟨y, e, k0, k1, _⟩ := (C118_battery rd h 0 0 0 0 a.cap (lt_of_le_of_ne (hb.trans hc) (Ne.symm hz))).2.2.1 _ hb hc
        rw [e] at es; cases es; exact ⟨k0, k1⟩
    rw [es] at hf
    simp only [okBind] at hf
    cases et : a.sunrise with
    | error e => rw [et] at hf; cases hf
    | ok t =>
      rw [et] at hf
      simp only [okBind] at hf
      split_ifs at hf with hcond
      swap
      · cases hf
      simp only [pure, Except.pure] at hf
      cases ep : a.power ratio soc with
      | error e => rw [ep] at hf; cases hf
      | ok pw =>
        obtain ⟨y14, e14, f14⟩ := (C118_transforms rd h).1 pw 100 300 (by norm_num)
        rw [ep] at hf
        simp only [okBind] at hf
        rw [e14] at hf
        simp only [okBind, Except.ok.injEq] at hf
        subst hf
        refine ⟨rfl, fun i v hv => ?_⟩
        have key : ∀ w, 0 ≤ w → w ≤ 1 → 0 ≤ st w ∧ st w ≤ 1 := fun w w0 w1 =>
          ⟨hs.zero ▸ hs.mono w0, hs.one ▸ hs.mono w1⟩
        have trig : ∀ w, -1 ≤ w → w ≤ 1 → -1 ≤ st w ∧ st w ≤ 1 := fun w w0 w1 =>
          ⟨hs.neg_one ▸ hs.mono w0, hs.one ▸ hs.mono w1⟩
        have ff : ∀ b, 0 ≤ st (floatOf b) ∧ st (floatOf b) ≤ 1 := by
          intro b; apply key <;> unfold floatOf <;> split_ifs <;> norm_num
        have hi16 : i < 16 := by
          by_contra hc'
          rw [List.getElem?_eq_none (by simp; omega)] at hv
          cases hv
        interval_cases i <;> simp only [List.getElem?_cons_zero, List.getElem?_cons_succ, Option.some.injEq] at hv <;>
          subst hv <;> simp [obsLow, obsHigh] <;> first
            | exact key _ f0.1 f0.2.1 | exact key _ fs.1 fs.2 | exact key _ f2.1 f2.2.1
            | exact trig _ (hM.sin_range _).1 (hM.sin_range _).2 | exact trig _ (hM.cos_range _).1 (hM.cos_range _).2
            | exact key _ f7.1 f7.2.1 | exact ff _ | exact key _ f14.1 f14.2.1 | exact hs.one ▸ hs.mono fr

/-- C118. The bearing and magnitude features of every level are computed and stay in the declared [0, 1]. -/
theorem C118_wind (rd : ℝ → ℝ) (h : Rounding rd) (M : MathLib) (hM : M.Sane) (st : ℝ → ℝ) (hs : Narrowing st)
    (dist cosine u v : ℝ) :
    ∃ a m, windPairF rd M dist cosine u v = .ok (a, m) ∧ 0 ≤ st a ∧ st a ≤ 1 ∧ 0 ≤ st m ∧ st m ≤ 1 := by
  have key : ∀ w, 0 ≤ w → w ≤ 1 → 0 ≤ st w ∧ st w ≤ 1 := fun w w0 w1 =>
    ⟨hs.zero ▸ hs.mono w0, hs.one ▸ hs.mono w1⟩
  obtain ⟨m, em, m0, m1, _⟩ := (C118_transforms rd h).2.2 (M.norm u v) 30 (hM.norm_float _ _) (hM.norm_range _ _) (by norm_num)
  have ha : 0 ≤ angleErrorF rd M dist (M.norm u v) cosine ∧ angleErrorF rd M dist (M.norm u v) cosine ≤ M.pi := by
    unfold angleErrorF
    split_ifs
    · exact ⟨le_refl _, hM.pi_pos.le⟩
    · exact ⟨hM.pi_pos.le, le_refl _⟩
    · exact hM.acos_range _ (le_min (le_max_right _ _) (by norm_num)) (min_le_right _ _)
  generalize eθ : angleErrorF rd M dist (M.norm u v) cosine = θ at ha
  have hpi : rd (M.pi - 0) = M.pi := by rw [sub_zero]; exact h.exact _ hM.pi_float
  have hθ : rd (θ - 0) ≤ M.pi := by
    rw [sub_zero, ← h.exact _ hM.pi_float]
    exact h.mono ha.2
  have hθ0 : 0 ≤ rd (θ - 0) := rd_nonneg h (by linarith)
  have q0 : 0 ≤ rd (rd (θ - 0) / rd (M.pi - 0)) := rd_nonneg h (by rw [hpi]; exact div_nonneg hθ0 hM.pi_pos.le)
  have q1 : rd (rd (θ - 0) / rd (M.pi - 0)) ≤ 1 := rd_le_one h (by rw [hpi]; exact (div_le_one hM.pi_pos).2 hθ)
  refine ⟨_, m, ?_, (key _ q0 q1).1, (key _ q0 q1).2, key m m0 m1⟩
  unfold windPairF
  rw [em, eθ]
  unfold rescaleF
  rw [if_neg (not_le.2 hM.pi_pos)]
  rfl

/-- C118 (sharpness). Strictness is what rounding costs: over the reals a squashed value is below 1, in floats a large enough
one is exactly 1. -/
theorem C118_squash_reaches_one : squashF roundToZero (2 ^ 60) 250 = .ok 1 ∧ squash (2 ^ 60) 250 ≠ .ok 1 := by
  have hl : Int.log 2 ((2 : ℝ) ^ 60 + 250) = 60 := by
    have e : ((2 : ℝ) ^ 60 + 250) = ((2 ^ 60 + 250 : ℕ) : ℝ) := by norm_num
    rw [e, Int.log_natCast]
    have e2 : Nat.log 2 (2 ^ 60 + 250) = 60 := (Nat.log_eq_iff (by norm_num)).2 (by norm_num)
    rw [e2]
    rfl
  have hr : roundToZero ((2 : ℝ) ^ 60 + 250) = 2 ^ 60 := by
    unfold roundToZero
    rw [if_pos (by norm_num), hl]
    have : ⌊((2 : ℝ) ^ 60 + 250) / 2 ^ ((60 : ℤ) - 52)⌋ = 4503599627370496 := by
      rw [Int.floor_eq_iff]
      norm_num
    rw [this]
    norm_num
  constructor
  · unfold squashF
    rw [if_neg (by norm_num), if_neg (by norm_num), hr, div_self (by norm_num), rd_one roundToZero_rounding]
  · unfold squash
    rw [if_neg (by norm_num), if_neg (by norm_num)]
    intro e
    injection e with e
    norm_num at e

/-- The library that rounds the exact values once is as assumed, in every rounding mode. -/
noncomputable def roundedLib (rd : ℝ → ℝ) : MathLib where
  exp x := rd (Real.exp x)
  sin x := rd (Real.sin x)
  cos x := rd (Real.cos x)
  acos x := rd (Real.arccos x)
  atan2 x y := rd (atan2 x y)
  norm x y := rd (Real.sqrt (x ^ 2 + y ^ 2))
  pi := rd Real.pi

theorem roundedLib_sane {rd : ℝ → ℝ} (h : Rounding rd) : (roundedLib rd).Sane ∧ Monotone (roundedLib rd).exp := by
  have hn : rd (-1) = -1 := by
    have := h.exact _ (isFloat_int (-1) (by norm_num))
    simpa using this
  refine ⟨⟨fun x hx => ⟨rd_nonneg h (Real.exp_pos x).le, rd_le_one h (Real.exp_le_one_iff.2 hx)⟩, fun x => ⟨?_, ?_⟩,
    fun x => ⟨?_, ?_⟩, fun x _ _ => ⟨rd_nonneg h (Real.arccos_nonneg x), h.mono (Real.arccos_le_pi x)⟩,
    fun x y => rd_nonneg h (Real.sqrt_nonneg _), fun x y => h.range _, rd_pos h Real.pi_pos, h.range _⟩,
    fun x y hxy => h.mono (Real.exp_le_exp.2 hxy)⟩
  · exact hn ▸ h.mono (Real.neg_one_le_sin x)
  · exact rd_le_one h (Real.sin_le_one x)
  · exact hn ▸ h.mono (Real.neg_one_le_cos x)
  · exact rd_le_one h (Real.cos_le_one x)

/-- A balloon 30 km from the station with the fans running at full power: the assumptions hold and the reward is computed. -/
example : ∃ r, rewardF roundToZero (roundedLib roundToZero) ⟨50, 1 / 2, 100⟩ 18000 24000 .down false 300 = .ok r ∧
    1 / 2 ≤ r ∧ r ≤ 1 := by
  have h := roundToZero_rounding
  obtain ⟨r, e, _, r1, r2, _⟩ := C118_reward roundToZero h _ (roundedLib_sane h).1 ⟨50, 1 / 2, 100⟩
    ⟨1, -1, by norm_num, by norm_num⟩ (by norm_num) (by norm_num) (by norm_num) 18000 24000 .down false 300
  refine ⟨r, e, r2 ?_, r1⟩
  apply h.mono
  rw [show (18000 : ℝ) ^ 2 + 24000 ^ 2 = 30000 ^ 2 by norm_num, Real.sqrt_sq (by norm_num)]
  norm_num

/-- Features of a drifting balloon are computed and inside the box. -/
example : ∃ f, ambientF roundToZero (roundedLib roundToZero)
    ⟨10000, 500, 1500, 3000, 18000, 24000, .up, false, true, 30, .ok 1, fun _ _ => .ok 200⟩ = .ok f ∧ f.length = 16 ∧
    ∀ i v, f[i]? = some v → obsLow i ≤ v := by
  have h := roundToZero_rounding
  have hM := (roundedLib_sane h).1
  obtain ⟨f, hf⟩ : ∃ f, ambientF roundToZero (roundedLib roundToZero)
      ⟨10000, 500, 1500, 3000, 18000, 24000, .up, false, true, 30, .ok 1, fun _ _ => .ok 200⟩ = .ok f := by
    obtain ⟨y0, e0, _⟩ := (C118_transforms roundToZero h).1 10000 5000 14000 (by norm_num)
    obtain ⟨y2, e2, _⟩ := (C118_transforms roundToZero h).1 30 (-90) 90 (by norm_num)
    obtain ⟨y14, e14, _⟩ := (C118_transforms roundToZero h).1 200 100 300 (by norm_num)
    obtain ⟨y7, e7, _⟩ := (C118_transforms roundToZero h).2.2
      (roundToZero ((roundedLib roundToZero).norm 18000 24000 / 1000)) 250 (h.range _)
      (rd_nonneg h (div_nonneg (hM.norm_range _ _) (by norm_num))) (by norm_num)
    have hpi : (1 : ℝ) ≤ roundToZero (roundToZero (2 * (roundedLib roundToZero).pi) + roundToZero 1e-6) := by
      have p0 : (1 : ℝ) ≤ (roundedLib roundToZero).pi := rd_one h ▸ h.mono (by linarith [Real.pi_gt_three])
      have p1 : (1 : ℝ) ≤ roundToZero (2 * (roundedLib roundToZero).pi) := rd_one h ▸ h.mono (by linarith)
      have p2 : 0 ≤ roundToZero 1e-6 := rd_nonneg h (by norm_num)
      exact rd_one h ▸ h.mono (by linarith)
    unfold ambientF
    simp only [e0, e2, e7, e14, socF, pressureRatioF, okBind]
    rw [if_neg (by norm_num), if_neg (by norm_num)]
    simp only [okBind]
    rw [if_neg (by simp only [not_not]; exact ⟨by norm_num, hpi⟩)]
    exact ⟨_, rfl⟩
  obtain ⟨h1, h2⟩ := C118_ambient roundToZero h _ hM id ⟨monotone_id, rfl, rfl, rfl⟩ _ (by norm_num)
    ⟨10000, 0, by norm_num, by norm_num⟩ (by norm_num) (by norm_num) f hf
  exact ⟨f, hf, h1, fun i v hv => (h2 i v hv).1⟩

end BLE
