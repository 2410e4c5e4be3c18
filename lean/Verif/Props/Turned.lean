import Verif.Props.Features
import Verif.Props.Observable
import Verif.Props.WindBelief

/-!
# C154: the direction in which the station lies enters an observation only through the heading
-/

namespace BLE

open Matrix

/-- A rotation or reflection of the plane about the station. -/
structure Spec.Turn where
  a : ℝ
  b : ℝ
  c : ℝ
  d : ℝ
  col1 : a ^ 2 + c ^ 2 = 1
  col2 : b ^ 2 + d ^ 2 = 1
  ortho : a * b + c * d = 0

/-- Where it takes a vector. -/
def Spec.Turn.app (O : Spec.Turn) (v : ℝ × ℝ) : ℝ × ℝ := (O.a * v.1 + O.b * v.2, O.c * v.1 + O.d * v.2)

/-- The same balloon elsewhere: everything but the position relative to the station and the station is the same, the position is turned,
and the station has been moved so that the balloon is at the same place on earth. -/
structure Spec.TurnedBalloon (O : Spec.Turn) (s s' : BState) : Prop where
  rest : s' = { s with x := (O.app (s.x, s.y)).1, y := (O.app (s.x, s.y)).2, center := s'.center }
  place : s'.latlng = s.latlng

/-- A forecast that at every turned place forecasts the turned winds. -/
structure Spec.TurnedForecast (O : Spec.Turn) (f f' : Forecaster) : Prop where
  single : ∀ x y p t, f'.single (O.app (x, y)).1 (O.app (x, y)).2 p t = (f.single x y p t).map O.app
  column : ∀ x y ps t, f'.column (O.app (x, y)).1 (O.app (x, y)).2 ps t = (f.column x y ps t).map (List.map O.app)

/-- The feature constructor after a number of observations. -/
noncomputable def Spec.afterAll (F : FeatState) (obs : List (BState × (ℝ × ℝ))) : FeatState :=
  obs.foldl (fun F o => (F.observe o.1 o.2).1) F

/-! ## The plane -/

theorem turn_rows (O : Spec.Turn) : O.a ^ 2 + O.b ^ 2 = 1 ∧ O.c ^ 2 + O.d ^ 2 = 1 ∧ O.a * O.c + O.b * O.d = 0 := by
  obtain ⟨a, b, c, d, h1, h2, h3⟩ := O
  simp only
  have hdet : (a * d - b * c) ^ 2 = 1 := by nlinarith
  have e1 : a = (a * d - b * c) * d := by linear_combination (-a) * h2 + b * h3
  have e2 : b = -((a * d - b * c) * c) := by linear_combination (-b) * h1 + a * h3
  have e3 : c = -((a * d - b * c) * b) := by linear_combination (-c) * h2 + d * h3
  have e4 : d = (a * d - b * c) * a := by linear_combination (-d) * h1 + c * h3
  generalize a * d - b * c = D at *
  have hd2 : a ^ 2 = d ^ 2 := by
    have : a ^ 2 = D ^ 2 * d ^ 2 := by rw [← mul_pow, ← e1]
    rw [this, hdet, one_mul]
  have hb2 : c ^ 2 = b ^ 2 := by
    have : c ^ 2 = D ^ 2 * b ^ 2 := by rw [← mul_pow]; rw [← neg_sq (D * b), ← e3]
    rw [this, hdet, one_mul]
  refine ⟨by linarith, by linarith, ?_⟩
  calc a * c + b * d = a * (-(D * b)) + b * (D * a) := by rw [← e3, ← e4]
    _ = 0 := by ring

/-- Turning back. -/
def Spec.Turn.back (O : Spec.Turn) : Spec.Turn where
  a := O.a
  b := O.c
  c := O.b
  d := O.d
  col1 := (turn_rows O).1
  col2 := (turn_rows O).2.1
  ortho := (turn_rows O).2.2

theorem back_app (O : Spec.Turn) (v : ℝ × ℝ) : O.back.app (O.app v) = v ∧ O.app (O.back.app v) = v := by
  obtain ⟨x, y⟩ := v
  obtain ⟨r1, r2, r3⟩ := turn_rows O
  simp only [Spec.Turn.app, Spec.Turn.back, Prod.mk.injEq]
  refine ⟨⟨?_, ?_⟩, ?_, ?_⟩
  · linear_combination x * O.col1 + y * O.ortho
  · linear_combination y * O.col2 + x * O.ortho
  · linear_combination x * r1 + y * r3
  · linear_combination y * r2 + x * r3

theorem turn_norm (O : Spec.Turn) (v : ℝ × ℝ) : (O.app v).1 ^ 2 + (O.app v).2 ^ 2 = v.1 ^ 2 + v.2 ^ 2 := by
  simp only [Spec.Turn.app]
  linear_combination v.1 ^ 2 * O.col1 + v.2 ^ 2 * O.col2 + 2 * v.1 * v.2 * O.ortho

theorem turn_inner (O : Spec.Turn) (v w : ℝ × ℝ) :
    (O.app v).1 * (O.app w).1 + (O.app v).2 * (O.app w).2 = v.1 * w.1 + v.2 * w.2 := by
  simp only [Spec.Turn.app]
  linear_combination v.1 * w.1 * O.col1 + v.2 * w.2 * O.col2 + (v.1 * w.2 + v.2 * w.1) * O.ortho

theorem turn_distance (O : Spec.Turn) (x y : ℝ) : relativeDistance (O.app (x, y)).1 (O.app (x, y)).2 = relativeDistance x y := by
  unfold relativeDistance; rw [turn_norm]

theorem turn_magnitude (O : Spec.Turn) (w : ℝ × ℝ) : windMagnitude (O.app w) = windMagnitude w := by
  unfold windMagnitude; rw [turn_norm]

theorem turn_angle (O : Spec.Turn) (x y : ℝ) (w : ℝ × ℝ) :
    angleError (O.app (x, y)).1 (O.app (x, y)).2 (O.app w) = angleError x y w := by
  unfold angleError
  simp only [turn_distance, turn_magnitude]
  split_ifs
  · rfl
  · rfl
  · have := turn_inner O w (x, y)
    congr 2
    simp only [div_mul_div_comm]
    rw [← add_div, ← add_div]
    congr 1
    simp only at this
    linarith

/-! ## The regression -/

/-- A stored measurement, turned. -/
def turnDatum (O : Spec.Turn) (m : Row × (ℝ × ℝ)) : Row × (ℝ × ℝ) :=
  (⟨(O.app (m.1.x, m.1.y)).1, (O.app (m.1.x, m.1.y)).2, m.1.p, m.1.t⟩, O.app m.2)

theorem turn_matern (O : Spec.Turn) (r q : Row) :
    matern ⟨(O.app (r.x, r.y)).1, (O.app (r.x, r.y)).2, r.p, r.t⟩ ⟨(O.app (q.x, q.y)).1, (O.app (q.x, q.y)).2, q.p, q.t⟩ =
      matern r q := by
  unfold matern
  congr 4
  congr 1
  congr 1
  have := turn_norm O (r.x - q.x, r.y - q.y)
  simp only [Spec.Turn.app] at this ⊢
  rw [div_pow, div_pow, div_pow, div_pow, ← add_div, ← add_div]
  congr 1
  linarith

theorem inv_matern (data data' : List (Row × (ℝ × ℝ))) (σ : Fin data.length ≃ Fin data'.length) (l l' : Row)
    (h : ∀ i j, matern (data.get i).1 (data.get j).1 = matern (data'.get (σ i)).1 (data'.get (σ j)).1)
    (hl : ∀ i, matern (data.get i).1 l = matern (data'.get (σ i)).1 l') (y : Fin data'.length → ℝ) :
    gramVector data l ⬝ᵥ ((gramMatrix data)⁻¹ *ᵥ (y ∘ σ)) = gramVector data' l' ⬝ᵥ ((gramMatrix data')⁻¹ *ᵥ y) := by
  have h1 : gramMatrix data = (gramMatrix data').submatrix σ σ := by
    ext i j
    simp only [gramMatrix, Matrix.submatrix_apply, Matrix.of_apply, h i j, σ.injective.eq_iff]
  have h2 : gramVector data l = gramVector data' l' ∘ σ := by
    funext i
    simp only [gramVector, Function.comp_apply, hl i]
  rw [h1, h2, Matrix.inv_submatrix_equiv]
  unfold dotProduct mulVec dotProduct
  rw [← Equiv.sum_comp σ]
  refine Finset.sum_congr rfl fun i _ => ?_
  simp only [Function.comp_apply, Matrix.submatrix_apply]
  rw [Equiv.sum_comp σ fun j => (gramMatrix data')⁻¹ (σ i) j * y j]

theorem turn_posterior (O : Spec.Turn) (data : List (Row × (ℝ × ℝ))) (x y p t : ℝ) :
    (posteriorMean (data.map (turnDatum O)) (·.1) ⟨(O.app (x, y)).1, (O.app (x, y)).2, p, t⟩,
      posteriorMean (data.map (turnDatum O)) (·.2) ⟨(O.app (x, y)).1, (O.app (x, y)).2, p, t⟩) =
      O.app (posteriorMean data (·.1) ⟨x, y, p, t⟩, posteriorMean data (·.2) ⟨x, y, p, t⟩) ∧
    posteriorVar (data.map (turnDatum O)) ⟨(O.app (x, y)).1, (O.app (x, y)).2, p, t⟩ = posteriorVar data ⟨x, y, p, t⟩ := by
  have key := inv_matern data (data.map (turnDatum O)) (finCongr (by simp)) ⟨x, y, p, t⟩
    ⟨(O.app (x, y)).1, (O.app (x, y)).2, p, t⟩
    (fun i j => by simpa [turnDatum] using (turn_matern O (data.get i).1 (data.get j).1).symm)
    (fun i => by simpa [turnDatum] using (turn_matern O (data.get i).1 ⟨x, y, p, t⟩).symm)
  have lin : ∀ u v : ℝ, (gramVector data ⟨x, y, p, t⟩ ⬝ᵥ ((gramMatrix data)⁻¹ *ᵥ
      fun i => u * (data.get i).2.1 + v * (data.get i).2.2)) =
      u * posteriorMean data (·.1) ⟨x, y, p, t⟩ + v * posteriorMean data (·.2) ⟨x, y, p, t⟩ := by
    intro u v
    unfold posteriorMean
    rw [← smul_eq_mul, ← smul_eq_mul, ← dotProduct_smul, ← dotProduct_smul, ← mulVec_smul, ← mulVec_smul, ← dotProduct_add,
      ← mulVec_add]
    rfl
  refine ⟨?_, ?_⟩
  · refine Prod.ext ?_ ?_
    · show posteriorMean _ _ _ = O.a * _ + O.b * _
      rw [← lin]
      unfold posteriorMean
      rw [← key]
      congr 3
      funext i
      simp [turnDatum, Spec.Turn.app]
    · show posteriorMean _ _ _ = O.c * _ + O.d * _
      rw [← lin]
      unfold posteriorMean
      rw [← key]
      congr 3
      funext i
      simp [turnDatum, Spec.Turn.app]
  · unfold posteriorVar
    rw [← key, matern_self, matern_self]
    congr 4
    funext i
    simpa [gramVector, turnDatum] using turn_matern O (data.get i).1 ⟨x, y, p, t⟩

theorem turn_column (O : Spec.Turn) (ms fs : List (ℝ × ℝ)) :
    addColumn (ms.map O.app) (fs.map O.app) = (addColumn ms fs).map (List.map O.app) := by
  induction ms generalizing fs with
  | nil => cases fs <;> rfl
  | cons m ms ih =>
    cases fs with
    | nil => rfl
    | cons f fs =>
      simp only [List.map_cons, addColumn, ih fs]
      cases addColumn ms fs with
      | error e => rfl
      | ok r =>
        simp only [Except.map, bind, Except.bind, pure, Except.pure, List.map_cons, Spec.Turn.app]
        congr 3
        · ring
        · ring

theorem turn_recent (O : Spec.Turn) (data : List (Row × (ℝ × ℝ))) (t : ℤ) :
    Spec.recent (data.map (turnDatum O)) t = (Spec.recent data t).map (turnDatum O) := by
  unfold Spec.recent
  rw [List.filter_map]
  rfl

theorem turn_query (O : Spec.Turn) (two : Bool) (g g' : WindGP) (hd : g'.data = g.data.map (turnDatum O))
    (hf : Spec.TurnedForecast O g.forecast g'.forecast) (x y : ℝ) (t : ℤ) (p : ℝ) (ps : List ℝ) :
    g'.queryBatch (gpr two) (Spec.batch (O.app (x, y)).1 (O.app (x, y)).2 t (p :: ps)) =
      (g.queryBatch (gpr two) (Spec.batch x y t (p :: ps))).map fun r => (r.1.map O.app, r.2) := by
  by_cases h0 : g.data = []
  · rw [queryBatch_empty _ _ h0, queryBatch_empty _ _ (by rw [hd, h0]; rfl), addForecast_batch, addForecast_batch, hf.column]
    cases g.forecast.column x y (p :: ps) t with
    | error e => rfl
    | ok fs =>
      have hz : ((Spec.batch (O.app (x, y)).1 (O.app (x, y)).2 t (p :: ps)).map fun _ => ((0, 0) : ℝ × ℝ)) =
          ((Spec.batch x y t (p :: ps)).map fun _ => ((0, 0) : ℝ × ℝ)).map O.app := by
        simp [Spec.batch, Spec.Turn.app, Function.comp_def]
      have hz' : ((Spec.batch (O.app (x, y)).1 (O.app (x, y)).2 t (p :: ps)).map fun _ => (0 : ℝ)) =
          (Spec.batch x y t (p :: ps)).map fun _ => (0 : ℝ) := by
        simp [Spec.batch, Function.comp_def]
      rw [hz, hz']
      simp only [Except.map]
      rw [turn_column]
      cases addColumn ((Spec.batch x y t (p :: ps)).map fun _ => (0, 0)) fs <;> rfl
  · have h0' : g'.data ≠ [] := by rw [hd]; simpa using h0
    rw [queryBatch_data _ _ h0, queryBatch_data _ _ h0', hd, turn_recent]
    by_cases hr : Spec.recent g.data t = []
    · rw [hr]
      simp [gpr, Except.map]
    · rw [gpr_ok two _ hr, gpr_ok two _ (by simpa using hr)]
      simp only
      rw [deviations_gpr, deviations_gpr, addForecast_batch, addForecast_batch, hf.column]
      cases g.forecast.column x y (p :: ps) t with
      | error e => rfl
      | ok fs =>
        have hm : ((Spec.batch (O.app (x, y)).1 (O.app (x, y)).2 t (p :: ps)).map fun l =>
            (posteriorMean ((Spec.recent g.data t).map (turnDatum O)) (·.1) l,
              posteriorMean ((Spec.recent g.data t).map (turnDatum O)) (·.2) l)) =
            ((Spec.batch x y t (p :: ps)).map fun l =>
              (posteriorMean (Spec.recent g.data t) (·.1) l, posteriorMean (Spec.recent g.data t) (·.2) l)).map O.app := by
          unfold Spec.batch
          rw [List.map_map, List.map_map, List.map_map]
          exact List.map_congr_left fun q _ => (turn_posterior O _ x y q _).1
        have hv : ((Spec.batch (O.app (x, y)).1 (O.app (x, y)).2 t (p :: ps)).map fun l =>
            posteriorVar ((Spec.recent g.data t).map (turnDatum O)) l / sigmaExpSq) =
            (Spec.batch x y t (p :: ps)).map fun l => posteriorVar (Spec.recent g.data t) l / sigmaExpSq := by
          unfold Spec.batch
          rw [List.map_map, List.map_map]
          refine List.map_congr_left fun q _ => ?_
          simp only [Function.comp_apply]
          rw [(turn_posterior O _ x y q _).2]
        rw [hm, hv]
        simp only [Except.map]
        rw [turn_column]
        cases addColumn ((Spec.batch x y t (p :: ps)).map fun l =>
          (posteriorMean (Spec.recent g.data t) (·.1) l, posteriorMean (Spec.recent g.data t) (·.2) l)) fs <;> rfl

/-! ## The constructor -/

/-- Two constructors whose stored data differ by a turn. -/
structure TurnedFeat (O : Spec.Turn) (F F' : FeatState) : Prop where
  data : F'.gp.data = F.gp.data.map (turnDatum O)
  forecast : Spec.TurnedForecast O F.gp.forecast F'.gp.forecast
  air : F'.α = F.α
  last : (F.last = none ∧ F'.last = none) ∨ ∃ s s', F.last = some s ∧ F'.last = some s' ∧ Spec.TurnedBalloon O s s'

theorem turn_observe (O : Spec.Turn) (F F' : FeatState) (h : TurnedFeat O F F') (s s' : BState)
    (hs : Spec.TurnedBalloon O s s') (w : ℝ × ℝ) : TurnedFeat O (F.observe s w).1 (F'.observe s' (O.app w)).1 := by
  have hx : s'.x = (O.app (s.x, s.y)).1 := by rw [hs.rest]
  have hy : s'.y = (O.app (s.x, s.y)).2 := by rw [hs.rest]
  have hp : s'.pressure = s.pressure := by rw [hs.rest]
  have ht : s'.timeElapsed = s.timeElapsed := by rw [hs.rest]
  unfold FeatState.observe WindGP.observe
  rw [hx, hy, hp, ht, h.forecast.single]
  cases F.gp.forecast.single s.x s.y s.pressure s.timeElapsed with
  | error e => exact ⟨h.data, h.forecast, h.air, Or.inr ⟨s, s', rfl, rfl, hs⟩⟩
  | ok f =>
    refine ⟨?_, h.forecast, h.air, Or.inr ⟨s, s', rfl, rfl, hs⟩⟩
    simp only [bind, Except.bind, Except.map, pure, Except.pure, h.data, List.map_append, List.map_cons, List.map_nil,
      turnDatum, Spec.Turn.app]
    congr 3
    refine Prod.ext ?_ ?_ <;> simp only <;> ring

theorem turn_all (O : Spec.Turn) (obs obs' : List (BState × (ℝ × ℝ)))
    (h : List.Forall₂ (fun o o' => Spec.TurnedBalloon O o.1 o'.1 ∧ o'.2 = O.app o.2) obs obs') (F F' : FeatState)
    (hF : TurnedFeat O F F') : TurnedFeat O (Spec.afterAll F obs) (Spec.afterAll F' obs') := by
  induction h generalizing F F' with
  | nil => exact hF
  | @cons o o' obs obs' h1 h2 ih =>
    refine ih _ _ ?_
    obtain ⟨s, w⟩ := o
    obtain ⟨s', w'⟩ := o'
    obtain ⟨h1, e⟩ := h1
    simp only at e h1
    subst e
    exact turn_observe O F F' hF s s' h1 w

theorem turn_last (F : FeatState) (obs : List (BState × (ℝ × ℝ))) (s : BState) (w : ℝ × ℝ) :
    (Spec.afterAll F (obs ++ [(s, w)])).last = some s := by
  unfold Spec.afterAll
  rw [List.foldl_append]
  simp only [List.foldl_cons, List.foldl_nil]
  unfold FeatState.observe
  split <;> rfl

theorem turned_ambient (O : Spec.Turn) (sun : Sun) {s s' : BState} (h : Spec.TurnedBalloon O s s') (A : AmbientParts sun s) :
    ∃ A' : AmbientParts sun s', A'.values = ambientValues s' A.f0 A.soc A.f2 A.st A.f7 A.f14 A.ex := by
  have hl := h.place
  have hr := h.rest
  refine ⟨{ f0 := A.f0, soc := A.soc, f2 := A.f2, st := A.st, f7 := A.f7, f14 := A.f14, ex := A.ex, pw := A.pw, h0 := ?_, hsoc := ?_,
            h2 := ?_, hst := ?_, hst0 := A.hst0, hst1 := A.hst1, h7 := ?_, hex := ?_, hpw := ?_, h14 := A.h14 }, rfl⟩
  · rw [hr]; exact A.h0
  · rw [hr]; exact A.hsoc
  · rw [hl, show s'.dateTime = s.dateTime by rw [hr]]; exact A.h2
  · have := A.hst
    unfold computeSunriseTime at this ⊢
    rw [hl, show s'.dateTime = s.dateTime by rw [hr]]; exact this
  · rw [show s'.x = (O.app (s.x, s.y)).1 by rw [hr], show s'.y = (O.app (s.x, s.y)).2 by rw [hr], turn_distance]; exact A.h7
  · have := A.hex
    unfold BState.excessEnergy at this ⊢
    rw [hl, show s'.dateTime = s.dateTime by rw [hr], show s'.pressure = s.pressure by rw [hr],
      show s'.dayLoad = s.dayLoad by rw [hr], show s'.soc = s.soc by rw [hr]; rfl]
    exact this
  · rw [show s'.pressureRatio = s.pressureRatio by rw [hr]; rfl]; exact A.hpw

theorem turned_range (O : Spec.Turn) (sun : Sun) (α : ℝ) {s s' : BState} (h : Spec.TurnedBalloon O s s') :
    pressureRange sun α s' = pressureRange sun α s := by
  have hl := h.place
  have hr := h.rest
  have h1 : floatSp sun α s' = floatSp sun α s := by
    funext p
    unfold floatSp
    rw [hl, hr]
  have h2 : emptyPoverT s' = emptyPoverT s := by rw [hr]; rfl
  have h3 : s'.maxSp = s.maxSp := by rw [hr]
  unfold pressureRange
  rw [h1, h2, h3]

theorem turned_features (O : Spec.Turn) (two : Bool) (sun : Sun) (F F' : FeatState) (h : TurnedFeat O F F') (v : List ℝ)
    (hv : F.features (gpr two) sun = .ok v) :
    ∃ v', F'.features (gpr two) sun = .ok v' ∧ v.length = 1099 ∧ v'.length = 1099 ∧ (∀ i, i ≠ 5 → i ≠ 6 → v'[i]? = v[i]?) ∧
      ∀ s, F.last = some s → ¬ (s.x = 0 ∧ s.y = 0) → (v'.getD 5 0, v'.getD 6 0) = O.app (v.getD 5 0, v.getD 6 0) := by
  obtain ⟨s, A, means, devs, r, level, a1, a2, a3, a4, l0, l1, hg, rfl⟩ := features_inv _ sun F v hv
  obtain ⟨s', b1, hs⟩ : ∃ s', F'.last = some s' ∧ Spec.TurnedBalloon O s s' := by
    rcases h.last with ⟨e, _⟩ | ⟨t, t', e, e', ht⟩
    · rw [a1] at e; cases e
    · rw [a1] at e; cases e
      exact ⟨t', e', ht⟩
  have hx : s'.x = (O.app (s.x, s.y)).1 := by rw [hs.rest]
  have hy : s'.y = (O.app (s.x, s.y)).2 := by rw [hs.rest]
  obtain ⟨A', hA'⟩ := turned_ambient O sun hs A
  have hq : F'.gp.queryBatch (gpr two) (columnQuery s') = .ok (means.map O.app, devs) := by
    rw [columnQuery_eq] at a2 ⊢
    rw [hx, hy, show s'.timeElapsed = s.timeElapsed by rw [hs.rest], List.range_succ_eq_map, List.map_cons,
      turn_query O two _ _ h.data h.forecast]
    rw [List.range_succ_eq_map, List.map_cons] at a2
    rw [a2]
    rfl
  have hg' : LevelsGood r (means.map O.app) devs := by
    intro l hl hn
    have := hg l hl hn
    rwa [List.length_map]
  have hfill := fill_of (gpr two) sun F' s' b1 A' (means.map O.app) devs hq r (by rw [h.air, turned_range O sun _ hs]; exact a3)
    level (by rw [show s'.pressure = s.pressure by rw [hs.rest]]; exact a4) hg'
  have hlen' := contents_length A' (means.map O.app) devs r level l0 l1
  refine ⟨contents A' (means.map O.app) devs r level, ?_, contents_length A means devs r level l0 l1, hlen', ?_, ?_⟩
  · unfold FeatState.features
    rw [hfill]
    simp only [Except.map]
    have := toList_enumW (contents A' (means.map O.app) devs r level)
    rw [hlen'] at this
    rw [this]
  · have hrest : ∃ rest, contents A means devs r level = A.values ++ rest ∧
        contents A' (means.map O.app) devs r level = A'.values ++ rest := by
      refine ⟨unreachables (180 - level).toNat ++
        (List.range 181).flatMap (levelEntries r devs (means.map fun w => angleError s.x s.y w / Real.pi)
        (means.map fun w => windMagnitude w / (windMagnitude w + 30))) ++ unreachables level.toNat, ?_, ?_⟩
      · unfold contents; simp only [List.append_assoc]
      · unfold contents
        simp only [List.map_map, Function.comp_def, hx, hy, turn_angle, turn_magnitude, List.append_assoc]
    obtain ⟨rest, e, e'⟩ := hrest
    intro i h5 h6
    have n : A.values.length = 16 := rfl
    have n' : A'.values.length = 16 := rfl
    rw [e, e']
    by_cases hi : i < 16
    · rw [List.getElem?_append_left (by omega), List.getElem?_append_left (by omega), hA']
      unfold AmbientParts.values ambientValues
      rw [show s'.lastCommand = s.lastCommand by rw [hs.rest], show s'.navPaused = s.navPaused by rw [hs.rest]; rfl,
        show s'.pressureRatio = s.pressureRatio by rw [hs.rest]; rfl]
      interval_cases i <;> first | rfl | omega
    · rw [List.getElem?_append_right (by omega), List.getElem?_append_right (by omega), n, n']
  · intro s0 hs0 hne
    rw [a1] at hs0; cases hs0
    have g : ∀ {s : BState} (A : AmbientParts sun s) ms, ((contents A ms devs r level).getD 5 0, (contents A ms devs r level).getD 6 0) =
        (Real.sin (atan2 (-(s.x / 1000)) (-(s.y / 1000))), Real.cos (atan2 (-(s.x / 1000)) (-(s.y / 1000)))) := by
      intro s A ms; rfl
    have hv : ∀ x y : ℝ, ¬ (x = 0 ∧ y = 0) → (Real.sin (atan2 (-(x / 1000)) (-(y / 1000))), Real.cos (atan2 (-(x / 1000)) (-(y / 1000)))) =
        (-(x / relativeDistance x y), -(y / relativeDistance x y)) := by
      intro x y hne
      unfold atan2
      have hz : (⟨-(y / 1000), -(x / 1000)⟩ : ℂ) ≠ 0 := by
        intro hz
        rw [Complex.ext_iff] at hz
        simp only [Complex.zero_re, Complex.zero_im] at hz
        exact hne ⟨by linarith [hz.2], by linarith [hz.1]⟩
      have hnorm : ‖(⟨-(y / 1000), -(x / 1000)⟩ : ℂ)‖ = relativeDistance x y / 1000 := by
        unfold relativeDistance
        rw [Complex.norm_def, Complex.normSq_mk]
        rw [show -(y / 1000) * -(y / 1000) + -(x / 1000) * -(x / 1000) = (x ^ 2 + y ^ 2) / 1000 ^ 2 by ring,
          Real.sqrt_div' _ (by norm_num), Real.sqrt_sq (by norm_num)]
      have hpos : 0 < relativeDistance x y := by
        have := norm_pos_iff.2 hz
        rw [hnorm] at this
        linarith
      rw [Complex.sin_arg, Complex.cos_arg hz, hnorm]
      refine Prod.ext ?_ ?_ <;> simp only <;> field_simp
    have hne' : ¬ (s'.x = 0 ∧ s'.y = 0) := by
      rintro ⟨e1, e2⟩
      have := turn_norm O (s.x, s.y)
      rw [← hx, ← hy, e1, e2] at this
      simp only at this
      exact hne ⟨by nlinarith [sq_nonneg s.x, sq_nonneg s.y], by nlinarith [sq_nonneg s.x, sq_nonneg s.y]⟩
    rw [g, g, hv _ _ hne, hv _ _ hne', hx, hy, turn_distance]
    simp only [Spec.Turn.app]
    refine Prod.ext ?_ ?_ <;> simp only <;> ring

/-! ## Turning back -/

theorem turnedForecast_back (O : Spec.Turn) (f f' : Forecaster) (h : Spec.TurnedForecast O f f') : Spec.TurnedForecast O.back f' f := by
  constructor
  · intro x y p t
    have := h.single (O.back.app (x, y)).1 (O.back.app (x, y)).2 p t
    rw [show O.app ((O.back.app (x, y)).1, (O.back.app (x, y)).2) = (x, y) from (back_app O (x, y)).2] at this
    simp only at this
    rw [this]
    cases f.single (O.back.app (x, y)).1 (O.back.app (x, y)).2 p t with
    | error e => rfl
    | ok w => simp only [Except.map, (back_app O w).1]
  · intro x y ps t
    have := h.column (O.back.app (x, y)).1 (O.back.app (x, y)).2 ps t
    rw [show O.app ((O.back.app (x, y)).1, (O.back.app (x, y)).2) = (x, y) from (back_app O (x, y)).2] at this
    simp only at this
    rw [this]
    cases f.column (O.back.app (x, y)).1 (O.back.app (x, y)).2 ps t with
    | error e => rfl
    | ok w =>
      simp only [Except.map, List.map_map, Function.comp_def, (back_app O _).1, List.map_id']

theorem turnedBalloon_back (O : Spec.Turn) (s s' : BState) (h : Spec.TurnedBalloon O s s') : Spec.TurnedBalloon O.back s' s := by
  refine ⟨?_, h.place.symm⟩
  have hx : s'.x = (O.app (s.x, s.y)).1 := by rw [h.rest]
  have hy : s'.y = (O.app (s.x, s.y)).2 := by rw [h.rest]
  have e : O.back.app (s'.x, s'.y) = (s.x, s.y) := by rw [hx, hy]; exact (back_app O (s.x, s.y)).1
  rw [e]
  conv_rhs => rw [h.rest]

theorem turned_new (O : Spec.Turn) (f f' : Forecaster) (h : Spec.TurnedForecast O f f') (α : ℝ) :
    TurnedFeat O (FeatState.new f α) (FeatState.new f' α) := ⟨rfl, h, rfl, Or.inl ⟨rfl, rfl⟩⟩

/-! ## C154 -/

/-- C154. Turn a whole episode about the station: the forecasts, the places and the winds measured there, the balloon being over the same
place on earth each time. Then the observation after it is the same in all of its 1099 entries except the two of the heading, and these are
turned likewise unless the balloon is exactly at the station. -/
theorem C154_observation (O : Spec.Turn) (f f' : Forecaster) (hf : Spec.TurnedForecast O f f') (α : ℝ)
    (obs obs' : List (BState × (ℝ × ℝ)))
    (ho : List.Forall₂ (fun o o' => Spec.TurnedBalloon O o.1 o'.1 ∧ o'.2 = O.app o.2) obs obs') (two : Bool) (sun : Sun)
    (v : List ℝ) (hv : (Spec.afterAll (FeatState.new f α) obs).features (gpr two) sun = .ok v) :
    ∃ v', (Spec.afterAll (FeatState.new f' α) obs').features (gpr two) sun = .ok v' ∧ v'.length = v.length ∧
      (∀ i, i ≠ 5 → i ≠ 6 → v'[i]? = v[i]?) ∧
      ∀ before s w, obs = before ++ [(s, w)] → ¬ (s.x = 0 ∧ s.y = 0) →
        (v'.getD 5 0, v'.getD 6 0) = O.app (v.getD 5 0, v.getD 6 0) := by
  obtain ⟨v', e, n, n', a, b⟩ := turned_features O two sun _ _ (turn_all O obs obs' ho _ _ (turned_new O f f' hf α)) v hv
  refine ⟨v', e, by rw [n, n'], a, ?_⟩
  rintro before s w rfl hne
  exact b s (turn_last _ before s w) hne

/-- C154. Whether there is an observation at all does not depend on the direction either. -/
theorem C154_defined (O : Spec.Turn) (f f' : Forecaster) (hf : Spec.TurnedForecast O f f') (α : ℝ)
    (obs obs' : List (BState × (ℝ × ℝ)))
    (ho : List.Forall₂ (fun o o' => Spec.TurnedBalloon O o.1 o'.1 ∧ o'.2 = O.app o.2) obs obs') (two : Bool) (sun : Sun) :
    (∃ v, (Spec.afterAll (FeatState.new f α) obs).features (gpr two) sun = .ok v) ↔
      ∃ v', (Spec.afterAll (FeatState.new f' α) obs').features (gpr two) sun = .ok v' := by
  constructor
  · rintro ⟨v, hv⟩
    obtain ⟨v', e, -⟩ := C154_observation O f f' hf α obs obs' ho two sun v hv
    exact ⟨v', e⟩
  · rintro ⟨v', hv'⟩
    have ho' : List.Forall₂ (fun o o' => Spec.TurnedBalloon O.back o.1 o'.1 ∧ o'.2 = O.back.app o.2) obs' obs := by
      refine (List.Forall₂.flip ho).imp ?_
      rintro o' o ⟨h1, h2⟩
      exact ⟨turnedBalloon_back O _ _ h1, by rw [h2, (back_app O _).1]⟩
    obtain ⟨v, e, -⟩ := C154_observation O.back f' f (turnedForecast_back O f f' hf) α obs' obs ho' two sun v' hv'
    exact ⟨v, e⟩

theorem seek_winds (N N' : Named) (h1 : N'.winds = N.winds) (h2 : N'.numLevels = N.numLevels) (h3 : N'.distance = N.distance) :
    findBest N' = findBest N ∧ N'.center = N.center := by
  have hw : N'.windAt = N.windAt := by
    funext l; unfold Named.windAt; rw [h1, h2]
  have hc : N'.center = N.center := by unfold Named.center; rw [h2]
  have hs : altitudeScore N' = altitudeScore N := by
    funext l; unfold altitudeScore windScore; rw [hw, hc, h3]
  have hv : Seek.visit N' = Seek.visit N := by
    funext k l; unfold Seek.visit Named.levelValid; rw [hw, hs]
  exact ⟨by unfold findBest; rw [hv, h2], hc⟩

/-- C154. So StationSeeker steers the turned episode like the original one: at the end of both it picks the same action (or fails in the
same way). -/
theorem C154_seeker (O : Spec.Turn) (f f' : Forecaster) (hf : Spec.TurnedForecast O f f') (α : ℝ)
    (obs obs' : List (BState × (ℝ × ℝ)))
    (ho : List.Forall₂ (fun o o' => Spec.TurnedBalloon O o.1 o'.1 ∧ o'.2 = O.app o.2) obs obs') (two : Bool) (sun : Sun)
    (v v' : List ℝ) (hv : (Spec.afterAll (FeatState.new f α) obs).features (gpr two) sun = .ok v)
    (hv' : (Spec.afterAll (FeatState.new f' α) obs').features (gpr two) sun = .ok v') :
    stationSeek v' = stationSeek v := by
  obtain ⟨u, e, n, n', a, -⟩ := turned_features O two sun _ _ (turn_all O obs obs' ho _ _ (turned_new O f f' hf α)) v hv
  rw [hv'] at e
  cases e
  obtain ⟨N, e, n1, n2, -, -, -, -, -, -, -, n10, -⟩ := named_ok v n
  obtain ⟨N', e', m1, m2, -, -, -, -, -, -, -, m10, -⟩ := named_ok v' n'
  obtain ⟨k1, k2⟩ := seek_winds N N' (by
    rw [n1, m1]
    refine List.ext_getElem? fun i => ?_
    rw [List.getElem?_drop, List.getElem?_drop]
    exact a _ (by omega) (by omega)) (by rw [n2, m2]) (by
    rw [n10, m10, List.getD_eq_getElem?_getD, List.getD_eq_getElem?_getD, a 7 (by norm_num) (by norm_num)])
  unfold stationSeek
  rw [e, e']
  simp only [k1, k2]

/-! ## Turned episodes exist -/

/-- The forecast turned. -/
def Spec.turnForecast (O : Spec.Turn) (f : Forecaster) : Forecaster where
  single x y p t := (f.single (O.back.app (x, y)).1 (O.back.app (x, y)).2 p t).map O.app
  column x y ps t := (f.column (O.back.app (x, y)).1 (O.back.app (x, y)).2 ps t).map (List.map O.app)

/-- Every forecast can be turned. -/
theorem C154_forecasts (O : Spec.Turn) (f : Forecaster) : Spec.TurnedForecast O f (Spec.turnForecast O f) := by
  constructor
  · intro x y p t
    unfold Spec.turnForecast
    simp only [Prod.mk.eta, (back_app O (x, y)).1]
  · intro x y ps t
    unfold Spec.turnForecast
    simp only [Prod.mk.eta, (back_app O (x, y)).1]

/-- East and west exchanged. -/
def Spec.mirror : Spec.Turn where
  a := -1
  b := 0
  c := 0
  d := 1
  col1 := by norm_num
  col2 := by norm_num
  ortho := by norm_num

/-- Every balloon, wherever it is, has a mirror image: on the other side of a station that lies on the same parallel, over the same place. -/
theorem C154_mirror (s : BState) : ∃ s', Spec.TurnedBalloon Spec.mirror s s' ∧ s'.x = -s.x ∧ s'.y = s.y ∧
    s'.center.lat = s.center.lat := by
  have hcos : Real.cos (atan2 (-s.x / 1000) (s.y / 1000)) = Real.cos (atan2 (s.x / 1000) (s.y / 1000)) := by
    unfold atan2
    by_cases hz : s.x = 0
    · rw [hz]; norm_num
    · rw [Complex.cos_arg (by intro h; rw [Complex.ext_iff] at h; apply hz; have := h.2; simp only [Complex.zero_im] at this; linarith),
        Complex.cos_arg (by intro h; rw [Complex.ext_iff] at h; apply hz; have := h.2; simp only [Complex.zero_im] at this; linarith)]
      simp only [Complex.norm_def, Complex.normSq_mk]
      congr 3
      ring
  have hd : relativeDistance (-s.x) s.y = relativeDistance s.x s.y := by unfold relativeDistance; rw [neg_sq]
  have hm : Spec.mirror.app (s.x, s.y) = (-s.x, s.y) := by simp [Spec.mirror, Spec.Turn.app]
  have key : ∃ δ, latlngFromOffset { s.center with lng := s.center.lng + δ } (-s.x) s.y = latlngFromOffset s.center s.x s.y := by
    unfold latlngFromOffset
    simp only [hcos, hd]
    have shift : ∀ l A B c : ℝ, ∃ δ, LatLng.normalized { lat := l, lng := c + δ + B } = LatLng.normalized { lat := l, lng := c + A } :=
      fun l A B c => ⟨A - B, by rw [add_assoc, sub_add_cancel]⟩
    exact shift _ _ _ _
  obtain ⟨δ, hδ⟩ := key
  refine ⟨{ s with x := -s.x, center := { s.center with lng := s.center.lng + δ } }, ⟨?_, ?_⟩, rfl, rfl, rfl⟩
  · rw [hm]
  · exact hδ

/-! ### A concrete instance -/

theorem first_observation (two : Bool) (cal : Calendar) (hcal : Spec.Gregorian cal) (s : BState) (hs : Spec.Flyer s)
    (he : Spec.Envelope s) (α : ℝ) (a0 : 0 ≤ α) (a1 : α ≤ 1) (f : Forecaster) (hf : Spec.Consistent f) (w : ℝ × ℝ)
    (h1 : f.single s.x s.y s.pressure s.timeElapsed = .ok w) (ws : List (ℝ × ℝ))
    (h2 : f.column s.x s.y ((List.range 181).map pressureLevel) s.timeElapsed = .ok ws) (g : ℝ × ℝ) :
    ∃ v, (Spec.afterAll (FeatState.new f α) [(s, g)]).features (gpr two) (realSun cal) = .ok v := by
  have hobs : (FeatState.new f α).gp.observe s.x s.y s.pressure s.timeElapsed g =
      .ok { data := [(⟨s.x, s.y, s.pressure, totalSeconds s.timeElapsed⟩, (g.1 - w.1, g.2 - w.2))], forecast := f } := by
    unfold WindGP.observe
    simp only [FeatState.new, WindGP.new, bind, Except.bind, h1, pure, Except.pure, List.nil_append]
  obtain ⟨ms, ds, hq, -, -⟩ := C39_after_observation two _ _ (by exact hf) _ _ _ _ _ hobs s.x s.y
    ((List.range 181).map pressureLevel) (by simp) ws (by exact h2)
  rw [← columnQuery_eq] at hq
  obtain ⟨v, hv, -, -⟩ := floor_exists α a0 a1
  obtain ⟨r, hr, -⟩ := C100_range_exists (realSun cal) (C100_real_sun cal hcal.1) α a0 a1 s
    hs.toStockVehicle hs.ir0 hs.ir1 v.pressure ⟨v, hv, rfl⟩
  have hF : Spec.afterAll (FeatState.new f α) [(s, g)] =
      { gp := { data := [(⟨s.x, s.y, s.pressure, totalSeconds s.timeElapsed⟩, (g.1 - w.1, g.2 - w.2))], forecast := f }
        α := α, last := some s } := by
    unfold Spec.afterAll
    simp only [List.foldl_cons, List.foldl_nil]
    unfold FeatState.observe
    rw [hobs]
    rfl
  rw [hF]
  obtain ⟨b, hb⟩ := C25_no_failure two (realSun cal) { gp := { data := [(⟨s.x, s.y, s.pressure, totalSeconds s.timeElapsed⟩, (g.1 - w.1, g.2 - w.2))], forecast := f }, α := α, last := some s } hf s rfl (ambient_ok cal hcal s hs he) ⟨_, hq⟩ ⟨r, hr⟩
  exact ⟨b.toList, by unfold FeatState.features; rw [hb]; rfl⟩

/-- The first balloon of the sunny world, whatever the seed, and its mirror image: both are observed, and StationSeeker does the same in
both, whatever wind the balloon measures. -/
example (seed : ℤ) (g : ℝ × ℝ) : ∃ v s s', Env.new sunnyCfg ⟨(), NoiseModel.new⟩ demo 50 (some seed) none 0 0 = .ok v ∧
    (∃ i, s = v.arena.heap.balls i) ∧ s'.x = -s.x ∧
    ∃ o o', (Spec.afterAll (FeatState.new (Forecaster.of (staticWind (List ℕ)) ()) 0) [(s, g)]).features (gpr true) (realSun gregorian) = .ok o ∧
      (Spec.afterAll (FeatState.new (Spec.turnForecast Spec.mirror (Forecaster.of (staticWind (List ℕ)) ())) 0)
        [(s', (-g.1, g.2))]).features (gpr true) (realSun gregorian) = .ok o' ∧ stationSeek o' = stationSeek o := by
  obtain ⟨v, i, h1, h2, h3, h4⟩ := C102_new sunnyCfg
    sunnyWorld_draws true rfl gregorian gregorian_ok rfl good_static ⟨(), NoiseModel.new⟩ demo 50 (some seed) none 0 0
  obtain ⟨s', hs', hx, -⟩ := C154_mirror (v.arena.heap.balls i)
  have hg := (good_static (K := List ℕ)) [] 0 ()
  obtain ⟨w, hw⟩ := hg.single (v.arena.heap.balls i).x (v.arena.heap.balls i).y (v.arena.heap.balls i).pressure _ h2.flyer.clock
  obtain ⟨ws, hws⟩ := hg.column (v.arena.heap.balls i).x (v.arena.heap.balls i).y ((List.range 181).map pressureLevel) _ h2.flyer.clock
  obtain ⟨o, ho⟩ := first_observation true gregorian gregorian_ok _ h2.flyer h3 0 le_rfl zero_le_one
    (Forecaster.of (staticWind (List ℕ)) ()) hg.consistent w hw ws hws g
  have hall : List.Forall₂ (fun o o' : BState × (ℝ × ℝ) => Spec.TurnedBalloon Spec.mirror o.1 o'.1 ∧ o'.2 = Spec.mirror.app o.2)
      [(v.arena.heap.balls i, g)] [(s', (-g.1, g.2))] :=
    .cons ⟨hs', by simp [Spec.mirror, Spec.Turn.app]⟩ .nil
  obtain ⟨o', ho', -⟩ := C154_observation Spec.mirror _ _ (C154_forecasts Spec.mirror _) 0 _ _ hall true (realSun gregorian) o ho
  exact ⟨v, _, s', h1, ⟨i, rfl⟩, hx, o, o', ho, ho', C154_seeker Spec.mirror _ _ (C154_forecasts Spec.mirror _) 0 _ _ hall true
    (realSun gregorian) o o' ho ho'⟩

/-- A quarter turn is a turn. -/
example : (⟨0, -1, 1, 0, by norm_num, by norm_num, by norm_num⟩ : Spec.Turn).app (3, 4) = (-4, 3) := by
  simp [Spec.Turn.app]

end BLE
