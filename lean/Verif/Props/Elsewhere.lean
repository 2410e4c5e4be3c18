import Verif.Props.Turned

/-!
# C160: the wind estimator prefers no place, height or time
-/

namespace BLE

open Matrix

/-- A displacement: in metres, metres, pascals and microseconds. -/
structure Spec.Shift where
  dx : ℝ
  dy : ℝ
  dp : ℝ
  dt : ℤ

/-- What the estimator is told in one call of `observe`. -/
structure Spec.Sounding where
  x : ℝ
  y : ℝ
  p : ℝ
  t : ℤ
  w : ℝ × ℝ

/-- The same measurement made elsewhere. -/
def Spec.Shift.sounding (D : Spec.Shift) (m : Spec.Sounding) : Spec.Sounding :=
  { m with x := m.x + D.dx, y := m.y + D.dy, p := m.p + D.dp, t := m.t + D.dt }

/-- The forecasts of one field are those of the other, elsewhere. -/
structure Spec.ShiftedForecast (D : Spec.Shift) (f f' : Forecaster) : Prop where
  single : ∀ x y p t, f'.single (x + D.dx) (y + D.dy) (p + D.dp) (t + D.dt) = f.single x y p t
  column : ∀ x y ps t, f'.column (x + D.dx) (y + D.dy) (ps.map (· + D.dp)) (t + D.dt) = f.column x y ps t

/-- The estimator after a series of measurements, those that raise included (they leave it as it was). -/
noncomputable def Spec.sounded (g : WindGP) (ms : List Spec.Sounding) : WindGP :=
  ms.foldl (fun g m => match g.observe m.x m.y m.p m.t m.w with
    | .ok g' => g'
    | .error _ => g) g

/-- A row of the location array, elsewhere. -/
noncomputable def shiftRow (D : Spec.Shift) (r : Row) : Row := ⟨r.x + D.dx, r.y + D.dy, r.p + D.dp, r.t + totalSeconds D.dt⟩

/-- A stored measurement, elsewhere. -/
noncomputable def shiftDatum (D : Spec.Shift) (m : Row × (ℝ × ℝ)) : Row × (ℝ × ℝ) := (shiftRow D m.1, m.2)

theorem totalSeconds_plus (a b : ℤ) : totalSeconds (a + b) = totalSeconds a + totalSeconds b := by
  unfold totalSeconds; push_cast; ring

theorem shift_matern (D : Spec.Shift) (r q : Row) : matern (shiftRow D r) (shiftRow D q) = matern r q := by
  unfold matern shiftRow
  simp only [add_sub_add_right_eq_sub]

theorem shift_posterior (D : Spec.Shift) (data : List (Row × (ℝ × ℝ))) (target : ℝ × ℝ → ℝ) (l : Row) :
    posteriorMean (data.map (shiftDatum D)) target (shiftRow D l) = posteriorMean data target l ∧
    posteriorVar (data.map (shiftDatum D)) (shiftRow D l) = posteriorVar data l := by
  have key := inv_matern data (data.map (shiftDatum D)) (finCongr (by simp)) l (shiftRow D l)
    (fun i j => by simpa [shiftDatum] using (shift_matern D (data.get i).1 (data.get j).1).symm)
    (fun i => by simpa [shiftDatum] using (shift_matern D (data.get i).1 l).symm)
  constructor
  · unfold posteriorMean
    rw [← key]
    have e : (fun i => target ((data.map (shiftDatum D)).get i).2) ∘ finCongr (by simp : data.length = (data.map (shiftDatum D)).length) =
        fun i => target (data.get i).2 := by
      funext i
      simp [shiftDatum]
    rw [e]
  · unfold posteriorVar
    rw [← key, matern_self, matern_self]
    congr 4
    funext i
    simpa [gramVector, shiftDatum] using shift_matern D (data.get i).1 l

theorem shift_recent (D : Spec.Shift) (data : List (Row × (ℝ × ℝ))) (t : ℤ) :
    Spec.recent (data.map (shiftDatum D)) (t + D.dt) = (Spec.recent data t).map (shiftDatum D) := by
  unfold Spec.recent
  rw [List.filter_map]
  congr 1
  apply List.filter_congr
  intro d _
  simp only [Function.comp_apply, shiftDatum, shiftRow, totalSeconds_plus, add_sub_add_right_eq_sub]

theorem shift_batch (D : Spec.Shift) (x y : ℝ) (t : ℤ) (ps : List ℝ) :
    Spec.batch (x + D.dx) (y + D.dy) (t + D.dt) (ps.map (· + D.dp)) = (Spec.batch x y t ps).map (shiftRow D) := by
  unfold Spec.batch
  rw [List.map_map, List.map_map]
  refine List.map_congr_left fun p _ => ?_
  simp only [Function.comp_apply, shiftRow, totalSeconds_plus]

theorem shift_query (D : Spec.Shift) (two : Bool) (g g' : WindGP) (hd : g'.data = g.data.map (shiftDatum D))
    (hf : Spec.ShiftedForecast D g.forecast g'.forecast) (x y : ℝ) (t : ℤ) (ps : List ℝ) :
    g'.queryBatch (gpr two) (Spec.batch (x + D.dx) (y + D.dy) (t + D.dt) (ps.map (· + D.dp))) =
      g.queryBatch (gpr two) (Spec.batch x y t ps) := by
  cases ps with
  | nil => rfl
  | cons p ps =>
  have hcol : ∀ ms, addForecast g'.forecast (Spec.batch (x + D.dx) (y + D.dy) (t + D.dt) ((p :: ps).map (· + D.dp))) ms =
      addForecast g.forecast (Spec.batch x y t (p :: ps)) ms := by
    intro ms
    rw [List.map_cons, addForecast_batch, addForecast_batch, ← List.map_cons (f := (· + D.dp)), hf.column]
  by_cases h0 : g.data = []
  · have e := queryBatch_empty (gpr two) g' (by rw [hd, h0]; rfl) (x + D.dx) (y + D.dy) (t + D.dt) (p + D.dp) (ps.map (· + D.dp))
    rw [← List.map_cons (f := (· + D.dp))] at e
    rw [e, queryBatch_empty _ _ h0, hcol, shift_batch, List.map_map, List.map_map]
    rfl
  · have h0' : g'.data ≠ [] := by rw [hd]; simpa using h0
    have e := queryBatch_data (gpr two) g' h0' (x + D.dx) (y + D.dy) (t + D.dt) (p + D.dp) (ps.map (· + D.dp))
    rw [← List.map_cons (f := (· + D.dp))] at e
    rw [e, queryBatch_data _ _ h0, hd, shift_recent]
    simp only [hcol]
    by_cases hr : Spec.recent g.data t = []
    · rw [hr]
      simp [gpr]
    · rw [gpr_ok two _ hr, gpr_ok two _ (by simpa using hr)]
      simp only
      rw [deviations_gpr, deviations_gpr, shift_batch, List.map_map, List.map_map]
      have hm : ((fun l => (posteriorMean ((Spec.recent g.data t).map (shiftDatum D)) (·.1) l,
          posteriorMean ((Spec.recent g.data t).map (shiftDatum D)) (·.2) l)) ∘ shiftRow D) =
          fun l => (posteriorMean (Spec.recent g.data t) (·.1) l, posteriorMean (Spec.recent g.data t) (·.2) l) := by
        funext l
        simp only [Function.comp_apply]
        rw [(shift_posterior D _ _ l).1, (shift_posterior D _ _ l).1]
      have hv : ((fun l => posteriorVar ((Spec.recent g.data t).map (shiftDatum D)) l / sigmaExpSq) ∘ shiftRow D) =
          fun l => posteriorVar (Spec.recent g.data t) l / sigmaExpSq := by
        funext l
        simp only [Function.comp_apply]
        rw [(shift_posterior D _ (fun w => w.1) l).2]
      rw [hm, hv]

theorem shift_sounded (D : Spec.Shift) (ms : List Spec.Sounding) (g g' : WindGP) (hd : g'.data = g.data.map (shiftDatum D))
    (hf : Spec.ShiftedForecast D g.forecast g'.forecast) :
    (Spec.sounded g' (ms.map D.sounding)).data = (Spec.sounded g ms).data.map (shiftDatum D) ∧
    (Spec.sounded g' (ms.map D.sounding)).forecast = g'.forecast ∧ (Spec.sounded g ms).forecast = g.forecast := by
  induction ms generalizing g g' with
  | nil => exact ⟨hd, rfl, rfl⟩
  | cons m ms ih =>
    have e : ∀ (g : WindGP) (m : Spec.Sounding) ms, Spec.sounded g (m :: ms) = Spec.sounded (match g.observe m.x m.y m.p m.t m.w with
      | .ok g' => g'
      | .error _ => g) ms := fun _ _ _ => rfl
    rw [List.map_cons, e, e]
    have hs : g'.forecast.single (D.sounding m).x (D.sounding m).y (D.sounding m).p (D.sounding m).t =
        g.forecast.single m.x m.y m.p m.t := hf.single _ _ _ _
    unfold WindGP.observe
    rw [hs]
    simp only [bind, Except.bind, pure, Except.pure]
    cases g.forecast.single m.x m.y m.p m.t with
    | error er => exact ih g g' hd hf
    | ok f =>
      refine ih _ _ ?_ hf
      simp only [hd, List.map_append, List.map_cons, List.map_nil]
      congr 2
      simp only [shiftDatum, shiftRow, Spec.Shift.sounding, totalSeconds_plus]

/-- C160. If all measurements are made elsewhere, higher or later by the same amounts, and the forecasts are displaced likewise, then so are
the estimates and their uncertainties: the answer for a column elsewhere is the answer for the column here. -/
theorem C160_elsewhere (D : Spec.Shift) (two : Bool) (f f' : Forecaster) (hf : Spec.ShiftedForecast D f f') (ms : List Spec.Sounding)
    (x y : ℝ) (t : ℤ) (ps : List ℝ) :
    (Spec.sounded (WindGP.new f') (ms.map D.sounding)).queryBatch (gpr two)
        (Spec.batch (x + D.dx) (y + D.dy) (t + D.dt) (ps.map (· + D.dp))) =
      (Spec.sounded (WindGP.new f) ms).queryBatch (gpr two) (Spec.batch x y t ps) := by
  obtain ⟨h1, h2, h3⟩ := shift_sounded D ms (WindGP.new f) (WindGP.new f') rfl hf
  exact shift_query D two _ _ h1 (by rw [h2, h3]; exact hf) x y t ps

/-- C160. In particular, under a forecast that is the same everywhere and always, only the differences between where and when was measured
and where and when is asked matter. -/
theorem C160_uniform (two : Bool) (w : ℝ × ℝ) (D : Spec.Shift) (ms : List Spec.Sounding) (x y p : ℝ) (t : ℤ) :
    let f : Forecaster := { single := fun _ _ _ _ => .ok w, column := fun _ _ ps _ => .ok (ps.map fun _ => w) }
    (Spec.sounded (WindGP.new f) (ms.map D.sounding)).query (gpr two) (x + D.dx) (y + D.dy) (p + D.dp) (t + D.dt) =
      (Spec.sounded (WindGP.new f) ms).query (gpr two) x y p t := by
  intro f
  have h := C160_elsewhere D two f f ⟨fun _ _ _ _ => rfl, fun _ _ ps _ => by simp only [f, List.map_map]; rfl⟩ ms x y t [p]
  unfold WindGP.query
  simp only [Spec.batch, List.map_cons, List.map_nil] at h
  rw [h]

/-- One gust measured at the origin, asked about a kilometre to the east, and the same a thousand kilometres away three days later. -/
example : (Spec.sounded (WindGP.new ⟨fun _ _ _ _ => .ok (0, 0), fun _ _ ps _ => .ok (ps.map fun _ => (0, 0))⟩)
      [⟨0 + 1000000, 0 + 0, 7000 + 0, 0 + 3 * usPerDay, (5, -2)⟩]).query (gpr true) (1000 + 1000000) (0 + 0) (7000 + 0) (0 + 3 * usPerDay) =
    (Spec.sounded (WindGP.new ⟨fun _ _ _ _ => .ok (0, 0), fun _ _ ps _ => .ok (ps.map fun _ => (0, 0))⟩)
      [⟨0, 0, 7000, 0, (5, -2)⟩]).query (gpr true) 1000 0 7000 0 :=
  C160_uniform true (0, 0) ⟨1000000, 0, 0, 3 * usPerDay⟩ [⟨0, 0, 7000, 0, (5, -2)⟩] 1000 0 7000 0

end BLE
