import Verif.Lemmas.Kernel
import Verif.Props.Wind

/-!
# C38, C39, C88: the wind estimator
-/

namespace BLE

open Matrix

/-- Columns of this forecaster are its single forecasts, in order (C36 proves it for every wind field
that keeps the base-class method and for grid fields). -/
def Spec.Consistent (f : Forecaster) : Prop :=
  ∀ x y ps t ws, f.column x y ps t = .ok ws → List.Forall₂ (fun p w => f.single x y p t = .ok w) ps ws

theorem consistent_base {K W : Type} (C : WindClass K W) (hC : C.column = none) (w : W) :
    Spec.Consistent (Forecaster.of C w) := by
  intro x y ps t ws h
  simp only [Forecaster.of, columnOf, hC] at h
  exact (mapM_ok_iff _ _ _).1 h

theorem consistent_grid {K : Type} (s : FieldShape) (sample : K → ℤ → GridField) (w : Option GridField) :
    Spec.Consistent (Forecaster.of (gridWind s sample) w) := by
  intro x y ps t ws h
  simp only [Forecaster.of, columnOf, gridWind, gridColumn] at h
  cases w with
  | none => cases h
  | some f =>
    simp only [List.mapM_map] at h
    exact (mapM_ok_iff _ _ _).1 h

/-- A vertical batch: one place, one time, several pressures. -/
noncomputable def Spec.batch (x y : ℝ) (t : ℤ) (ps : List ℝ) : List Row := ps.map fun p => ⟨x, y, p, totalSeconds t⟩

theorem timedelta_roundtrip (t : ℤ) : timedeltaOfSeconds (totalSeconds t) = t := by
  unfold timedeltaOfSeconds totalSeconds
  rw [div_mul_cancel₀ _ (by norm_num : (1000000 : ℝ) ≠ 0), round_intCast]

theorem addColumn_ok (ms fs : List (ℝ × ℝ)) (h : ms.length = fs.length) :
    addColumn ms fs = .ok (List.zipWith (fun m f => (m.1 + f.1, m.2 + f.2)) ms fs) := by
  induction ms generalizing fs with
  | nil => cases fs with
    | nil => rfl
    | cons => simp at h
  | cons m ms ih => cases fs with
    | nil => simp at h
    | cons f fs =>
      simp only [addColumn, ih fs (by simpa using h), List.zipWith_cons_cons]
      rfl

theorem addForecast_batch (f : Forecaster) (x y : ℝ) (t : ℤ) (p : ℝ) (ps : List ℝ) (ms : List (ℝ × ℝ)) :
    addForecast f (Spec.batch x y t (p :: ps)) ms =
      match f.column x y (p :: ps) t with
      | .error e => .error e
      | .ok fs => addColumn ms fs := by
  unfold addForecast Spec.batch
  simp only [List.map_cons]
  rw [if_pos (by intro r hr; obtain ⟨q, _, rfl⟩ := List.mem_map.1 hr; exact ⟨rfl, rfl, rfl⟩)]
  rw [timedelta_roundtrip]
  simp only [List.map_map, Function.comp_def, List.map_id']
  rfl

theorem queryBatch_empty (R : Regressor) (g : WindGP) (hg : g.data = []) (x y : ℝ) (t : ℤ) (p : ℝ) (ps : List ℝ) :
    g.queryBatch R (Spec.batch x y t (p :: ps)) =
      (match addForecast g.forecast (Spec.batch x y t (p :: ps))
          ((Spec.batch x y t (p :: ps)).map fun _ => (0, 0)) with
        | .error e => .error e
        | .ok ms => .ok (ms, (Spec.batch x y t (p :: ps)).map fun _ => 0)) := by
  conv_lhs => unfold WindGP.queryBatch
  rw [hg]
  simp only [Spec.batch, List.map_cons, if_true]
  rfl

/-- C38, estimates before any observation. Without stored observations every vertical batch whose
column is defined is answered by the forecasts themselves, with zero deviation. -/
theorem C38_no_observations (R : Regressor) (g : WindGP) (hg : g.data = []) (hf : Spec.Consistent g.forecast)
    (x y : ℝ) (t : ℤ) (ps : List ℝ) (hps : ps ≠ []) (ws : List (ℝ × ℝ))
    (hw : g.forecast.column x y ps t = .ok ws) :
    ∃ ms ds, g.queryBatch R (Spec.batch x y t ps) = .ok (ms, ds) ∧
      List.Forall₂ (fun p m => g.forecast.single x y p t = .ok m) ps ms ∧ ds = ps.map fun _ => 0 := by
  obtain ⟨p, ps, rfl⟩ := List.exists_cons_of_ne_nil hps
  refine ⟨ws, _, ?_, hf _ _ _ _ _ hw, rfl⟩
  have hl : ws.length = (p :: ps).length := (hf _ _ _ _ _ hw).length_eq.symm
  rw [queryBatch_empty R g hg, addForecast_batch, hw]
  simp only
  rw [addColumn_ok _ _ (by simp [Spec.batch, hl])]
  simp only [Spec.batch, List.map_map]
  congr 2
  · apply List.ext_getElem (by simp [hl])
    intro i h1 h2
    simp only [List.getElem_zipWith, List.getElem_map, Function.comp_def, zero_add]

-- Non-vacuity: a static field, three levels.
example : ∃ ws, (Forecaster.of (staticWind ℕ) ()).column 0 0 [7000, 9000, 11000] 0 = .ok ws := by
  refine ⟨[(10, 0), (0, 10), (-10, 0)], ?_⟩
  simp only [Forecaster.of, columnOf, staticWind, List.mapM_cons, List.mapM_nil]
  norm_num
  rfl

/-- Operations on the estimator. -/
inductive GpOp
  | reset (f : Forecaster)
  | observe (x y p : ℝ) (t : ℤ) (m : ℝ × ℝ)
  | query (locs : List Row)

/-- One operation; a failing observation (no forecast at that place) changes nothing, and queries are
evaluated for their result only. -/
noncomputable def GpOp.step (g : WindGP) : GpOp → WindGP
  | .reset f => g.reset f
  | .observe x y p t m => match g.observe x y p t m with
    | .ok g' => g'
    | .error _ => g
  | .query _ => g

/-- What an observation should contribute under a forecast: the measured wind minus the forecast at the same
place and time; nothing if there is no forecast there. -/
noncomputable def Spec.contribution (f : Forecaster) : GpOp → List (Row × (ℝ × ℝ))
  | .observe x y p t m => match f.single x y p t with
    | .ok w => [(⟨x, y, p, totalSeconds t⟩, (m.1 - w.1, m.2 - w.2))]
    | .error _ => []
  | _ => []

/-- C38, bookkeeping. For every initial state and every sequence of operations: after the last reset (to
forecast `f`) the stored data are exactly the contributions of the observations since, in order. -/
theorem C38_history (g : WindGP) (before : List GpOp) (f : Forecaster) (since : List GpOp)
    (hs : ∀ o ∈ since, ∀ f', o ≠ .reset f') :
    let g' := (before ++ .reset f :: since).foldl GpOp.step g
    g'.data = since.flatMap (Spec.contribution f) ∧ g'.forecast = f := by
  simp only [List.foldl_append, List.foldl_cons]
  generalize before.foldl GpOp.step g = g1
  have h0 : (GpOp.step g1 (.reset f)).data = [] ∧ (GpOp.step g1 (.reset f)).forecast = f := ⟨rfl, rfl⟩
  generalize GpOp.step g1 (.reset f) = g2 at h0
  suffices h : ∀ (ops : List GpOp) (g : WindGP), (∀ o ∈ ops, ∀ f', o ≠ .reset f') → g.forecast = f →
      (ops.foldl GpOp.step g).data = g.data ++ ops.flatMap (Spec.contribution f) ∧
      (ops.foldl GpOp.step g).forecast = f by
    have := h since g2 hs h0.2
    rw [h0.1, List.nil_append] at this
    exact this
  intro ops
  induction ops with
  | nil => intro g _ hf; simp [hf]
  | cons o ops ih =>
    intro g ho hf
    have ho' : ∀ o' ∈ ops, ∀ f', o' ≠ .reset f' := fun o' h => ho o' (List.mem_cons_of_mem _ h)
    rw [List.foldl_cons, List.flatMap_cons, ← List.append_assoc]
    cases o with
    | reset f' => exact absurd rfl (ho _ List.mem_cons_self f')
    | query l =>
      have := ih g ho' hf
      simpa [GpOp.step, Spec.contribution] using this
    | observe x y p t m =>
      cases hfc : f.single x y p t with
      | error e =>
        have hst : GpOp.step g (.observe x y p t m) = g := by
          simp [GpOp.step, WindGP.observe, hf, hfc, bind, Except.bind]
        have := ih g ho' hf
        rw [hst]
        simpa [Spec.contribution, hfc] using this
      | ok w =>
        have hst : GpOp.step g (.observe x y p t m) =
            { data := g.data ++ [(⟨x, y, p, totalSeconds t⟩, (m.1 - w.1, m.2 - w.2))], forecast := f } := by
          simp [GpOp.step, WindGP.observe, hf, hfc, bind, Except.bind, pure, Except.pure]
        have := ih { data := g.data ++ [(⟨x, y, p, totalSeconds t⟩, (m.1 - w.1, m.2 - w.2))], forecast := f } ho' rfl
        rw [hst]
        simpa [Spec.contribution, hfc] using this

/-- C38. A new estimator is in the state after a reset: until the first reset the stored data are the contributions of all
observations made. -/
theorem C38_history_new (f : Forecaster) (ops : List GpOp) (hs : ∀ o ∈ ops, ∀ f', o ≠ .reset f') :
    (ops.foldl GpOp.step (WindGP.new f)).data = ops.flatMap (Spec.contribution f) ∧
      (ops.foldl GpOp.step (WindGP.new f)).forecast = f :=
  C38_history (WindGP.new f) [] f ops hs

/-- C38. A single query asks at the place and time given: it answers what the vertical batch of that one level answers. -/
theorem C38_query (R : Regressor) (g : WindGP) (x y p : ℝ) (t : ℤ) (m : ℝ × ℝ) (d : ℝ) :
    (g.query R x y p t = .ok (m, d) ↔ ∃ ms ds, g.queryBatch R (Spec.batch x y t [p]) = .ok (m :: ms, d :: ds)) ∧
    ∀ e, g.queryBatch R (Spec.batch x y t [p]) = .error e → g.query R x y p t = .error e := by
  have hb : ([⟨x, y, p, totalSeconds t⟩] : List Row) = Spec.batch x y t [p] := rfl
  unfold WindGP.query
  rw [hb]
  generalize g.queryBatch R (Spec.batch x y t [p]) = r
  constructor
  · rcases r with e | ⟨ms, ds⟩
    · simp
    · cases ms <;> cases ds <;> simp
  · intro e h
    rw [h]

-- Non-vacuity: an observation over the static field is stored as its error.
example : (List.foldl GpOp.step (WindGP.new (Forecaster.of (staticWind ℕ) ()))
    [.observe 0 0 9000 0 (1, 1), .reset (Forecaster.of (staticWind ℕ) ()),
      .observe 1 2 7000 180000000 (13, 4)]).data = [(⟨1, 2, 7000, 180⟩, (3, 4))] := by
  have := (C38_history (WindGP.new (Forecaster.of (staticWind ℕ) ())) [.observe 0 0 9000 0 (1, 1)]
    (Forecaster.of (staticWind ℕ) ()) [.observe 1 2 7000 180000000 (13, 4)] (by simp)).1
  simp only [List.cons_append, List.nil_append] at this
  rw [this]
  simp only [List.flatMap_cons, List.flatMap_nil, Spec.contribution, Forecaster.of, staticWind]
  norm_num [totalSeconds]

/-! ## C39 -/

/-- The observations less than six hours from a query time. -/
noncomputable def Spec.recent (data : List (Row × (ℝ × ℝ))) (t : ℤ) : List (Row × (ℝ × ℝ)) :=
  open Classical in data.filter fun d => |d.1.t - totalSeconds t| < 6 * 3600

theorem trainingSet_batch (data : List (Row × (ℝ × ℝ))) (x y : ℝ) (t : ℤ) (p : ℝ) (ps : List ℝ) :
    trainingSet data ⟨x, y, p, totalSeconds t⟩ (Spec.batch x y t ps) = Spec.recent data t := by
  unfold trainingSet Spec.recent gpHorizon
  rw [if_pos (by intro r hr; obtain ⟨q, _, rfl⟩ := List.mem_map.1 hr; rfl)]

theorem queryBatch_data (R : Regressor) (g : WindGP) (hg : g.data ≠ []) (x y : ℝ) (t : ℤ) (p : ℝ) (ps : List ℝ) :
    g.queryBatch R (Spec.batch x y t (p :: ps)) =
      match R (Spec.recent g.data t) (Spec.batch x y t (p :: ps)) with
      | .error e => .error e
      | .ok o => match addForecast g.forecast (Spec.batch x y t (p :: ps)) o.means with
        | .error e => .error e
        | .ok ms => .ok (ms, deviations o.std) := by
  conv_lhs => unfold WindGP.queryBatch
  rw [← trainingSet_batch g.data x y t p ps]
  simp only [Spec.batch, List.map_cons, hg, if_false]
  cases R (trainingSet g.data ⟨x, y, p, totalSeconds t⟩ (List.map (fun p => ⟨x, y, p, totalSeconds t⟩) ps))
    (⟨x, y, p, totalSeconds t⟩ :: List.map (fun p => ⟨x, y, p, totalSeconds t⟩) ps) with
  | error e => rfl
  | ok o => rfl

/-- The fit never fails on a non-empty training set. -/
theorem gpr_ok (two : Bool) (data : List (Row × (ℝ × ℝ))) (h : data ≠ []) (locs : List Row) :
    gpr two data locs = .ok
      { means := locs.map fun l => (posteriorMean data (·.1) l, posteriorMean data (·.2) l)
        std := if two then
            .inr (locs.map fun l => (Real.sqrt (posteriorVar data l), Real.sqrt (posteriorVar data l)))
          else .inl (locs.map fun l => Real.sqrt (posteriorVar data l)) } := by
  unfold gpr
  rw [if_neg h, if_pos (gramMatrix_posDef data)]

theorem deviations_gpr (two : Bool) (data : List (Row × (ℝ × ℝ))) (locs : List Row) :
    deviations (if two then
            .inr (locs.map fun l => (Real.sqrt (posteriorVar data l), Real.sqrt (posteriorVar data l)))
          else .inl (locs.map fun l => Real.sqrt (posteriorVar data l))) =
      locs.map fun l => posteriorVar data l / sigmaExpSq := by
  have e : ∀ l, Real.sqrt (posteriorVar data l) ^ 2 = posteriorVar data l := fun l =>
    Real.sq_sqrt (posteriorVar_bounds data l).2.1
  cases two
  · simp only [Bool.false_eq_true, if_false, deviations, List.map_map, Function.comp_def, e]
  · simp only [if_true, deviations, List.map_map, Function.comp_def, e]
    refine List.map_congr_left fun l _ => ?_
    ring

/-- C39 (partial: a window without observations is excluded). For a vertical batch at one time with at least one
observation less than six hours away, the query succeeds, and the answer is, level by level, the forecast plus
the posterior mean, with the posterior variance divided by 3.6², of the regression on exactly those
observations. Missing: success of every query (false, see `C39_stale_fails`). -/
theorem C39_recent_partial (two : Bool) (g : WindGP) (hf : Spec.Consistent g.forecast) (x y : ℝ) (t : ℤ) (ps : List ℝ)
    (hps : ps ≠ []) (ws : List (ℝ × ℝ)) (hw : g.forecast.column x y ps t = .ok ws)
    (hr : Spec.recent g.data t ≠ []) :
    ∃ ms ds, g.queryBatch (gpr two) (Spec.batch x y t ps) = .ok (ms, ds) ∧
      List.Forall₂ (fun p m => ∃ w, g.forecast.single x y p t = .ok w ∧
        m = (posteriorMean (Spec.recent g.data t) (·.1) ⟨x, y, p, totalSeconds t⟩ + w.1,
          posteriorMean (Spec.recent g.data t) (·.2) ⟨x, y, p, totalSeconds t⟩ + w.2)) ps ms ∧
      ds = ps.map fun p => posteriorVar (Spec.recent g.data t) ⟨x, y, p, totalSeconds t⟩ / 3.6 ^ 2 := by
  have hne : g.data ≠ [] := by
    intro h; apply hr; rw [h]; rfl
  obtain ⟨p, ps, rfl⟩ := List.exists_cons_of_ne_nil hps
  have hfo := hf _ _ _ _ _ hw
  rw [queryBatch_data _ g hne, gpr_ok two _ hr]
  simp only
  rw [addForecast_batch, hw]
  simp only
  rw [addColumn_ok _ _ (by simp [Spec.batch, hfo.length_eq.symm]), deviations_gpr]
  refine ⟨_, _, rfl, ?_, ?_⟩
  · rw [List.forall₂_iff_get]
    refine ⟨by simp [Spec.batch, hfo.length_eq.symm], ?_⟩
    intro i h1 h2
    have hi : i < ws.length := hfo.length_eq ▸ h1
    refine ⟨ws[i], ?_, ?_⟩
    · exact (List.forall₂_iff_get.1 hfo).2 i h1 hi
    · simp only [List.get_eq_getElem, Spec.batch, List.getElem_zipWith, List.getElem_map]
  · simp [Spec.batch, Function.comp_def, sigmaExpSq]

/-- The estimator is not total: if something was observed, but nothing within six hours of the query time, the
query raises `ValueError` (scikit-learn refuses to fit an empty training set) instead of falling back to the
forecast. -/
theorem C39_stale_fails (two : Bool) (g : WindGP) (hne : g.data ≠ []) (x y : ℝ) (t : ℤ) (ps : List ℝ)
    (hps : ps ≠ []) (hr : Spec.recent g.data t = []) :
    g.queryBatch (gpr two) (Spec.batch x y t ps) = .error .value := by
  obtain ⟨p, ps, rfl⟩ := List.exists_cons_of_ne_nil hps
  rw [queryBatch_data _ g hne, hr]
  simp [gpr]

-- Such states exist: one observation at time 0, query six hours later.
example : Spec.recent [((⟨0, 0, 7000, 0⟩ : Row), ((0, 0) : ℝ × ℝ))] 21600000000 = [] := by
  unfold Spec.recent
  simp only [List.filter_cons, List.filter_nil]
  norm_num [totalSeconds]

/-- C39, exactly when a query succeeds (the forecast answering): nothing was observed since the reset, or something
less than six hours from the query time. -/
theorem C39_succeeds_iff (two : Bool) (g : WindGP) (hf : Spec.Consistent g.forecast) (x y : ℝ) (t : ℤ) (ps : List ℝ)
    (hps : ps ≠ []) (ws : List (ℝ × ℝ)) (hw : g.forecast.column x y ps t = .ok ws) :
    (∃ r, g.queryBatch (gpr two) (Spec.batch x y t ps) = .ok r) ↔
      g.data = [] ∨ ∃ d ∈ g.data, |d.1.t - (t : ℝ) / 1000000| < 21600 := by
  have hrec : Spec.recent g.data t ≠ [] ↔ ∃ d ∈ g.data, |d.1.t - (t : ℝ) / 1000000| < 21600 := by
    unfold Spec.recent
    rw [ne_eq, List.filter_eq_nil_iff]
    simp only [decide_eq_true_eq, not_forall, not_not, totalSeconds]
    norm_num
  rw [← hrec]
  constructor
  · rintro ⟨r, hr⟩
    by_contra hcon
    push Not at hcon
    rw [C39_stale_fails two g hcon.1 x y t ps hps hcon.2] at hr
    cases hr
  · rintro (h | h)
    · obtain ⟨ms, ds, e, _⟩ := C38_no_observations (gpr two) g h hf x y t ps hps ws hw
      exact ⟨_, e⟩
    · obtain ⟨ms, ds, e, _⟩ := C39_recent_partial two g hf x y t ps hps ws hw h
      exact ⟨_, e⟩

/-- In the order the environment uses the estimator (measure, then ask at the same time) queries always succeed. -/
theorem C39_after_observation (two : Bool) (g g' : WindGP) (hf : Spec.Consistent g.forecast) (x y p : ℝ) (t : ℤ)
    (m : ℝ × ℝ) (ho : g.observe x y p t m = .ok g') (x' y' : ℝ) (ps : List ℝ) (hps : ps ≠ []) (ws : List (ℝ × ℝ))
    (hw : g.forecast.column x' y' ps t = .ok ws) :
    ∃ ms ds, g'.queryBatch (gpr two) (Spec.batch x' y' t ps) = .ok (ms, ds) ∧ ms.length = ps.length ∧
      ds.length = ps.length := by
  unfold WindGP.observe at ho
  cases hs : g.forecast.single x y p t with
  | error e => rw [hs] at ho; cases ho
  | ok w =>
    rw [hs] at ho
    simp only [bind, Except.bind, pure, Except.pure, Except.ok.injEq] at ho
    subst ho
    obtain ⟨ms, ds, h1, h2, h3⟩ := C39_recent_partial two
      { g with data := g.data ++ [(⟨x, y, p, totalSeconds t⟩, (m.1 - w.1, m.2 - w.2))] } hf x' y' t ps hps ws hw (by
        intro h
        have hmem : ((⟨x, y, p, totalSeconds t⟩ : Row), (m.1 - w.1, m.2 - w.2)) ∈
            Spec.recent (g.data ++ [(⟨x, y, p, totalSeconds t⟩, (m.1 - w.1, m.2 - w.2))]) t := by
          unfold Spec.recent
          rw [List.mem_filter]
          refine ⟨by simp, ?_⟩
          simp
        simp only at h
        rw [h] at hmem
        cases hmem)
    exact ⟨ms, ds, h1, h2.length_eq.symm, by rw [h3]; simp⟩

/-! ## C88 — uncertainty -/

/-- Variational form: any weights give an upper bound on the posterior variance. -/
theorem posteriorVar_le (data : List (Row × (ℝ × ℝ))) (l : Row) (w : Fin data.length → ℝ) :
    posteriorVar data l ≤ matern l l - 2 * (gramVector data l ⬝ᵥ w) + w ⬝ᵥ (gramMatrix data *ᵥ w) := by
  have hA := gramMatrix_posDef data
  rw [(posteriorVar_bounds data l).1]
  set k := gramVector data l
  set A := gramMatrix data
  set v := A⁻¹ *ᵥ k with hv
  have hAv : A *ᵥ v = k := by
    rw [hv, Matrix.mulVec_mulVec, Matrix.mul_nonsing_inv _ ((Matrix.isUnit_iff_isUnit_det _).1 hA.isUnit),
      Matrix.one_mulVec]
  have h := (Matrix.posSemidef_iff_dotProduct_mulVec.1 hA.posSemidef).2 (w - v)
  simp only [star_trivial] at h
  have sym : v ⬝ᵥ (A *ᵥ w) = k ⬝ᵥ w := by
    rw [dotProduct_mulVec, ← Matrix.mulVec_transpose]
    have : Aᵀ = A := by have := hA.isHermitian; rwa [Matrix.IsHermitian, Matrix.conjTranspose_eq_transpose_of_trivial] at this
    rw [this, hAv]
  rw [Matrix.mulVec_sub, hAv, sub_dotProduct, dotProduct_sub, dotProduct_sub, sym] at h
  rw [dotProduct_comm w k, dotProduct_comm v k] at h
  linarith

/-- ... attained at the regression weights. -/
theorem posteriorVar_attained (data : List (Row × (ℝ × ℝ))) (l : Row) : ∃ w,
    posteriorVar data l = matern l l - 2 * (gramVector data l ⬝ᵥ w) + w ⬝ᵥ (gramMatrix data *ᵥ w) := by
  have hA := gramMatrix_posDef data
  refine ⟨(gramMatrix data)⁻¹ *ᵥ gramVector data l, ?_⟩
  rw [(posteriorVar_bounds data l).1, Matrix.mulVec_mulVec,
    Matrix.mul_nonsing_inv _ ((Matrix.isUnit_iff_isUnit_det _).1 hA.isUnit), Matrix.one_mulVec,
    dotProduct_comm ((gramMatrix data)⁻¹ *ᵥ gramVector data l)]
  ring

/-- C88. Every deviation ever returned by a query on a vertical batch is in [0, 1], for every history; and the
regression itself can be fitted for every non-empty training set. -/
theorem C88_range (two : Bool) (g : WindGP) (x y : ℝ) (t : ℤ) (ps : List ℝ) (ms : List (ℝ × ℝ)) (ds : List ℝ)
    (h : g.queryBatch (gpr two) (Spec.batch x y t ps) = .ok (ms, ds)) : ∀ d ∈ ds, 0 ≤ d ∧ d ≤ 1 := by
  cases ps with
  | nil => cases h
  | cons p ps =>
    by_cases hne : g.data = []
    · rw [queryBatch_empty _ g hne] at h
      split at h
      · cases h
      · cases h
        intro d hd
        obtain ⟨_, _, rfl⟩ := List.mem_map.1 hd
        simp
    · rw [queryBatch_data _ g hne] at h
      by_cases hr : Spec.recent g.data t = []
      · rw [hr] at h; simp [gpr] at h
      · rw [gpr_ok two _ hr] at h
        simp only at h
        split at h
        · cases h
        · cases h
          rw [deviations_gpr]
          intro d hd
          obtain ⟨l, _, rfl⟩ := List.mem_map.1 hd
          have := posteriorVar_bounds (Spec.recent g.data t) l
          exact ⟨div_nonneg this.2.1 sigmaExpSq_pos.le, (div_le_one sigmaExpSq_pos).2 this.2.2⟩

theorem C88_fit_total (two : Bool) (data : List (Row × (ℝ × ℝ))) (locs : List Row) :
    (∃ o, gpr two data locs = .ok o) ↔ data ≠ [] := by
  constructor
  · rintro ⟨o, ho⟩ rfl
    simp [gpr] at ho
  · intro h; exact ⟨_, gpr_ok two data h locs⟩

/-- More observations never increase the uncertainty anywhere. -/
theorem C88_more_data (data data' : List (Row × (ℝ × ℝ))) (h : data.Sublist data') (l : Row) :
    posteriorVar data' l ≤ posteriorVar data l := by
  obtain ⟨f, hf⟩ := List.sublist_iff_exists_fin_orderEmbedding_get_eq.1 h
  obtain ⟨w, hw⟩ := posteriorVar_attained data l
  have hinj : Function.Injective f := f.injective
  rw [hw]
  set w' := Function.extend f w 0 with hw'
  have e0 : ∀ (φ : Fin data'.length → ℝ), ∑ j, w' j * φ j = ∑ i, w i * φ (f i) := by
    intro φ
    refine (Fintype.sum_of_injective f hinj _ _ ?_ ?_).symm
    · intro j hj
      rw [hw', Function.extend_apply' _ _ _ (by simpa using hj)]; simp
    · intro i; rw [hw', hinj.extend_apply]
  refine (posteriorVar_le data' l w').trans (le_of_eq ?_)
  have e1 : gramVector data' l ⬝ᵥ w' = gramVector data l ⬝ᵥ w := by
    rw [dotProduct_comm, dotProduct_comm (gramVector data l)]
    unfold dotProduct
    rw [e0]
    refine Finset.sum_congr rfl fun i _ => ?_
    simp only [gramVector]; rw [hf i]
  have e2 : w' ⬝ᵥ (gramMatrix data' *ᵥ w') = w ⬝ᵥ (gramMatrix data *ᵥ w) := by
    unfold dotProduct
    rw [e0]
    refine Finset.sum_congr rfl fun i _ => ?_
    congr 1
    unfold mulVec dotProduct
    have := e0 (fun j => gramMatrix data' (f i) j)
    simp only [mul_comm _ (w' _), mul_comm _ (w _)]
    rw [this]
    refine Finset.sum_congr rfl fun j _ => ?_
    simp only [gramMatrix, Matrix.of_apply]
    rw [hf i, hf j]
    congr 2
    by_cases hij : i = j
    · simp [hij]
    · rw [if_neg hij, if_neg fun h => hij (hinj h)]
  rw [e1, e2]

/-- Where something was measured, the normalised uncertainty is below 0.4 %. -/
theorem C88_at_observation (data : List (Row × (ℝ × ℝ))) (d : Row × (ℝ × ℝ)) (hd : d ∈ data) :
    posteriorVar data d.1 / 3.6 ^ 2 < 0.004 := by
  have h1 := C88_more_data [d] data (List.singleton_sublist.2 hd) d.1
  have h2 := posteriorVar_le [d] d.1 (fun _ => sigmaExpSq / (sigmaExpSq + sigmaNoiseSq))
  have e : matern d.1 d.1 - 2 * (gramVector [d] d.1 ⬝ᵥ fun _ => sigmaExpSq / (sigmaExpSq + sigmaNoiseSq)) +
      (fun _ => sigmaExpSq / (sigmaExpSq + sigmaNoiseSq)) ⬝ᵥ
        (gramMatrix [d] *ᵥ fun _ => sigmaExpSq / (sigmaExpSq + sigmaNoiseSq)) < 3.6 ^ 2 * 0.004 := by
    have hm := matern_self d.1
    simp only [dotProduct, mulVec, gramVector, gramMatrix, Matrix.of_apply]
    erw [Fin.sum_univ_one, Fin.sum_univ_one, Fin.sum_univ_one]
    simp only [List.get_eq_getElem, Fin.val_zero, List.getElem_cons_zero, hm, if_true]
    norm_num [sigmaExpSq, sigmaNoiseSq]
  rw [div_lt_iff₀ (by norm_num)]
  linarith

end BLE
