import Verif.Model.Summary
import Verif.Props.Eval

/-!
# C163 — the summary of an evaluation
-/

namespace BLE

variable {S K W Rd : Type}

/-- The flight of a result ended for one of the three causes. -/
def Spec.Lost (r : EvalResult) : Prop := r.outOfPower = true ∨ r.zeropressure = true ∨ r.envelopeBurst = true

theorem finishedRuns_eq (rs : List EvalResult) [DecidablePred Spec.Lost] : finishedRuns rs = rs.filter fun r => ¬ Spec.Lost r := by
  unfold finishedRuns
  rw [List.filter_filter, List.filter_filter]
  refine List.filter_congr fun r _ => ?_
  rw [Bool.eq_iff_iff]
  simp only [Bool.and_eq_true, decide_eq_true_eq]
  unfold Spec.Lost
  cases r.outOfPower <;> cases r.zeropressure <;> cases r.envelopeBurst <;> simp

theorem mean_sum (l : List ℝ) (m : ℝ) (h : seriesMean l = some m) : m * l.length = l.sum ∧ l ≠ [] := by
  unfold seriesMean at h
  split at h
  · cases h
  · rename_i hl
    have : (l.length : ℝ) ≠ 0 := by simpa using hl
    rw [← Option.some.inj h]
    exact ⟨by field_simp, hl⟩

theorem mean_none (l : List ℝ) : seriesMean l = none ↔ l = [] := by
  unfold seriesMean
  split <;> simp_all

theorem mean_between (l : List ℝ) (m lo hi : ℝ) (h : seriesMean l = some m) (hb : ∀ x ∈ l, lo ≤ x ∧ x ≤ hi) : lo ≤ m ∧ m ≤ hi := by
  obtain ⟨e, hne⟩ := mean_sum l m h
  have hp : (0 : ℝ) < l.length := by
    have := List.length_pos_of_ne_nil hne
    exact_mod_cast this
  have h1 : l.length * lo ≤ l.sum := by
    have := List.card_nsmul_le_sum l lo fun x hx => (hb x hx).1
    simpa [nsmul_eq_mul] using this
  have h2 : l.sum ≤ l.length * hi := by
    have := List.sum_le_card_nsmul l hi fun x hx => (hb x hx).2
    simpa [nsmul_eq_mul] using this
  rw [← e] at h1 h2
  constructor
  · by_contra hc
    push Not at hc
    nlinarith
  · by_contra hc
    push Not at hc
    nlinarith

open Classical in
/-- C163. The row shown for the results of an evaluation accounts for every flight of the suite: those that ended for one of the
three causes are counted under that cause, all others were flown to the suite's full length and are the ones called finished.
The means are the means over all, and over the finished, flights (shown as missing exactly if none finished), and the shares of
time within the radius lie between 0 and 1. -/
theorem C163_row (c : EnvCfg K W Rd) (A : Agent S) (suite : Suite) (hne : suite.seeds ≠ []) (period : ℤ) (paths : Bool)
    (v v' : Env K W Rd) (s s' : S) (rs : List EvalResult)
    (h : evalAgent (balloonEnv c) A suite period paths v s = (v', s', .ok rs)) :
    ∃ row, summaryRow rs = .ok row ∧ row.episodes = suite.seeds.length ∧
      (rs.filter fun r => ¬ Spec.Lost r).length + row.outOfPower + row.zeropressure + row.envelopeBurst = row.episodes ∧
      (∀ r ∈ rs, ¬ Spec.Lost r → (r.finalStep : ℤ) = suite.maxLen) ∧
      (∃ m, row.rewardAll = some m ∧ m * row.episodes = (rs.map (·.cumulative)).sum) ∧
      (∃ m, row.twrAll = some m ∧ m * row.episodes = (rs.map (·.twr)).sum ∧ 0 ≤ m ∧ m ≤ 1) ∧
      (row.rewardFinished = none ↔ ∀ r ∈ rs, Spec.Lost r) ∧ (row.twrFinished = none ↔ ∀ r ∈ rs, Spec.Lost r) ∧
      (∀ m, row.rewardFinished = some m →
        m * (rs.filter fun r => ¬ Spec.Lost r).length = ((rs.filter fun r => ¬ Spec.Lost r).map (·.cumulative)).sum) ∧
      (∀ m, row.twrFinished = some m →
        m * (rs.filter fun r => ¬ Spec.Lost r).length = ((rs.filter fun r => ¬ Spec.Lost r).map (·.twr)).sum ∧ 0 ≤ m ∧ m ≤ 1) := by
  obtain ⟨-, hseeds, hrep⟩ := C62_results _ _ _ _ _ _ _ _ _ _ h
  have hflags := C62_flags c A suite period paths v v' s s' rs h
  have hlen : rs.length = suite.seeds.length := by rw [← hseeds, List.length_map]
  have hrs : rs ≠ [] := by
    intro e; rw [e] at hseeds; exact hne hseeds.symm
  have htwr : ∀ r ∈ rs, 0 ≤ r.twr ∧ r.twr ≤ 1 := by
    intro r hr
    obtain ⟨t, -, -, -, -, -, h0, h1, -⟩ := hrep r hr
    exact ⟨h0, h1⟩
  have hnone : ∀ f : EvalResult → ℝ, seriesMean ((rs.filter fun r => ¬ Spec.Lost r).map f) = none ↔ ∀ r ∈ rs, Spec.Lost r := by
    intro f
    rw [mean_none, List.map_eq_nil_iff, List.filter_eq_nil_iff]
    simp
  refine ⟨_, by unfold summaryRow; rw [if_neg hrs], hlen, ?_, ?_, ?_, ?_, ?_, ?_, ?_, ?_⟩
  · show _ + rs.countP _ + rs.countP _ + rs.countP _ = rs.length
    have : ∀ l : List EvalResult, (∀ r ∈ l, r ∈ rs) → (l.filter fun r => ¬ Spec.Lost r).length + l.countP (·.outOfPower) +
        l.countP (·.zeropressure) + l.countP (·.envelopeBurst) = l.length := by
      intro l
      induction l with
      | nil => intro _; simp
      | cons r l ih =>
        intro hl
        have i := ih fun r hr => hl r (List.mem_cons_of_mem _ hr)
        rw [List.filter_cons, List.countP_cons, List.countP_cons, List.countP_cons, List.length_cons]
        rcases hflags r (hl r (by simp)) with ⟨a, b, d, -⟩ | ⟨a, b, d⟩ | ⟨a, b, d⟩ | ⟨a, b, d⟩
        · have hL : ¬ Spec.Lost r := by unfold Spec.Lost; simp [a, b, d]
          rw [if_pos (by simpa using hL)]
          simp only [a, b, d, List.length_cons, Bool.false_eq_true, if_false]
          omega
        · have hL : Spec.Lost r := Or.inl a
          rw [if_neg (by simpa using hL)]
          simp only [a, b, d, Bool.false_eq_true, if_false, if_true]
          omega
        · have hL : Spec.Lost r := Or.inr (Or.inr b)
          rw [if_neg (by simpa using hL)]
          simp only [a, b, d, Bool.false_eq_true, if_false, if_true]
          omega
        · have hL : Spec.Lost r := Or.inr (Or.inl d)
          rw [if_neg (by simpa using hL)]
          simp only [a, b, d, Bool.false_eq_true, if_false, if_true]
          omega
    exact this rs fun _ h => h
  · intro r hr hl
    unfold Spec.Lost at hl
    rcases hflags r hr with ⟨-, -, -, d⟩ | ⟨a, b, d⟩ | ⟨a, b, d⟩ | ⟨a, b, d⟩
    · exact d
    · exact absurd (Or.inl a) hl
    · exact absurd (Or.inr (Or.inr b)) hl
    · exact absurd (Or.inr (Or.inl d)) hl
  · cases e : seriesMean (rs.map (·.cumulative)) with
    | none => rw [mean_none, List.map_eq_nil_iff] at e; exact absurd e hrs
    | some m => exact ⟨m, rfl, by simpa using (mean_sum _ m e).1⟩
  · cases e : seriesMean (rs.map (·.twr)) with
    | none => rw [mean_none, List.map_eq_nil_iff] at e; exact absurd e hrs
    | some m =>
      refine ⟨m, rfl, by simpa using (mean_sum _ m e).1, mean_between _ m 0 1 e fun x hx => ?_⟩
      obtain ⟨r, hr, rfl⟩ := List.mem_map.1 hx
      exact htwr r hr
  · show seriesMean _ = none ↔ _
    rw [finishedRuns_eq]; exact hnone _
  · show seriesMean _ = none ↔ _
    rw [finishedRuns_eq]; exact hnone _
  · intro m hm
    change seriesMean _ = some m at hm
    rw [finishedRuns_eq] at hm
    have := (mean_sum _ m hm).1
    rwa [List.length_map] at this
  · intro m hm
    change seriesMean _ = some m at hm
    rw [finishedRuns_eq] at hm
    have := (mean_sum _ m hm).1
    rw [List.length_map] at this
    refine ⟨this, mean_between _ m 0 1 hm fun x hx => ?_⟩
    obtain ⟨r, hr, rfl⟩ := List.mem_map.1 hx
    exact htwr r (List.mem_of_mem_filter hr)

/-! ## Shards -/

/-- A result without its flight path. -/
def Spec.pathless (r : EvalResult) : EvalResult := { r with path := [] }

theorem seriesMean_perm {l l' : List ℝ} (h : l.Perm l') : seriesMean l = seriesMean l' := by
  unfold seriesMean
  rw [h.sum_eq, h.length_eq]
  by_cases e : l = []
  · subst e
    rw [List.nil_perm.1 h]
  · have : l' ≠ [] := fun c => e (List.perm_nil.1 (c ▸ h))
    rw [if_neg e, if_neg this]

theorem summaryRow_perm {l l' : List EvalResult} (h : l.Perm l') : summaryRow l = summaryRow l' := by
  unfold summaryRow
  by_cases e : l = []
  · subst e
    rw [List.nil_perm.1 h]
  · have e' : l' ≠ [] := fun c => e (List.perm_nil.1 (c ▸ h))
    have hf : (finishedRuns l).Perm (finishedRuns l') := ((h.filter _).filter _).filter _
    rw [if_neg e, if_neg e', h.length_eq, h.countP_eq, h.countP_eq, h.countP_eq, seriesMean_perm (hf.map _),
      seriesMean_perm (hf.map fun r => r.twr), seriesMean_perm (h.map _), seriesMean_perm (h.map fun r => r.twr)]

theorem summaryRow_pathless (l : List EvalResult) : summaryRow (l.map Spec.pathless) = summaryRow l := by
  unfold summaryRow
  by_cases e : l = []
  · subst e; rfl
  · have e' : l.map Spec.pathless ≠ [] := by simpa using e
    have hf : finishedRuns (l.map Spec.pathless) = (finishedRuns l).map Spec.pathless := by
      unfold finishedRuns
      rw [List.filter_map, List.filter_map, List.filter_map]
      rfl
    rw [if_neg e, if_neg e', hf, List.length_map, List.countP_map, List.countP_map, List.countP_map, List.map_map, List.map_map,
      List.map_map, List.map_map]
    rfl

/-- C163. The summary depends neither on the order of the results nor on whether flight paths were kept. -/
theorem C163_order (rs rs' : List EvalResult) (h : (rs.map Spec.pathless).Perm (rs'.map Spec.pathless)) :
    summaryRow rs = summaryRow rs' := by
  rw [← summaryRow_pathless rs, ← summaryRow_pathless rs', summaryRow_perm h]

/-- C163. So the summary of the combined shards of an evaluation, with or without flight paths, is that of the evaluation. -/
theorem C163_shards (name : Name) (n : ℕ) (hn : 1 < n) (rss : ℕ → List EvalResult) (order : List ℕ)
    (horder : order.Perm (List.range n)) (d : Dir) (hd : ∀ f ∈ d, ¬ ∃ mid, f.1 = name ++ '_' :: mid ++ ".json".toList)
    (flightPaths : Bool) (hs : ((List.range n).flatMap rss).Pairwise (fun a b => a.seed < b.seed)) (out : List EvalResult)
    (hout : (name ++ ".json".toList, out) ∈
      combine name flightPaths (order.foldl (fun d i => d.write (resultFile name i n) (rss i)) d)) :
    summaryRow out = summaryRow ((List.range n).flatMap rss) := by
  rw [((C64_combine_partial name n hn rss order horder d hd flightPaths hs).1 out).1 hout]
  refine C163_order _ _ ?_
  rw [List.map_map]
  refine List.Perm.of_eq (List.map_congr_left fun r _ => ?_)
  cases flightPaths <;> rfl

theorem finishedRuns_append (rs rs' : List EvalResult) : finishedRuns (rs ++ rs') = finishedRuns rs ++ finishedRuns rs' := by
  unfold finishedRuns
  simp only [List.filter_append]

/-- C163. Pooling two sets of results adds their counts, and weights their means by the numbers of flights. -/
theorem C163_pooled (rs rs' : List EvalResult) (row row' pooled : SummaryRow) (h : summaryRow rs = .ok row)
    (h' : summaryRow rs' = .ok row') (hp : summaryRow (rs ++ rs') = .ok pooled) :
    pooled.episodes = row.episodes + row'.episodes ∧ pooled.outOfPower = row.outOfPower + row'.outOfPower ∧
    pooled.zeropressure = row.zeropressure + row'.zeropressure ∧ pooled.envelopeBurst = row.envelopeBurst + row'.envelopeBurst ∧
    ∀ m m' M, row.twrAll = some m → row'.twrAll = some m' → pooled.twrAll = some M →
      M * (row.episodes + row'.episodes : ℕ) = m * row.episodes + m' * row'.episodes := by
  unfold summaryRow at h h' hp
  split at h
  · cases h
  split at h'
  · cases h'
  split at hp
  · cases hp
  cases h; cases h'; cases hp
  refine ⟨List.length_append, List.countP_append, List.countP_append, List.countP_append, fun m m' M a b c => ?_⟩
  have e1 := (mean_sum _ m a).1
  have e2 := (mean_sum _ m' b).1
  have e3 := (mean_sum _ M c).1
  simp only [List.length_map, List.map_append, List.length_append, List.sum_append] at e1 e2 e3 ⊢
  rw [e1, e2, e3]

/-! ## The table -/

/-- `k` is the file name `n` without its last extension. -/
def Spec.Stem (n k : Name) : Prop := (∃ ext, n = k ++ '.' :: ext ∧ '.' ∉ ext) ∨ ('.' ∉ n ∧ k = n)

theorem drop_suffix (r : Name) (ext : Name) (h : '.' ∉ ext) :
    ((ext ++ '.' :: r).dropWhile (· ≠ '.')) = '.' :: r := by
  induction ext with
  | nil => simp
  | cons c ext ih =>
    simp only [List.mem_cons, not_or] at h
    have hc : c ≠ '.' := fun e => h.1 e.symm
    rw [List.cons_append, List.dropWhile_cons, if_pos (by simpa using hc)]
    exact ih h.2

theorem last_dot (n : Name) (h : '.' ∈ n) : ∃ k ext, n = k ++ '.' :: ext ∧ '.' ∉ ext := by
  induction n with
  | nil => simp at h
  | cons c n ih =>
    by_cases hn : '.' ∈ n
    · obtain ⟨k, ext, e, hx⟩ := ih hn
      exact ⟨c :: k, ext, by rw [e, List.cons_append], hx⟩
    · rcases List.mem_cons.1 h with e | e
      · exact ⟨[], n, by rw [e, List.nil_append], hn⟩
      · exact absurd e hn

theorem fileStem_ext (k ext : Name) (h : '.' ∉ ext) : fileStem (k ++ '.' :: ext) = k := by
  unfold fileStem
  rw [if_pos (by simp)]
  have e : (k ++ '.' :: ext).reverse = ext.reverse ++ '.' :: k.reverse := by simp
  rw [e, drop_suffix _ _ (by simpa using h)]
  simp

theorem fileStem_iff (n k : Name) : fileStem n = k ↔ Spec.Stem n k := by
  constructor
  · rintro rfl
    by_cases h : '.' ∈ n
    · obtain ⟨k, ext, e, hx⟩ := last_dot n h
      refine Or.inl ⟨ext, ?_, hx⟩
      rw [e, fileStem_ext k ext hx]
    · refine Or.inr ⟨h, ?_⟩
      unfold fileStem; rw [if_neg h]
  · rintro (⟨ext, rfl, hx⟩ | ⟨h, rfl⟩)
    · exact fileStem_ext k ext hx
    · unfold fileStem; rw [if_neg h]

/-- `rs` was uploaded under the label `k`, and nothing after it under the same label. -/
def Spec.LastUpload (uploads : List (Name × List EvalResult)) (k : Name) (rs : List EvalResult) : Prop :=
  ∃ before n later, uploads = before ++ (n, rs) :: later ∧ Spec.Stem n k ∧ ∀ u ∈ later, ¬ Spec.Stem u.1 k

theorem dictAssign_mem {β : Type} (d : List (Name × β)) (k : Name) (v : β) (e : Name × β) :
    e ∈ dictAssign d k v ↔ e = (k, v) ∨ (e ∈ d ∧ e.1 ≠ k) := by
  unfold dictAssign
  split
  · rename_i hk
    obtain ⟨e0, h0, hk0⟩ := List.mem_map.1 hk
    rw [List.mem_map]
    constructor
    · rintro ⟨a, ha, rfl⟩
      by_cases hc : a.1 = k
      · rw [if_pos hc]; exact Or.inl rfl
      · rw [if_neg hc]; exact Or.inr ⟨ha, hc⟩
    · rintro (rfl | ⟨h1, h2⟩)
      · exact ⟨e0, h0, by rw [if_pos hk0]⟩
      · exact ⟨e, h1, by rw [if_neg h2]⟩
  · rename_i hk
    rw [List.mem_append, List.mem_singleton]
    constructor
    · rintro (h | h)
      · refine Or.inr ⟨h, fun c => hk (c ▸ List.mem_map_of_mem h)⟩
      · exact Or.inl h
    · rintro (h | ⟨h, -⟩)
      · exact Or.inr h
      · exact Or.inl h

theorem dictAssign_keys {β : Type} (d : List (Name × β)) (k : Name) (v : β) :
    (dictAssign d k v).map (·.1) = if k ∈ d.map (·.1) then d.map (·.1) else d.map (·.1) ++ [k] := by
  unfold dictAssign
  split
  · rw [List.map_map]
    refine List.map_congr_left fun e _ => ?_
    simp only [Function.comp]
    split
    · rename_i h; exact h.symm
    · rfl
  · simp

theorem dataframes_append (ups : List (Name × List EvalResult)) (u : Name × List EvalResult) :
    dataframes (ups ++ [u]) = dictAssign (dataframes ups) (fileStem u.1) u.2 := by
  unfold dataframes; rw [List.foldl_append]; rfl

theorem dataframes_nodup (ups : List (Name × List EvalResult)) : ((dataframes ups).map (·.1)).Nodup := by
  induction ups using List.reverseRecOn with
  | nil => exact List.nodup_nil
  | append_singleton ups u ih =>
    rw [dataframes_append, dictAssign_keys]
    split
    · exact ih
    · rename_i h
      rw [List.nodup_append]
      refine ⟨ih, List.nodup_singleton _, fun a ha b hb => ?_⟩
      rw [List.mem_singleton] at hb
      rintro rfl
      exact h (hb ▸ ha)

theorem dataframes_mem (ups : List (Name × List EvalResult)) (k : Name) (rs : List EvalResult) :
    (k, rs) ∈ dataframes ups ↔ Spec.LastUpload ups k rs := by
  induction ups using List.reverseRecOn with
  | nil =>
    constructor
    · intro h; cases h
    · rintro ⟨b, n, l, h, -⟩
      have := congrArg List.length h
      simp at this
  | append_singleton ups u ih =>
    rw [dataframes_append, dictAssign_mem]
    constructor
    · rintro (h | ⟨h, hk⟩)
      · obtain ⟨h1, h2⟩ := Prod.mk.inj h
        refine ⟨ups, u.1, [], ?_, (fileStem_iff _ _).1 h1.symm, fun _ h => by cases h⟩
        rw [h2]
      · obtain ⟨b, n, l, e, hs, hl⟩ := ih.1 h
        refine ⟨b, n, l ++ [u], by rw [e]; simp, hs, fun w hw => ?_⟩
        rcases List.mem_append.1 hw with hw | hw
        · exact hl w hw
        · rw [List.mem_singleton] at hw
          subst hw
          exact fun c => hk ((fileStem_iff _ _).2 c).symm
    · rintro ⟨b, n, l, e, hs, hl⟩
      rcases List.eq_nil_or_concat l with rfl | ⟨l', w, rfl⟩
      · obtain ⟨-, h2⟩ := List.append_inj' e rfl
        obtain rfl := (List.cons.inj h2).1
        left
        rw [(fileStem_iff _ _).2 hs]
      · have e' : ups ++ [u] = (b ++ (n, rs) :: l') ++ [w] := by rw [e]; simp
        obtain ⟨h1, h2⟩ := List.append_inj' e' rfl
        obtain rfl := (List.cons.inj h2).1
        right
        refine ⟨ih.2 ⟨b, n, l', h1, hs, fun x hx => hl x (by simp [hx])⟩, fun c => ?_⟩
        exact hl u (by simp) ((fileStem_iff _ _).1 c.symm)

theorem rows_mapM (l : List (Name × List EvalResult)) (hl : ∀ e ∈ l, e.2 ≠ []) :
    ∃ table : List (Name × SummaryRow), (l.mapM fun e => do
        let row ← summaryRow e.2
        return (e.1, row)) = Except.ok table ∧ table.map (·.1) = l.map (·.1) ∧
      ∀ k row, (k, row) ∈ table ↔ ∃ rs, (k, rs) ∈ l ∧ summaryRow rs = .ok row := by
  induction l with
  | nil => exact ⟨[], rfl, rfl, by simp⟩
  | cons e l ih =>
    obtain ⟨table, h1, h2, h3⟩ := ih fun x hx => hl x (List.mem_cons_of_mem _ hx)
    obtain ⟨row0, h0⟩ : ∃ row, summaryRow e.2 = .ok row := by
      unfold summaryRow; rw [if_neg (hl e (by simp))]; exact ⟨_, rfl⟩
    refine ⟨(e.1, row0) :: table, ?_, by simp [h2], fun k row => ?_⟩
    · rw [List.mapM_cons, h1, h0]; rfl
    · rw [List.mem_cons, h3]
      constructor
      · rintro (h | ⟨rs, h, hr⟩)
        · obtain ⟨rfl, rfl⟩ := Prod.mk.inj h
          exact ⟨e.2, by simp, h0⟩
        · exact ⟨rs, List.mem_cons_of_mem _ h, hr⟩
      · rintro ⟨rs, h, hr⟩
        rcases List.mem_cons.1 h with h | h
        · subst h
          rw [h0] at hr
          exact Or.inl (by rw [Except.ok.inj hr])
        · exact Or.inr ⟨rs, h, hr⟩

theorem rows_empty (l : List (Name × List EvalResult)) (e : Name × List EvalResult) (he : e ∈ l) (hn : e.2 = []) :
    (l.mapM fun e => do
        let row ← summaryRow e.2
        return (e.1, row) : Except Err (List (Name × SummaryRow))) = .error .attribute := by
  induction l with
  | nil => cases he
  | cons x l ih =>
    rw [List.mapM_cons]
    by_cases hx : x.2 = []
    · have : summaryRow x.2 = .error .attribute := by unfold summaryRow; rw [if_pos hx]
      rw [this]; rfl
    · have h0 : ∃ row, summaryRow x.2 = .ok row := by unfold summaryRow; rw [if_neg hx]; exact ⟨_, rfl⟩
      obtain ⟨row, h0⟩ := h0
      rcases List.mem_cons.1 he with rfl | he
      · exact absurd hn hx
      · rw [h0, ih he]; rfl

/-- C163. The table has one row for every label, that is for every file name without its last extension, and it shows the results
uploaded last under that label; the table is not made if the file shown last under a label has no results. -/
theorem C163_table (uploads : List (Name × List EvalResult)) :
    ((∀ k, ¬ Spec.LastUpload uploads k []) →
      ∃ table, summaryTable uploads = .ok table ∧ (table.map (·.1)).Nodup ∧
        ∀ k row, (k, row) ∈ table ↔ ∃ rs, Spec.LastUpload uploads k rs ∧ summaryRow rs = .ok row) ∧
    ((∃ k, Spec.LastUpload uploads k []) → summaryTable uploads = .error .attribute) := by
  constructor
  · intro h
    obtain ⟨table, h1, h2, h3⟩ := rows_mapM (dataframes uploads) fun e he c => h e.1 (by
      rw [← dataframes_mem, ← c]; exact he)
    refine ⟨table, h1, by rw [h2]; exact dataframes_nodup uploads, fun k row => ?_⟩
    rw [h3]
    simp only [dataframes_mem]
  · rintro ⟨k, hk⟩
    exact rows_empty _ (k, []) ((dataframes_mem _ _ _).2 hk) rfl

/-- The result file of an agent is labelled with the agent's name. -/
theorem C163_label (name : Name) : Spec.Stem (name ++ ".json".toList) name :=
  Or.inl ⟨"json".toList, rfl, by decide⟩

/-- Two flights, one of which ran out of power: the row. -/
example : summaryRow
    [{ seed := 1, cumulative := 600, twr := 3 / 4, outOfPower := false, envelopeBurst := false, zeropressure := false, finalStep := 960,
       path := [] },
     { seed := 2, cumulative := 200, twr := 1 / 4, outOfPower := true, envelopeBurst := false, zeropressure := false, finalStep := 300,
       path := [] }] = .ok
    { episodes := 2, outOfPower := 1, zeropressure := 0, envelopeBurst := 0, rewardFinished := some 600, twrFinished := some (3 / 4),
      rewardAll := some 400, twrAll := some (1 / 2) } := by
  simp [summaryRow, seriesMean, finishedRuns]
  norm_num

/-- A second upload of `random.json`, or of `random.txt`, replaces the first: the first is not shown. -/
example (rs rs' : List EvalResult) (h : rs ≠ rs') :
    Spec.LastUpload [("random.json".toList, rs), ("random.txt".toList, rs')] "random".toList rs' ∧
    ¬ Spec.LastUpload [("random.json".toList, rs), ("random.txt".toList, rs')] "random".toList rs := by
  have e : dataframes [("random.json".toList, rs), ("random.txt".toList, rs')] = [("random".toList, rs')] := by
    simp [dataframes, dictAssign, fileStem]
  rw [← dataframes_mem, ← dataframes_mem, e]
  simp [h]

end BLE
