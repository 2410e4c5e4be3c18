import Verif.Model.Features
import Verif.Props.PressureRange
import Verif.Props.WindGP
import Verif.Props.Units
import Verif.Props.SolarSearch

/-!
# Filling the feature vector
-/

namespace BLE

/-- Consecutive writes starting at `i`. -/
def enumW : ℕ → List ℝ → List (ℕ × ℝ)
  | _, [] => []
  | i, x :: xs => (i, x) :: enumW (i + 1) xs

theorem enumW_append (i : ℕ) (xs ys : List ℝ) : enumW i (xs ++ ys) = enumW i xs ++ enumW (i + xs.length) ys := by
  induction xs generalizing i with
  | nil => simp [enumW]
  | cons x xs ih =>
    simp only [List.cons_append, enumW, List.length_cons, ih]
    rw [show i + 1 + xs.length = i + (xs.length + 1) by omega]

theorem enumW_fst (i : ℕ) (xs : List ℝ) : (enumW i xs).map (·.1) = List.range' i xs.length := by
  induction xs generalizing i with
  | nil => simp [enumW]
  | cons x xs ih => simp [enumW, ih, List.range'_succ]

theorem enumW_find (i : ℕ) (xs : List ℝ) (j : ℕ) :
    ((enumW i xs).reverse.find? fun w => decide (w.1 = j)) =
      if h : i ≤ j ∧ j - i < xs.length then some (j, xs[j - i]'h.2) else none := by
  induction xs generalizing i with
  | nil => simp [enumW]
  | cons x xs ih =>
    simp only [enumW, List.reverse_cons, List.find?_append, ih (i + 1)]
    rcases Nat.lt_trichotomy i j with h | h | h
    · by_cases hl : j - i < (x :: xs).length
      · have h1 : i + 1 ≤ j ∧ j - (i + 1) < xs.length := ⟨h, by simp at hl; omega⟩
        have h2 : i ≤ j ∧ j - i < (x :: xs).length := ⟨h.le, hl⟩
        rw [dif_pos h1, dif_pos h2]
        have : j - i = (j - (i + 1)) + 1 := by omega
        simp [this]
      · have h1 : ¬ (i + 1 ≤ j ∧ j - (i + 1) < xs.length) := by
          simp at hl; omega
        have h2 : ¬ (i ≤ j ∧ j - i < (x :: xs).length) := by tauto
        rw [dif_neg h1, dif_neg h2]
        simp; omega
    · subst h
      have h1 : ¬ (i + 1 ≤ i ∧ i - (i + 1) < xs.length) := by omega
      rw [dif_neg h1, dif_pos (by simp)]
      simp
    · have h1 : ¬ (i + 1 ≤ j ∧ j - (i + 1) < xs.length) := by omega
      have h2 : ¬ (i ≤ j ∧ j - i < (x :: xs).length) := by omega
      rw [dif_neg h1, dif_neg h2]
      simp; omega

/-- An array whose entries have been written one after the other holds what was written. -/
theorem toList_enumW (xs : List ℝ) : Buf.toList ⟨xs.length, enumW 0 xs⟩ = xs := by
  unfold Buf.toList
  apply List.ext_getElem
  · simp
  · intro j h1 h2
    simp only [List.getElem_map, List.getElem_range, Buf.get]
    rw [enumW_find, dif_pos ⟨Nat.zero_le _, by simpa using h2⟩]
    simp

theorem set_ok {b : Buf} {i : ℕ} (x : ℝ) (h : i < b.len) : b.set i x = .ok ⟨b.len, b.writes ++ [(i, x)]⟩ := by
  unfold Buf.set; rw [if_pos h]

/-- Entries of `n` unreachable levels. -/
def unreachables (n : ℕ) : List ℝ := (List.replicate n [0, 1, 1]).flatten

theorem unreachables_length (n : ℕ) : (unreachables n).length = 3 * n := by
  unfold unreachables; simp [mul_comm]

theorem addUnreachable_ok (n : ℕ) (b : Buf) (i : ℕ) (h : i + 3 * n ≤ b.len) :
    addUnreachable n b i = .ok (⟨b.len, b.writes ++ enumW i (unreachables n)⟩, i + 3 * n) := by
  induction n generalizing b i with
  | zero => simp [addUnreachable, unreachables, enumW]
  | succ n ih =>
    unfold addUnreachable Buf.set3
    rw [if_pos (by omega)]
    simp only [bind, Except.bind]
    rw [ih _ _ (by simp only; omega)]
    simp only [unreachables, List.replicate_succ, List.flatten_cons, enumW_append, enumW, List.append_assoc]
    simp only [List.cons_append, List.nil_append, List.length_cons, List.length_nil]
    congr 2
    omega

/-- Entries of an absolute level. -/
noncomputable def levelEntries (r : PressureRange) (devs angles mags : List ℝ) (l : ℕ) : List ℝ :=
  if pressureLevel l < r.lo ∨ pressureLevel l > r.hi then [0, 1, 1]
  else [devs.getD l 0, angles.getD l 0, mags.getD l 0]

theorem levelEntries_length (r : PressureRange) (devs angles mags : List ℝ) (l : ℕ) :
    (levelEntries r devs angles mags l).length = 3 := by
  unfold levelEntries; split_ifs <;> rfl

theorem flatMap_length3 (f : ℕ → List ℝ) (hf : ∀ l, (f l).length = 3) (ls : List ℕ) :
    (ls.flatMap f).length = 3 * ls.length := by
  induction ls with
  | nil => rfl
  | cons l ls ih => simp only [List.flatMap_cons, List.length_append, hf, ih, List.length_cons]; omega

theorem arrayGet_some {xs : List ℝ} {i : ℕ} (h : i < xs.length) : arrayGet xs i = .ok (xs.getD i 0) := by
  unfold arrayGet
  simp [List.getElem?_eq_getElem h, List.getD]

theorem levelLoop_ok (r : PressureRange) (devs angles mags : List ℝ) (ls : List ℕ) (b : Buf) (i : ℕ)
    (hfit : i + 3 * ls.length ≤ b.len)
    (h : ∀ l ∈ ls, ¬ (pressureLevel l < r.lo ∨ pressureLevel l > r.hi) →
      (l < devs.length ∧ l < angles.length ∧ l < mags.length) ∧ 0 ≤ devs.getD l 0 ∧ devs.getD l 0 ≤ 1.00001) :
    levelLoop r devs angles mags ls b i =
      .ok (⟨b.len, b.writes ++ enumW i (ls.flatMap (levelEntries r devs angles mags))⟩, i + 3 * ls.length) := by
  induction ls generalizing b i with
  | nil => simp [levelLoop, enumW]
  | cons l ls ih =>
    simp only [List.length_cons] at hfit
    unfold levelLoop
    have ihs := fun b i hf => ih b i hf (fun l hl => h l (List.mem_cons_of_mem _ hl))
    by_cases hu : pressureLevel l < r.lo ∨ pressureLevel l > r.hi
    · rw [if_pos hu, addUnreachable_ok _ _ _ (by omega)]
      simp only [bind, Except.bind]
      rw [ihs _ _ (by simp only; omega)]
      simp only [List.flatMap_cons, enumW_append, levelEntries_length, List.append_assoc, List.length_cons]
      have : levelEntries r devs angles mags l = unreachables 1 := by
        unfold levelEntries; rw [if_pos hu]; rfl
      rw [this]
      congr 2
      omega
    · rw [if_neg hu]
      obtain ⟨⟨h1, h2, h3⟩, h4, h5⟩ := h l List.mem_cons_self hu
      rw [arrayGet_some h1, arrayGet_some h2, arrayGet_some h3]
      simp only [bind, Except.bind]
      rw [if_neg (not_not.2 ⟨h4, h5⟩)]
      rw [set_ok _ (by omega)]
      simp only
      rw [set_ok _ (by simp only; omega)]
      simp only
      rw [set_ok _ (by simp only; omega)]
      simp only
      rw [ihs _ _ (by simp only; omega)]
      simp only [List.flatMap_cons, enumW_append, levelEntries_length, List.length_cons]
      have : levelEntries r devs angles mags l = [devs.getD l 0, angles.getD l 0, mags.getD l 0] := by
        unfold levelEntries; rw [if_neg hu]
      rw [this]
      simp only [enumW, List.append_assoc, List.cons_append, List.nil_append]
      congr 2
      omega

/-- Conversely, if the loop succeeds then its entries were available and in range. -/
theorem levelLoop_inv (r : PressureRange) (devs angles mags : List ℝ) (ls : List ℕ) (b : Buf) (i : ℕ) (o : Buf × ℕ)
    (ho : levelLoop r devs angles mags ls b i = .ok o) :
    ∀ l ∈ ls, ¬ (pressureLevel l < r.lo ∨ pressureLevel l > r.hi) →
      (l < devs.length ∧ l < angles.length ∧ l < mags.length) ∧ 0 ≤ devs.getD l 0 ∧ devs.getD l 0 ≤ 1.00001 := by
  have key : ∀ (xs : List ℝ) (i : ℕ) (x : ℝ), arrayGet xs i = .ok x → i < xs.length ∧ xs.getD i 0 = x := by
    intro xs i x h
    unfold arrayGet at h
    rcases Nat.lt_or_ge i xs.length with hl | hl
    · rw [List.getElem?_eq_getElem hl] at h
      injection h with h
      exact ⟨hl, by simp [List.getD, List.getElem?_eq_getElem hl, h]⟩
    · rw [List.getElem?_eq_none hl] at h; cases h
  induction ls generalizing b i with
  | nil => simp
  | cons l ls ih =>
    unfold levelLoop at ho
    by_cases hu : pressureLevel l < r.lo ∨ pressureLevel l > r.hi
    · rw [if_pos hu] at ho
      simp only [bind, Except.bind] at ho
      split at ho
      · cases ho
      · have := ih _ _ ho
        intro l' hl' hn
        rcases List.mem_cons.1 hl' with rfl | hl'
        · exact absurd hu hn
        · exact this l' hl' hn
    · rw [if_neg hu] at ho
      simp only [bind, Except.bind] at ho
      cases hd : arrayGet devs l with
      | error e => rw [hd] at ho; cases ho
      | ok d =>
        rw [hd] at ho
        simp only at ho
        by_cases hr : 0 ≤ d ∧ d ≤ 1.00001
        · rw [if_neg (not_not.2 hr)] at ho
          cases hs1 : b.set i d with
          | error e => rw [hs1] at ho; cases ho
          | ok b1 =>
            rw [hs1] at ho; simp only at ho
            cases ha : arrayGet angles l with
            | error e => rw [ha] at ho; cases ho
            | ok a =>
              rw [ha] at ho; simp only at ho
              cases hs2 : b1.set (i + 1) a with
              | error e => rw [hs2] at ho; cases ho
              | ok b2 =>
                rw [hs2] at ho; simp only at ho
                cases hm : arrayGet mags l with
                | error e => rw [hm] at ho; cases ho
                | ok m =>
                  rw [hm] at ho; simp only at ho
                  cases hs3 : b2.set (i + 2) m with
                  | error e => rw [hs3] at ho; cases ho
                  | ok b3 =>
                    rw [hs3] at ho; simp only at ho
                    have := ih _ _ ho
                    intro l' hl' hn
                    rcases List.mem_cons.1 hl' with rfl | hl'
                    · obtain ⟨k1, k2⟩ := key _ _ _ hd
                      exact ⟨⟨k1, (key _ _ _ ha).1, (key _ _ _ hm).1⟩, by rw [k2]; exact hr.1, by rw [k2]; exact hr.2⟩
                    · exact this l' hl' hn
        · rw [if_pos hr] at ho
          cases ho

theorem pressureLevel_eq (i : ℕ) : pressureLevel i = 5000 + 50 * i := by
  unfold pressureLevel linspace; push_cast; ring

/-! ## Ambient features -/

/-- The sixteen ambient values of a state, given the fallible ones. -/
noncomputable def ambientValues (s : BState) (f0 soc f2 st f7 f14 : ℝ) (ex : Bool) : List ℝ :=
  [f0, soc, f2, Real.sin st, Real.cos st, Real.sin (atan2 (-(s.x / 1000)) (-(s.y / 1000))),
    Real.cos (atan2 (-(s.x / 1000)) (-(s.y / 1000))), f7, floatOf (s.lastCommand = .up),
    floatOf (s.lastCommand = .stay), floatOf (s.lastCommand = .down), floatOf s.navPaused, floatOf (!s.navPaused),
    floatOf ex, f14, s.pressureRatio]

/-- What goes into the ambient features. -/
structure AmbientParts (sun : Sun) (s : BState) where
  f0 : ℝ
  soc : ℝ
  f2 : ℝ
  st : ℝ
  f7 : ℝ
  f14 : ℝ
  ex : Bool
  pw : ℝ
  h0 : rescaleSat s.pressure 5000 14000 = .ok f0
  hsoc : s.soc = .ok soc
  h2 : rescaleSat (sun s.latlng s.dateTime).el (-90) 90 = .ok f2
  hst : computeSunriseTime sun s = .ok st
  hst0 : 0 ≤ st
  hst1 : st ≤ 2 * Real.pi + 1e-6
  h7 : squash (relativeDistance s.x s.y / 1000) 250 = .ok f7
  hex : s.excessEnergy sun = .ok ex
  hpw : powerLookup s.pressureRatio soc = .ok pw
  h14 : rescaleSat pw 100 300 = .ok f14

/-- The values of the parts. -/
noncomputable def AmbientParts.values {sun : Sun} {s : BState} (A : AmbientParts sun s) : List ℝ :=
  ambientValues s A.f0 A.soc A.f2 A.st A.f7 A.f14 A.ex

theorem addAmbient_of (sun : Sun) (s : BState) (A : AmbientParts sun s) (n : ℕ) (hn : 16 ≤ n) :
    addAmbient sun s (Buf.zeros n) = .ok ⟨n, enumW 0 A.values⟩ := by
  unfold addAmbient Buf.zeros
  simp only [bind, Except.bind, A.h0, A.hsoc, A.h2, A.hst, A.h7, A.hex, A.hpw, A.h14]
  simp only [not_not.2 (And.intro A.hst0 A.hst1), if_false]
  rw [set_ok _ (by simp only; omega)]
  simp only
  repeat (rw [set_ok _ (by simp only; omega)]; simp only)
  simp only [List.nil_append, List.cons_append, AmbientParts.values, ambientValues, enumW]

theorem addAmbient_inv (sun : Sun) (s : BState) (b o : Buf) (h : addAmbient sun s b = .ok o) :
    Nonempty (AmbientParts sun s) := by
  unfold addAmbient at h
  simp only [bind, Except.bind] at h
  cases h0 : rescaleSat s.pressure 5000 14000 with
  | error e => rw [h0] at h; cases h
  | ok f0 =>
  rw [h0] at h; simp only at h
  split at h
  · cases h
  cases hsoc : s.soc with
  | error e => rw [hsoc] at h; cases h
  | ok soc =>
  rw [hsoc] at h; simp only at h
  split at h
  · cases h
  cases h2 : rescaleSat (sun s.latlng s.dateTime).el (-90) 90 with
  | error e => rw [h2] at h; cases h
  | ok f2 =>
  rw [h2] at h; simp only at h
  split at h
  · cases h
  cases hst : computeSunriseTime sun s with
  | error e => rw [hst] at h; cases h
  | ok st =>
  rw [hst] at h; simp only at h
  by_cases hr : 0 ≤ st ∧ st ≤ 2 * Real.pi + 1e-6
  swap
  · rw [if_pos hr] at h; cases h
  rw [if_neg (not_not.2 hr)] at h
  split at h
  · cases h
  split at h
  · cases h
  split at h
  · cases h
  split at h
  · cases h
  cases h7 : squash (relativeDistance s.x s.y / 1000) 250 with
  | error e => rw [h7] at h; cases h
  | ok f7 =>
  rw [h7] at h; simp only at h
  split at h
  · cases h
  split at h
  · cases h
  split at h
  · cases h
  split at h
  · cases h
  split at h
  · cases h
  split at h
  · cases h
  cases hex : s.excessEnergy sun with
  | error e => rw [hex] at h; cases h
  | ok ex =>
  rw [hex] at h; simp only at h
  split at h
  · cases h
  cases hpw : powerLookup s.pressureRatio soc with
  | error e => rw [hpw] at h; cases h
  | ok pw =>
  rw [hpw] at h; simp only at h
  cases h14 : rescaleSat pw 100 300 with
  | error e => rw [h14] at h; cases h
  | ok f14 =>
  exact ⟨⟨f0, soc, f2, st, f7, f14, ex, pw, h0, hsoc, h2, hst, hr.1, hr.2, h7, hex, hpw, h14⟩⟩

end BLE
