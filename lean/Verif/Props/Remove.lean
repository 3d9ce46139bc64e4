import Verif.Props.AddGradients

/-!
# C40, C49: removing gradients, setting the eclipse parameters
-/

set_option linter.unusedSectionVars false

namespace Beyonce
open Spec

section
variable {K : Type} [Field K] [LinearOrder K] [IsStrictOrderedRing K] [RealFns K] [FloorRing K]

/-! ## C40 -/

/-- The elements at the other positions, in order. -/
def Spec.without {α : Type} (l : List α) (is : List ℕ) : List α :=
  (l.zipIdx.filter fun p => p.2 ∉ is).map Prod.fst

/-- Positions as a numpy array of integers. -/
def Spec.positions (is : List ℕ) : PyVal K := .arr ⟨"int64", [is.length], is.map fun i : ℕ => .fin (i : K)⟩

theorem keep_all {α : Type} (l : List α) (n : ℕ) (is : List ℕ) (h : ∀ i ∈ is, i < n) :
    ((l.zipIdx n).filter fun p => p.2 ∉ is).map Prod.fst = l := by
  have : (l.zipIdx n).filter (fun p => decide (p.2 ∉ is)) = l.zipIdx n := by
    rw [List.filter_eq_self]
    rintro ⟨x, i⟩ hx
    have h1 := List.le_snd_of_mem_zipIdx hx
    simp only [decide_eq_true_eq]
    intro hi
    have := h i hi
    simp only at h1
    omega
  rw [this]
  simp

theorem without_erase {α : Type} (l : List α) (j : ℕ) (js : List ℕ) (hj : j < l.length)
    (h : ∀ i ∈ js, i < j) : without (l.eraseIdx j) js = without l (j :: js) := by
  obtain ⟨a, x, b, rfl, rfl⟩ : ∃ a x b, l = a ++ x :: b ∧ a.length = j := by
    refine ⟨l.take j, l[j], l.drop (j + 1), ?_, by simp; omega⟩
    rw [List.getElem_cons_drop, List.take_append_drop]
  have e1 : (a ++ x :: b).eraseIdx a.length = a ++ b := by
    rw [List.eraseIdx_append_of_length_le le_rfl]; simp
  have k1 : ((a.zipIdx).filter fun p => decide (p.2 ∉ js)) =
      ((a.zipIdx).filter fun p => decide (p.2 ∉ a.length :: js)) := by
    apply List.filter_congr
    rintro ⟨y, i⟩ hy
    have := List.snd_lt_of_mem_zipIdx hy
    simp only [List.mem_cons, not_or] at this ⊢
    have h' : i ≠ a.length := by omega
    simp [h']
  have k2 := keep_all b a.length js h
  have k3 := keep_all b (a.length + 1) (a.length :: js) (by
    intro i hi
    rcases List.mem_cons.1 hi with rfl | hi
    · omega
    · have := h i hi; omega)
  unfold without
  rw [e1, List.zipIdx_append, List.zipIdx_append, List.zipIdx_cons, List.filter_append,
    List.filter_append, List.map_append, List.map_append, k1]
  congr 1
  simp only [Nat.zero_add]
  rw [List.filter_cons_of_neg (by simp), k2, k3]

theorem without_nil {α : Type} (l : List α) : without l [] = l := by
  unfold without
  exact keep_all l 0 [] (by simp)

theorem without_perm {α : Type} (l : List α) {is js : List ℕ} (h : is.Perm js) :
    without l is = without l js := by
  unfold without
  congr 1
  apply List.filter_congr
  intro p _
  simp only [h.mem_iff]

theorem removeLoop_eq : ∀ (js : List ℕ) (l : List (GGrad K)) (s : Shallot K),
    s.gradients = some l → js.Pairwise (· > ·) → (∀ j ∈ js, j < l.length) →
    Shallot.removeLoop (js.map fun j : ℕ => (j : ℤ)) s =
      (.ok (), { s with gradients := some (without l js) })
  | [], l, s, hs, _, _ => by
    rw [without_nil, ← hs]; rfl
  | j :: js, l, s, hs, hp, hlt => by
    rw [List.pairwise_cons] at hp
    have hj := hlt j (by simp)
    rw [List.map_cons]
    unfold Shallot.removeLoop
    rw [Meth.get_bind]
    simp only [hs, Option.getD_some]
    rw [if_pos ⟨by omega, by omega⟩, bind_ok _ _ _ _ () (Meth.set_apply _ _),
      removeLoop_eq js (l.eraseIdx j) _ (by simp) hp.2 (by
        intro i hi
        have := hp.1 i hi
        rw [List.length_eraseIdx_of_lt hj]
        omega),
      without_erase l j js hj (fun i hi => hp.1 i hi)]

theorem positions_ok (is : List ℕ) (n : ℕ) (h : ∀ i ∈ is, i < n) (hn : 0 < n) :
    array (positions is : PyVal K) (lower := .int 0) (upper := .int ((n : ℤ) - 1))
      (dtype := .str "int64") (numDimensions := .int 1) =
      .ok ⟨"int64", [is.length], is.map fun i : ℕ => .fin (i : K)⟩ := by
  have := C03_array_ok_iff false (positions is : PyVal K)
    ⟨"int64", [is.length], is.map fun i : ℕ => .fin (i : K)⟩ (some (.int 0)) (some (.int ((n : ℤ) - 1)))
    (some (.int 1)) (some "int64") (by simp) (by simp) (by simp)
  simp only [optArg, Option.map_some] at this
  refine this.2 ⟨rfl, ⟨fun _ => ⟨_, _, int_isNumber 0, int_isNumber _, ?_, ?_⟩, ?_, ?_⟩⟩
  · rw [less_iff]
    have : (1 : K) ≤ n := by exact_mod_cast hn
    simp only [XF.lt_fin, Bool.not_eq_true, decide_eq_false_iff_not, not_lt, Int.cast_sub,
      Int.cast_natCast, Int.cast_one, Int.cast_zero]
    linarith
  · intro x hx
    obtain ⟨i, hi, rfl⟩ := List.mem_map.1 hx
    have h2 : (i : K) + 1 ≤ n := by exact_mod_cast h i hi
    simp only [Violates, Bool.false_eq_true, if_false, not_or, less_iff]
    refine ⟨by simp, ?_⟩
    simp only [XF.lt_fin, Bool.not_eq_true, decide_eq_false_iff_not, not_lt, Int.cast_sub, Int.cast_natCast,
      Int.cast_one]
    linarith
  · rintro _ ⟨⟩
    exact ⟨1, .int 1, by simp⟩
  · rintro _ ⟨⟩
    rfl

theorem intsOf_positions (is : List ℕ) :
    Shallot.intsOf (⟨"int64", [is.length], is.map fun i : ℕ => .fin (i : K)⟩ : NpArr K) =
      is.map fun i : ℕ => (i : ℤ) := by
  unfold Shallot.intsOf
  rw [List.map_map]
  apply List.map_congr_left
  intro i _
  simp

/-- `remove_gradients` for positions in range: the loop runs over them from the largest to the
smallest. -/
theorem removeGradients_eq (s : Shallot K) (l : List (GGrad K)) (hs : s.gradients = some l)
    (is : List ℕ) (h : ∀ i ∈ is, i < l.length) (hl : l ≠ []) :
    Shallot.removeGradients (positions is) s =
      (do Shallot.removeLoop (((is.mergeSort (fun i j => decide (i ≤ j))).reverse).map fun j : ℕ => (j : ℤ))
          Shallot.resetFit) s := by
  unfold Shallot.removeGradients
  rw [Meth.get_bind]
  simp only [hs]
  rw [positions_ok is l.length h (List.length_pos_iff.2 hl), Meth.lift_ok_bind, intsOf_positions]
  have : (is.map fun i : ℕ => (i : ℤ)).mergeSort (fun i j => decide (i ≤ j)) =
      (is.mergeSort (fun i j => decide (i ≤ j))).map fun i : ℕ => (i : ℤ) := by
    rw [List.map_mergeSort]
    intro a _ b _
    simp
  rw [this, List.map_reverse]

/-- **C40** partial: For distinct positions in range, in any order, exactly the gradients at the other
positions remain, in order, and the fit is cleared; nothing else changes.  Missing: repeated positions,
for which it is false (`C40_false`, `C40_false_last`), and an empty list of gradients, for which even an
empty array of positions raises (`C40_false_empty`). -/
theorem C40_removes_partial (s : Shallot K) (l : List (GGrad K)) (hs : s.gradients = some l)
    (is : List ℕ) (hd : is.Nodup) (h : ∀ i ∈ is, i < l.length) (hl : l ≠ []) :
    Shallot.removeGradients (positions is) s =
      (.ok (), { s with gradients := some (without l is), gradientFit := none }) := by
  rw [removeGradients_eq s l hs is h hl]
  have hperm : ((is.mergeSort (fun i j => decide (i ≤ j))).reverse).Perm is :=
    (List.reverse_perm _).trans (List.mergeSort_perm _ _)
  have hsort : ((is.mergeSort (fun i j => decide (i ≤ j))).reverse).Pairwise (· > ·) := by
    rw [List.pairwise_reverse]
    have h1 : (is.mergeSort (fun i j => decide (i ≤ j))).Pairwise (fun i j => decide (i ≤ j) = true) :=
      List.pairwise_mergeSort (fun a b c h1 h2 => by simp at *; omega) (fun a b => by simp; omega) is
    have h2 : (is.mergeSort (fun i j => decide (i ≤ j))).Pairwise (· ≠ ·) :=
      (List.mergeSort_perm _ _).nodup_iff.2 hd
    refine (h1.and h2).imp ?_
    rintro a b ⟨h3, h4⟩
    simp only [decide_eq_true_eq] at h3
    omega
  rw [bind_ok _ _ _ _ () (removeLoop_eq _ l s hs hsort (fun j hj => h j (hperm.mem_iff.1 hj))),
    without_perm l hperm]
  rfl

/-- What remains has the gradients that are not listed: those at the other positions. -/
theorem without_get {α : Type} (l : List α) (is : List ℕ) (x : α) :
    x ∈ without l is ↔ ∃ i, l[i]? = some x ∧ i ∉ is := by
  unfold without
  simp only [List.mem_map, List.mem_filter, decide_eq_true_eq, Prod.exists, List.mem_zipIdx_iff_getElem?]
  constructor
  · rintro ⟨y, i, ⟨h1, h2⟩, rfl⟩
    exact ⟨i, h1, h2⟩
  · rintro ⟨i, h1, h2⟩
    exact ⟨x, i, ⟨h1, h2⟩, rfl⟩

theorem twice_loop (s : Shallot K) (i : ℕ) :
    ((([i, i] : List ℕ).mergeSort (fun a b => decide (a ≤ b))).reverse) = [i, i] := by
  have : ([i, i] : List ℕ).mergeSort (fun a b => decide (a ≤ b)) = [i, i] := by
    apply List.mergeSort_of_pairwise
    simp
  rw [this]; rfl

/-- **C40 is false of the code** With a position given twice, the gradient that follows it is removed
as well. -/
theorem C40_false (s : Shallot K) (l : List (GGrad K)) (hs : s.gradients = some l) (i : ℕ)
    (h : i + 1 < l.length) :
    Shallot.removeGradients (positions [i, i]) s =
      (.ok (), { s with gradients := some (l.take i ++ l.drop (i + 2)), gradientFit := none }) := by
  have hi : i < l.length := by omega
  rw [removeGradients_eq s l hs [i, i] (by simp; omega) (by rintro rfl; simp at h), twice_loop s]
  have hl2 : (l.eraseIdx i).length = l.length - 1 := List.length_eraseIdx_of_lt hi
  have : Shallot.removeLoop (([i, i] : List ℕ).map fun j : ℕ => (j : ℤ)) s =
      (.ok (), { s with gradients := some (l.take i ++ l.drop (i + 2)) }) := by
    simp only [List.map_cons, List.map_nil]
    unfold Shallot.removeLoop
    rw [Meth.get_bind]
    simp only [hs, Option.getD_some]
    rw [if_pos ⟨by omega, by omega⟩, bind_ok _ _ _ _ () (Meth.set_apply _ _)]
    unfold Shallot.removeLoop
    rw [Meth.get_bind]
    simp only [Option.getD_some]
    rw [if_pos ⟨by omega, by simp only [Int.toNat_natCast]; omega⟩, bind_ok _ _ _ _ () (Meth.set_apply _ _)]
    unfold Shallot.removeLoop
    simp only [Int.toNat_natCast, Meth.pure_apply]
    congr 3
    rw [List.eraseIdx_eq_take_drop_succ, List.eraseIdx_eq_take_drop_succ]
    congr 1
    · rw [List.take_append_of_le_length (by simp; omega), List.take_take]; simp
    · have hlen : (l.take i).length = i := by simp; omega
      rw [List.drop_append, List.drop_eq_nil_of_le (by rw [hlen]; omega), hlen, List.nil_append,
        List.drop_drop]
      congr 1
      omega
  rw [bind_ok _ _ _ _ () this]
  rfl

/-- **C40 is false of the code** With the last position given twice, `IndexError` is raised after the
gradient was removed; the fit is not cleared. -/
theorem C40_false_last (s : Shallot K) (l : List (GGrad K)) (hs : s.gradients = some l) (i : ℕ)
    (h : i + 1 = l.length) :
    Shallot.removeGradients (positions [i, i]) s =
      (.error .indexError, { s with gradients := some (l.take i) }) := by
  have hi : i < l.length := by omega
  rw [removeGradients_eq s l hs [i, i] (by simp; omega) (by rintro rfl; simp at h), twice_loop s]
  have hl2 : (l.eraseIdx i).length = l.length - 1 := List.length_eraseIdx_of_lt hi
  have : Shallot.removeLoop (([i, i] : List ℕ).map fun j : ℕ => (j : ℤ)) s =
      (.error .indexError, { s with gradients := some (l.take i) }) := by
    simp only [List.map_cons, List.map_nil]
    unfold Shallot.removeLoop
    rw [Meth.get_bind]
    simp only [hs, Option.getD_some]
    rw [if_pos ⟨by omega, by omega⟩, bind_ok _ _ _ _ () (Meth.set_apply _ _)]
    unfold Shallot.removeLoop
    rw [Meth.get_bind]
    simp only [Option.getD_some]
    rw [if_neg (by simp only [Int.toNat_natCast]; omega)]
    simp only [Int.toNat_natCast, Meth.throw_apply]
    rw [List.eraseIdx_eq_take_drop_succ, List.drop_eq_nil_of_le (by omega), List.append_nil]
  rw [bind_err _ _ _ _ _ this]

/-- **C40 is false of the code** If the list of gradients is empty, removing none of them raises. -/
theorem C40_false_empty (s : Shallot K) (hs : s.gradients = some []) :
    ∃ e, Shallot.removeGradients (positions []) s = (.error e, s) := by
  unfold Shallot.removeGradients
  rw [Meth.get_bind]
  simp only [hs]
  cases h : array (positions [] : PyVal K) (lower := .int 0)
    (upper := .int ((([] : List (GGrad K)).length : ℤ) - 1)) (dtype := .str "int64")
    (numDimensions := .int 1) with
  | error e => exact ⟨e, rfl⟩
  | ok a =>
    have := C03_array_ok_iff false (positions [] : PyVal K) a (some (.int 0))
      (some (.int ((([] : List (GGrad K)).length : ℤ) - 1))) (some (.int 1)) (some "int64") (by simp)
      (by simp) (by simp)
    simp only [optArg, Option.map_some] at this
    obtain ⟨l, u, h1, h2, h3, -⟩ := (this.1 h).2.bounds (Or.inl rfl)
    obtain rfl := isNumber_unique h1 (int_isNumber 0)
    obtain rfl := isNumber_unique h2 (int_isNumber _)
    rw [less_iff] at h3
    simp at h3

/-! ## C49 -/

/-- A number that is not negative, as an argument. -/
theorem fraction_float (v : PyVal K) :
    (number v (.bool false) (.float (.fin 0)) (.float (.fin 1)) = .ok v ∧ Fraction v) ∨
    (∃ e, number v (.bool false) (.float (.fin 0)) (.float (.fin 1)) = .error e ∧ ¬ Fraction v) := by
  rcases number_iff' v (.float (.fin 0)) (.float (.fin 1)) _ _ (Or.inr ⟨rfl, .float _⟩)
    (Or.inr ⟨rfl, .float _⟩) (by rw [less_iff]; simp) with ⟨h, h1, h2, h3⟩ | ⟨e, h, h'⟩
  · exact Or.inl ⟨h, v.num, h1, h2, h3⟩
  · refine Or.inr ⟨e, h, ?_⟩
    rintro ⟨x, h1, h2, h3⟩
    have := isNumber_num h1
    subst this
    exact h' ⟨h1, h2, h3⟩

/-- Everything the three assignments can do. -/
theorem storeEclipse_cases (d v u : PyVal K) (s : Shallot K) :
    (NotNegative d ∧ NotNegative v ∧ Fraction u ∧ Shallot.storeEclipse d v u s =
      (.ok (), { s with eclipseDuration := some d, velocity := some v, limb := some u })) ∨
    (NotNegative d ∧ NotNegative v ∧ ¬ Fraction u ∧ ∃ e, Shallot.storeEclipse d v u s =
      (.error e, { s with eclipseDuration := some d, velocity := some v })) ∨
    (NotNegative d ∧ ¬ NotNegative v ∧ ∃ e, Shallot.storeEclipse d v u s =
      (.error e, { s with eclipseDuration := some d })) ∨
    (¬ NotNegative d ∧ ∃ e, Shallot.storeEclipse d v u s = (.error e, s)) := by
  unfold Shallot.storeEclipse
  rcases notNeg_float d with ⟨h1, g1⟩ | ⟨e, h1, g1⟩
  · rw [h1, Meth.lift_ok_bind, Meth.modify_bind]
    rcases notNeg_float v with ⟨h2, g2⟩ | ⟨e, h2, g2⟩
    · rw [h2, Meth.lift_ok_bind, Meth.modify_bind]
      rcases fraction_float u with ⟨h3, g3⟩ | ⟨e, h3, g3⟩
      · rw [h3, Meth.lift_ok_bind]
        exact Or.inl ⟨g1, g2, g3, rfl⟩
      · rw [h3]
        exact Or.inr (Or.inl ⟨g1, g2, g3, e, rfl⟩)
    · rw [h2]
      exact Or.inr (Or.inr (Or.inl ⟨g1, g2, e, rfl⟩))
  · rw [h1]
    exact Or.inr (Or.inr (Or.inr ⟨g1, e, rfl⟩))

/-- **C49** partial: `set_eclipse_parameters` succeeds exactly if the duration and the velocity are
numbers that are not negative and the limb darkening is a number from 0 to 1.  Then these are the
parameters, there are no gradients, and no fit if there was none without gradients (`C41` shows that
this is always so); nothing else changes.  If it raises, gradients and fit are as before.  Missing: on
the raising path parameters have been replaced (`C49_false`). -/
theorem C49_partial (s : Shallot K) (hfit : s.gradients = none → s.gradientFit = none)
    (d v u : PyVal K) :
    (NotNegative d ∧ NotNegative v ∧ Fraction u → Shallot.setEclipseParameters d v u s =
      (.ok (), { s with
        eclipseDuration := some d, velocity := some v, limb := some u
        gradients := none, gradientFit := none })) ∧
    (¬ (NotNegative d ∧ NotNegative v ∧ Fraction u) → ∃ e s',
      Shallot.setEclipseParameters d v u s = (.error e, s') ∧ s'.gradients = s.gradients ∧
      s'.gradientFit = s.gradientFit ∧ s'.limb = s.limb) := by
  unfold Shallot.setEclipseParameters
  rcases storeEclipse_cases d v u s with ⟨h1, h2, h3, h⟩ | ⟨h1, h2, h3, e, h⟩ | ⟨h1, h2, e, h⟩ |
    ⟨h1, e, h⟩
  · refine ⟨fun _ => ?_, fun hno => absurd ⟨h1, h2, h3⟩ hno⟩
    rw [bind_ok _ _ _ _ () h]
    simp only [Meth.get_bind]
    cases hg : s.gradients with
    | none => simp [hfit hg]
    | some l => rfl
  all_goals
    refine ⟨fun ⟨g1, g2, g3⟩ => by contradiction, fun _ => ⟨e, _, bind_err _ _ _ _ e h, rfl, rfl, rfl⟩⟩

/-- **C49 is false of the code** On the raising path: a valid duration with a bad velocity raises, the
duration has been replaced, and the gradients, which were computed with the old duration, remain. -/
theorem C49_false (s : Shallot K) (d v u : PyVal K) (hd : NotNegative d) (hv : ¬ NotNegative v) :
    ∃ e, Shallot.setEclipseParameters d v u s = (.error e, { s with eclipseDuration := some d }) := by
  unfold Shallot.setEclipseParameters
  rcases storeEclipse_cases d v u s with ⟨h1, h2, -⟩ | ⟨h1, h2, -⟩ | ⟨h1, h2, e, h⟩ | ⟨h1, -⟩
  · exact absurd h2 hv
  · exact absurd h2 hv
  · exact ⟨e, bind_err _ _ _ _ e h⟩
  · exact absurd hd h1

end
end Beyonce
