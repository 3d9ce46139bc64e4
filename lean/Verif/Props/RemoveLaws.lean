import Verif.Props.Measured
import Verif.Props.Remove

/-!
# Property C139: removals in several calls are one
-/

set_option linter.unusedSectionVars false

namespace Beyonce
open Spec

/-- The place that position `i` has once the positions `is` are taken out: the number of positions before it
that stay. -/
def Spec.placeAfter (is : List ℕ) (i : ℕ) : ℕ := ((List.range i).filter (· ∉ is)).length

theorem placeAfter_zero (is : List ℕ) : placeAfter is 0 = 0 := rfl

theorem placeAfter_succ (is : List ℕ) (i : ℕ) : placeAfter is (i + 1) = placeAfter is i + if i ∈ is then 0 else 1 := by
  unfold placeAfter
  rw [List.range_succ, List.filter_append, List.length_append]
  by_cases h : i ∈ is <;> simp [h]

theorem placeAfter_mono (is : List ℕ) {i j : ℕ} (h : i ≤ j) : placeAfter is i ≤ placeAfter is j := by
  induction j, h using Nat.le_induction with
  | base => exact le_rfl
  | succ j _ ih => rw [placeAfter_succ]; omega

theorem placeAfter_lt (is : List ℕ) {i j : ℕ} (hi : i ∉ is) (h : i < j) : placeAfter is i < placeAfter is j := by
  have h1 := placeAfter_mono is (Nat.succ_le_of_lt h)
  rw [Nat.succ_eq_add_one, placeAfter_succ, if_neg hi] at h1
  omega

theorem placeAfter_inj (is : List ℕ) {i j : ℕ} (hi : i ∉ is) (hj : j ∉ is)
    (h : placeAfter is i = placeAfter is j) : i = j := by
  rcases lt_trichotomy i j with k | k | k
  · exact absurd h (placeAfter_lt is hi k).ne
  · exact k
  · exact absurd h (placeAfter_lt is hj k).ne'

theorem mem_places (is is' : List ℕ) (h : ∀ i ∈ is', i ∉ is) (n : ℕ) (hn : n ∉ is) :
    placeAfter is n ∈ is'.map (placeAfter is) ↔ n ∈ is' := by
  constructor
  · intro hm
    obtain ⟨i, hi, he⟩ := List.mem_map.1 hm
    rwa [← placeAfter_inj is (h i hi) hn he]
  · exact List.mem_map_of_mem

theorem length_without {α : Type} (is : List ℕ) : ∀ (l : List α) (n : ℕ),
    (((l.zipIdx n).filter fun p => p.2 ∉ is).map Prod.fst).length + placeAfter is n = placeAfter is (n + l.length)
  | [], n => by simp
  | x :: l, n => by
    have ih := length_without is l (n + 1)
    rw [List.length_cons, show n + (l.length + 1) = n + 1 + l.length by omega, ← ih, placeAfter_succ, List.zipIdx_cons]
    by_cases h : n ∈ is
    · rw [List.filter_cons_of_neg (by simpa using h), if_pos h]
      rfl
    · rw [List.filter_cons_of_pos (by simpa using h), if_neg h, List.map_cons, List.length_cons]
      omega

theorem without_twice_from {α : Type} (is is' : List ℕ) (h : ∀ i ∈ is', i ∉ is) : ∀ (l : List α) (n : ℕ),
    ((((((l.zipIdx n).filter fun p => p.2 ∉ is).map Prod.fst).zipIdx (placeAfter is n)).filter fun p =>
      p.2 ∉ is'.map (placeAfter is)).map Prod.fst) =
    ((l.zipIdx n).filter fun p => p.2 ∉ is ++ is').map Prod.fst
  | [], n => rfl
  | x :: l, n => by
    have ih := without_twice_from is is' h l (n + 1)
    rw [placeAfter_succ] at ih
    rw [List.zipIdx_cons]
    by_cases hn : n ∈ is
    · simp only [if_pos hn, Nat.add_zero] at ih
      rw [List.filter_cons_of_neg (by simpa using hn), List.filter_cons_of_neg (by simp [hn]), ih]
    · rw [if_neg hn] at ih
      rw [List.filter_cons_of_pos (by simpa using hn), List.map_cons, List.zipIdx_cons]
      by_cases hn' : n ∈ is'
      · rw [List.filter_cons_of_neg (by
          simp only [decide_eq_true_eq, not_not]
          exact (mem_places is is' h n hn).2 hn'), List.filter_cons_of_neg (by simp [hn']), ih]
      · rw [List.filter_cons_of_pos (by
          simp only [decide_eq_true_eq]
          exact fun k => hn' ((mem_places is is' h n hn).1 k)), List.filter_cons_of_pos (by simp [hn, hn']),
          List.map_cons, List.map_cons, ih]

theorem without_twice {α : Type} (l : List α) (is is' : List ℕ) (h : ∀ i ∈ is', i ∉ is) :
    without (without l is) (is'.map (placeAfter is)) = without l (is ++ is') :=
  without_twice_from is is' h l 0

section
variable {K : Type} [Field K] [LinearOrder K] [IsStrictOrderedRing K] [RealFns K] [FloorRing K]

/-- **C139** Gradients that are removed by two calls, the positions of the second counted in the list that the first
one left, could have been removed by one call. -/
theorem C139_twice (s : Shallot K) (l : List (GGrad K)) (hs : s.gradients = some l) (is is' : List ℕ)
    (hd : is.Nodup) (hd' : is'.Nodup) (h : ∀ i ∈ is, i < l.length) (h' : ∀ i ∈ is', i < l.length ∧ i ∉ is)
    (hne : is' ≠ []) : ∃ s₁ s₂, Shallot.removeGradients (positions is) s = (.ok (), s₁) ∧
      Shallot.removeGradients (positions (is'.map (placeAfter is))) s₁ = (.ok (), s₂) ∧
      Shallot.removeGradients (positions (is ++ is')) s = (.ok (), s₂) ∧
      s₂.gradients = some (without l (is ++ is')) := by
  obtain ⟨i, hi⟩ := List.exists_mem_of_ne_nil _ hne
  have hl : l ≠ [] := by
    rintro rfl
    exact absurd (h' i hi).1 (by simp)
  have hlen : (without l is).length = placeAfter is l.length := by
    have := length_without is l 0
    rw [placeAfter_zero, Nat.add_zero, Nat.zero_add] at this
    exact this
  have hlt : ∀ i ∈ is', placeAfter is i < (without l is).length := fun i hi => by
    rw [hlen]
    exact placeAfter_lt is (h' i hi).2 (h' i hi).1
  have hl' : without l is ≠ [] := by
    intro k
    have := hlt i hi
    rw [k] at this
    exact absurd this (by simp)
  refine ⟨_, _, C40_removes_partial s l hs is hd h hl, C40_removes_partial _ (without l is) rfl _ ?_ ?_ hl', ?_, ?_⟩
  · exact List.Nodup.map_on (fun x hx y hy e => placeAfter_inj is (h' x hx).2 (h' y hy).2 e) hd'
  · intro j hj
    obtain ⟨i, hi, rfl⟩ := List.mem_map.1 hj
    exact hlt i hi
  · rw [C40_removes_partial s l hs (is ++ is') ?_ ?_ hl, without_twice l is is' fun i hi => (h' i hi).2]
    · exact List.Nodup.append hd hd' fun i hi hi' => (h' i hi').2 hi
    · intro i hi
      rcases List.mem_append.1 hi with hi | hi
      · exact h i hi
      · exact (h' i hi).1
  · rw [without_twice l is is' fun i hi => (h' i hi).2]

/-- **C139** Two sets of gradients can be removed in either order. -/
theorem C139_order (s : Shallot K) (l : List (GGrad K)) (hs : s.gradients = some l) (is is' : List ℕ)
    (hd : is.Nodup) (hd' : is'.Nodup) (h : ∀ i ∈ is, i < l.length) (h' : ∀ i ∈ is', i < l.length)
    (hdis : ∀ i ∈ is', i ∉ is) (hne : is ≠ []) (hne' : is' ≠ []) :
    ∃ s₁ s₁' s₂, Shallot.removeGradients (positions is) s = (.ok (), s₁) ∧
      Shallot.removeGradients (positions (is'.map (placeAfter is))) s₁ = (.ok (), s₂) ∧
      Shallot.removeGradients (positions is') s = (.ok (), s₁') ∧
      Shallot.removeGradients (positions (is.map (placeAfter is'))) s₁' = (.ok (), s₂) := by
  have hdis' : ∀ i ∈ is, i ∉ is' := fun i hi hi' => hdis i hi' hi
  obtain ⟨s₁, s₂, h1, h2, h3, -⟩ := C139_twice s l hs is is' hd hd' h (fun i hi => ⟨h' i hi, hdis i hi⟩) hne'
  obtain ⟨s₃, s₄, h4, h5, h6, -⟩ := C139_twice s l hs is' is hd' hd h' (fun i hi => ⟨h i hi, hdis' i hi⟩) hne
  have hl : l ≠ [] := by
    obtain ⟨i, hi⟩ := List.exists_mem_of_ne_nil _ hne
    rintro rfl
    exact absurd (h i hi) (by simp)
  refine ⟨s₁, s₃, s₂, h1, h2, h4, ?_⟩
  rw [h5]
  have e1 := C40_removes_partial s l hs (is ++ is') (List.Nodup.append hd hd' fun i hi hi' => hdis i hi' hi)
    (fun i hi => (List.mem_append.1 hi).elim (h i) (h' i)) hl
  have e2 := C40_removes_partial s l hs (is' ++ is) (List.Nodup.append hd' hd fun i hi hi' => hdis i hi hi')
    (fun i hi => (List.mem_append.1 hi).elim (h' i) (h i)) hl
  rw [h3] at e1
  rw [h6] at e2
  rw [without_perm l (List.perm_append_comm (l₁ := is') (l₂ := is)), ← e1] at e2
  exact e2

/-- Calls that remove one gradient each; `gone` are the positions that were removed before. -/
def Spec.oneByOne (gone : List ℕ) : List ℕ → Meth (Shallot K) Unit
  | [] => pure ()
  | i :: is => do
    Shallot.removeGradients (positions [placeAfter gone i])
    oneByOne (gone ++ [i]) is

theorem oneByOne_from (s : Shallot K) (l : List (GGrad K)) (hs : s.gradients = some l) :
    ∀ (is gone : List ℕ) (s₁ : Shallot K), gone ≠ [] → (gone ++ is).Nodup → (∀ i ∈ gone ++ is, i < l.length) →
    Shallot.removeGradients (positions gone) s = (.ok (), s₁) →
    oneByOne gone is s₁ = Shallot.removeGradients (positions (gone ++ is)) s
  | [], gone, s₁, _, _, _, h1 => by
    rw [List.append_nil, h1]
    rfl
  | i :: is, gone, s₁, hg, hd, h, h1 => by
    have e : gone ++ i :: is = gone ++ [i] ++ is := by simp
    have hd1 := List.nodup_append.1 hd
    obtain ⟨s₂, s₃, h2, h3, h4, -⟩ := C139_twice s l hs gone [i] hd1.1 (by simp)
      (fun j hj => h j (by simp [hj])) (fun j hj => by
        rw [List.mem_singleton] at hj
        subst hj
        exact ⟨h j (by simp), fun k => hd1.2.2 j k j (by simp) rfl⟩) (by simp)
    rw [h1] at h2
    cases h2
    rw [e] at hd h ⊢
    rw [← oneByOne_from s l hs is (gone ++ [i]) s₃ (by simp) hd h h4]
    show (Shallot.removeGradients (positions [placeAfter gone i]) >>= fun _ => oneByOne (gone ++ [i]) is) s₁ = _
    exact bind_ok _ _ _ _ () h3

/-- **C139** Removing gradients one by one, in any order, is removing them together. -/
theorem C139_one_by_one (s : Shallot K) (l : List (GGrad K)) (hs : s.gradients = some l) (is : List ℕ)
    (hd : is.Nodup) (h : ∀ i ∈ is, i < l.length) (hne : is ≠ []) :
    oneByOne [] is s = Shallot.removeGradients (positions is) s := by
  match is, hne with
  | i :: is, _ =>
    have hl : l ≠ [] := by
      rintro rfl
      exact absurd (h i (by simp)) (by simp)
    have hp : placeAfter [] i = i := by simp [placeAfter]
    have h1 := C40_removes_partial s l hs [i] (by simp) (by simpa using h i (by simp)) hl
    rw [← List.singleton_append, ← oneByOne_from s l hs is [i] _ (by simp) hd h h1]
    show (Shallot.removeGradients (positions [placeAfter [] i]) >>= fun _ => oneByOne ([] ++ [i]) is) s = _
    rw [hp, bind_ok _ _ _ _ () h1]
    rfl

/-- **C139** Removing gradients excludes no further disk, and the disks that come back are those that only
removed gradients had excluded. -/
theorem C139_mask (s s' : Shallot K) (l : List (GGrad K)) (hs : s.gradients = some l) (is : List ℕ)
    (hd : is.Nodup) (h : ∀ i ∈ is, i < l.length) (hl : l ≠ [])
    (hr : Shallot.removeGradients (positions is) s = (.ok (), s')) (n : ℕ) :
    MaskedAt s n ↔ MaskedAt s' n ∨ ∃ i ∈ is, ∃ g, l[i]? = some g ∧ Marked g.prop.mask n := by
  rw [C40_removes_partial s l hs is hd h hl] at hr
  cases hr
  unfold MaskedAt
  simp only [hs, Option.some.injEq, exists_eq_left', without_get]
  constructor
  · rintro (k | k | k | ⟨g, hg, k⟩)
    · exact Or.inl (Or.inl k)
    · exact Or.inl (Or.inr (Or.inl k))
    · exact Or.inl (Or.inr (Or.inr (Or.inl k)))
    · obtain ⟨i, hi⟩ := List.mem_iff_getElem?.1 hg
      by_cases hm : i ∈ is
      · exact Or.inr ⟨i, hm, g, hi, k⟩
      · exact Or.inl (Or.inr (Or.inr (Or.inr ⟨g, ⟨i, hi, hm⟩, k⟩)))
  · rintro ((k | k | k | ⟨g, ⟨i, hi, -⟩, k⟩) | ⟨i, -, g, hi, k⟩)
    · exact Or.inl k
    · exact Or.inr (Or.inl k)
    · exact Or.inr (Or.inr (Or.inl k))
    · exact Or.inr (Or.inr (Or.inr ⟨g, List.mem_of_getElem? hi, k⟩))
    · exact Or.inr (Or.inr (Or.inr ⟨g, List.mem_of_getElem? hi, k⟩))

end

/-- Non-vacuity: the places of four positions once two are gone; and a grid with two gradients, from which the first
and then the second (now the first) is removed. -/
theorem C139_witness : [0, 2, 4, 5].map (placeAfter [1, 3]) = [0, 1, 2, 3] ∧
    ∃ (s s₁ s₂ : Shallot ℝ) (l : List (GGrad ℝ)), Sound s ∧ s.gradients = some l ∧ l.length = 2 ∧
      Shallot.removeGradients (positions [0]) s = (.ok (), s₁) ∧
      Shallot.removeGradients (positions [0]) s₁ = (.ok (), s₂) ∧
      Shallot.removeGradients (positions [0, 1]) s = (.ok (), s₂) ∧ s₂.gradients = some [] := by
  refine ⟨by decide, ?_⟩
  obtain ⟨-, s, -, -, -, hs, -, -, ⟨l, hl, hl2⟩, -⟩ := throwAway_fit
  obtain ⟨s₁, s₂, h1, h2, h3, h4⟩ := C139_twice s l hl [0] [1] (by simp) (by simp) (by simp; omega)
    (by simp; omega) (by simp)
  rw [show [1].map (placeAfter [0]) = [0] by decide] at h2
  rw [List.singleton_append] at h3
  refine ⟨s, s₁, s₂, l, hs, hl, hl2, h1, h2, h3, ?_⟩
  rw [h4, Option.some.injEq, List.eq_nil_iff_forall_not_mem]
  intro x hx
  obtain ⟨i, hi, hn⟩ := (without_get _ _ _).1 hx
  have := (List.getElem?_eq_some_iff.1 hi).1
  simp at hn
  omega

end Beyonce
