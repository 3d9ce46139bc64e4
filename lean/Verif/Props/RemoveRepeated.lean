import Verif.Props.Remove

/-!
# C40: removing gradients at repeated positions

The positions are processed from the largest to the smallest, so that a position that is given again
takes the next gradient that is left.  The gradients removed are those that linear probing would
occupy.
-/

set_option linter.unusedSectionVars false

namespace Beyonce
open Spec

/-- How many of the positions asked for lie between `a` and `b`. -/
def Spec.askedBetween (is : List ℕ) (a b : ℕ) : ℕ := is.countP fun i => decide (a ≤ i ∧ i ≤ b)

/-- The element at `m` is taken: up to it, from some place on, as many positions are asked for as
there are elements. -/
def Spec.Taken (is : List ℕ) (m : ℕ) : Prop := ∃ j ≤ m, m + 1 ≤ j + askedBetween is j m

/-- From `j` on more positions are asked for than there are elements. -/
def Spec.TooMany (n : ℕ) (is : List ℕ) (j : ℕ) : Prop :=
  n < j + is.countP fun i => decide (j ≤ i)

open Classical in
/-- The elements of a list at the positions, counted from `n`, that have a property. -/
noncomputable def Spec.keeping {α : Type} (l : List α) (n : ℕ) (T : ℕ → Prop) : List α :=
  ((l.zipIdx n).filter fun p => decide (T p.2)).map Prod.fst

section lists
variable {α : Type}

theorem keeping_append (l l' : List α) (n : ℕ) (T : ℕ → Prop) :
    keeping (l ++ l') n T = keeping l n T ++ keeping l' (n + l.length) T := by
  unfold keeping
  rw [List.zipIdx_append, List.filter_append, List.map_append]

theorem keeping_all (l : List α) (n : ℕ) (T : ℕ → Prop) (h : ∀ i, n ≤ i → i < n + l.length → T i) :
    keeping l n T = l := by
  induction l generalizing n with
  | nil => rfl
  | cons x l ih =>
    have h0 : T n := h n le_rfl (by simp)
    have := ih (n + 1) (fun i h1 h2 => h i (by omega) (by simp only [List.length_cons]; omega))
    unfold keeping at this ⊢
    rw [List.zipIdx_cons, List.filter_cons_of_pos (by simpa using h0), List.map_cons, this]

theorem keeping_none (l : List α) (n : ℕ) (T : ℕ → Prop) (h : ∀ i, n ≤ i → i < n + l.length → ¬ T i) :
    keeping l n T = [] := by
  induction l generalizing n with
  | nil => rfl
  | cons x l ih =>
    have h0 : ¬ T n := h n le_rfl (by simp)
    have := ih (n + 1) (fun i h1 h2 => h i (by omega) (by simp only [List.length_cons]; omega))
    unfold keeping at this ⊢
    rw [List.zipIdx_cons, List.filter_cons_of_neg (by simpa using h0), this]

theorem keeping_congr (l : List α) (n : ℕ) (T U : ℕ → Prop)
    (h : ∀ i, n ≤ i → i < n + l.length → (T i ↔ U i)) : keeping l n T = keeping l n U := by
  unfold keeping
  congr 1
  apply List.filter_congr
  rintro ⟨y, i⟩ hy
  have h1 := List.le_snd_of_mem_zipIdx hy
  have h2 := List.snd_lt_of_mem_zipIdx hy
  simp only at h1 h2
  exact decide_eq_decide.2 (h i h1 (by omega))

/-- Deleting the first element that is kept from `j` on. -/
theorem keeping_erase (l : List α) (T : ℕ → Prop) (j m : ℕ) (hjm : j ≤ m) (hm : m < l.length)
    (hlow : ∀ i < j, T i) (hmid : ∀ i, j ≤ i → i < m → ¬ T i) (hT : T m) :
    (keeping l 0 T).eraseIdx j = keeping l 0 (fun i => T i ∧ i ≠ m) := by
  obtain ⟨a, b, y, c, rfl, ha, hb⟩ : ∃ a b y c, l = a ++ (b ++ y :: c) ∧ a.length = j ∧
      j + b.length = m := by
    refine ⟨l.take j, (l.take m).drop j, l[m], l.drop (m + 1), ?_, by simp; omega, by simp; omega⟩
    rw [List.getElem_cons_drop, ← List.append_assoc]
    conv_lhs => rw [← List.take_append_drop m l]
    congr 1
    conv_lhs => rw [← List.take_append_drop j (l.take m)]
    rw [List.take_take, min_eq_left hjm]
  have hl : m < a.length + (b.length + (c.length + 1)) := by simpa using hm
  have e : ∀ U : ℕ → Prop, keeping (a ++ (b ++ y :: c)) 0 U =
      keeping a 0 U ++ (keeping b j U ++ (keeping [y] m U ++ keeping c (m + 1) U)) := by
    intro U
    rw [keeping_append, keeping_append, show (y :: c) = [y] ++ c from rfl, keeping_append]
    simp only [Nat.zero_add, ha, hb, List.length_singleton]
  rw [e, e, keeping_all a 0 T (fun i _ h => hlow i (by omega)),
    keeping_none b j T (fun i h1 h2 => hmid i h1 (by omega)),
    keeping_all [y] m T (fun i h1 h2 => by
      obtain rfl : i = m := by simp at h2; omega
      exact hT),
    keeping_all a 0 (fun i => T i ∧ i ≠ m) (fun i _ h => ⟨hlow i (by omega), by omega⟩),
    keeping_none b j (fun i => T i ∧ i ≠ m) (fun i h1 h2 h => hmid i h1 (by omega) h.1),
    keeping_none [y] m (fun i => T i ∧ i ≠ m) (fun i h1 h2 h => by
      simp at h2; exact h.2 (by omega)),
    keeping_congr c (m + 1) (fun i => T i ∧ i ≠ m) T (fun i h1 _ => by
      constructor
      · exact And.left
      · exact fun h => ⟨h, by omega⟩)]
  subst ha
  rw [List.eraseIdx_append_of_length_le le_rfl]
  simp

end lists

/-! ## Who is taken -/

theorem askedBetween_append (P Q : List ℕ) (a b : ℕ) :
    askedBetween (P ++ Q) a b = askedBetween P a b + askedBetween Q a b := by
  unfold askedBetween; rw [List.countP_append]

theorem askedBetween_split (P : List ℕ) (a b c : ℕ) (h : a ≤ b) (h' : b ≤ c + 1) (hb : 0 < b) :
    askedBetween P a c = askedBetween P a (b - 1) + askedBetween P b c := by
  induction P with
  | nil => rfl
  | cons x P ih =>
    unfold askedBetween at ih ⊢
    simp only [List.countP_cons, decide_eq_true_eq]
    split_ifs <;> omega

theorem askedBetween_low (P : List ℕ) (a b c : ℕ) (h : ∀ i ∈ P, b ≤ i) (hab : a ≤ b) :
    askedBetween P a c = askedBetween P b c := by
  unfold askedBetween
  apply List.countP_congr
  intro x hx
  have := h x hx
  simp only [decide_eq_true_eq]
  omega

/-- A stretch from the smallest position on that is all taken has as many positions in it. -/
theorem taken_stretch (P : List ℕ) (j : ℕ) (hP : ∀ i ∈ P, j ≤ i) (m : ℕ) (hjm : j < m)
    (h : ∀ i, j ≤ i → i < m → Taken P i) : m ≤ j + askedBetween P j (m - 1) := by
  induction m using Nat.strong_induction_on with
  | _ m ih =>
    obtain ⟨k, hk, hc⟩ := h (m - 1) (by omega) (by omega)
    by_cases hkj : k ≤ j
    · rw [askedBetween_low P k j _ hP hkj] at hc
      omega
    · have := ih k (by omega) (by omega) (fun i h1 h2 => h i h1 (by omega))
      rw [askedBetween_split P j k (m - 1) (by omega) (by omega) (by omega)]
      omega

theorem askedBetween_one (j a b : ℕ) : askedBetween [j] a b = if a ≤ j ∧ j ≤ b then 1 else 0 := by
  unfold askedBetween
  simp [List.countP_cons]

/-- One more position, not above the others, takes the first element from it on that was left. -/
theorem taken_step (P : List ℕ) (j m : ℕ) (hP : ∀ i ∈ P, j ≤ i) (hjm : j ≤ m)
    (hmid : ∀ i, j ≤ i → i < m → Taken P i) (hm : ¬ Taken P m) (x : ℕ) :
    Taken (P ++ [j]) x ↔ Taken P x ∨ x = m := by
  have hm' : askedBetween P j m ≤ m - j := by
    by_contra hc
    exact hm ⟨j, hjm, by omega⟩
  constructor
  · rintro ⟨k, hk, hc⟩
    rw [askedBetween_append, askedBetween_one] at hc
    by_cases hin : k ≤ j ∧ j ≤ x
    · rw [if_pos hin, askedBetween_low P k j x hP hin.1] at hc
      rcases lt_trichotomy x m with h | h | h
      · exact Or.inl (hmid x hin.2 h)
      · exact Or.inr h
      · left
        refine ⟨m + 1, by omega, ?_⟩
        rw [askedBetween_split P j (m + 1) x (by omega) (by omega) (by omega)] at hc
        simp only [Nat.add_sub_cancel] at hc
        omega
    · rw [if_neg hin] at hc
      exact Or.inl ⟨k, hk, by omega⟩
  · rintro (⟨k, hk, hc⟩ | rfl)
    · refine ⟨k, hk, ?_⟩
      rw [askedBetween_append]; omega
    · refine ⟨j, hjm, ?_⟩
      rw [askedBetween_append, askedBetween_one, if_pos ⟨le_rfl, hjm⟩]
      rcases hjm.eq_or_lt with rfl | h
      · omega
      · have h1 := taken_stretch P j hP x h hmid
        have h2 := askedBetween_split P j x x (by omega) (by omega) (by omega)
        omega

theorem not_taken_low (P : List ℕ) (j x : ℕ) (hP : ∀ i ∈ P, j ≤ i) (hx : x < j) : ¬ Taken P x := by
  rintro ⟨k, hk, hc⟩
  have : askedBetween P k x = 0 := by
    unfold askedBetween
    rw [List.countP_eq_zero]
    intro i hi
    have := hP i hi
    simp only [decide_eq_true_eq]
    omega
  omega

/-! ## The loop -/

/-- The deletions one after the other, and whether all of them were possible. -/
def dels {α : Type} : List ℕ → List α → Bool × List α
  | [], l => (true, l)
  | j :: js, l => if j < l.length then dels js (l.eraseIdx j) else (false, l)

theorem dels_append {α : Type} (P : List ℕ) (j : ℕ) (l : List α) :
    dels (P ++ [j]) l = if (dels P l).1 then dels [j] (dels P l).2 else dels P l := by
  induction P generalizing l with
  | nil => rfl
  | cons i P ih =>
    have e : ∀ Q : List ℕ, dels (i :: Q) l = if i < l.length then dels Q (l.eraseIdx i) else (false, l) :=
      fun _ => rfl
    rw [List.cons_append, e, e]
    by_cases h : i < l.length
    · rw [if_pos h, if_pos h, ih]
    · rw [if_neg h, if_neg h]; rfl

theorem dels_length {α : Type} (P : List ℕ) (l : List α) (h : (dels P l).1 = true) :
    (dels P l).2.length + P.length = l.length := by
  induction P generalizing l with
  | nil => rfl
  | cons i P ih =>
    unfold dels at h ⊢
    split_ifs at h ⊢ with hi
    · have := ih _ h
      rw [List.length_eraseIdx_of_lt hi] at this
      simp only [List.length_cons]
      omega

theorem countP_all (P : List ℕ) (j : ℕ) (h : ∀ i ∈ P, j ≤ i) :
    P.countP (fun i => decide (j ≤ i)) = P.length := by
  rw [List.countP_eq_length]
  intro i hi
  simpa using h i hi

theorem tooMany_append (n : ℕ) (P : List ℕ) (j k : ℕ) :
    TooMany n (P ++ [j]) k ↔ n < k + (P.countP (fun i => decide (k ≤ i)) + if k ≤ j then 1 else 0) := by
  unfold TooMany
  simp [List.countP_append, List.countP_cons]

/-- What deleting at positions that do not rise does. -/
theorem dels_exact {α : Type} (l : List α) (d : List ℕ) (hd : d.Pairwise (· ≥ ·))
    (hn : ∀ j ∈ d, j < l.length) :
    ((∀ j, j ≤ l.length → ¬ TooMany l.length d j) ∧ dels d l = (true, keeping l 0 fun m => ¬ Taken d m)) ∨
    ∃ j, j < l.length ∧ TooMany l.length d j ∧ (∀ k, j < k → k ≤ l.length → ¬ TooMany l.length d k) ∧
      dels d l = (false, l.take j) := by
  induction d using List.reverseRecOn with
  | nil =>
    left
    refine ⟨fun j hj => ?_, ?_⟩
    · simp only [TooMany, List.countP_nil]; omega
    · rw [keeping_all]
      · rfl
      · rintro i - - ⟨k, hk, hc⟩
        simp only [askedBetween, List.countP_nil] at hc
        omega
  | append_singleton P j ih =>
    rw [List.pairwise_append] at hd
    have hP : ∀ i ∈ P, j ≤ i := fun i hi => hd.2.2 i hi j (by simp)
    have hj : j < l.length := hn j (by simp)
    rw [dels_append]
    rcases ih hd.1 (fun i hi => hn i (by simp [hi])) with ⟨h1, h2⟩ | ⟨k, hk, h1, h2, h3⟩
    · have hlen := dels_length P l (by rw [h2])
      rw [h2]
      rw [h2] at hlen
      simp only [if_true] at hlen ⊢
      unfold dels
      have hlow : ∀ i < j, ¬ Taken P i := fun i hi => not_taken_low P j i hP hi
      have hsame : ∀ k, j < k → k ≤ l.length → ¬ TooMany l.length (P ++ [j]) k := by
        intro k hk hkn
        rw [tooMany_append, if_neg (by omega)]
        exact h1 k hkn
      split_ifs with hlt
      · left
        have hex : ∃ m, j ≤ m ∧ m < l.length ∧ ¬ Taken P m := by
          by_contra hno
          push Not at hno
          have hsp : keeping l 0 (fun m => ¬ Taken P m) = l.take j := by
            conv_lhs => rw [← List.take_append_drop j l]
            rw [keeping_append, keeping_all _ _ _ (fun i _ h => hlow i (by simp at h; omega)),
              keeping_none _ _ _ (fun i h h' hc => hc (hno i (by simp at h; omega)
                (by simp at h'; omega))), List.append_nil]
          rw [hsp] at hlt
          simp at hlt
        classical
        obtain ⟨h3, h4, h5⟩ := Nat.find_spec hex
        have hmin : ∀ i, j ≤ i → i < Nat.find hex → Taken P i := by
          intro i hi hlt'
          by_contra hc
          exact Nat.find_min hex hlt' ⟨hi, by omega, hc⟩
        generalize Nat.find hex = m at h3 h4 h5 hmin
        refine ⟨?_, ?_⟩
        · intro k hkn
          rcases lt_or_ge j k with h | h
          · exact hsame k h hkn
          · rw [tooMany_append, if_pos h, countP_all P k (fun i hi => h.trans (hP i hi))]
            omega
        · rw [dels, keeping_erase l _ j m h3 h4 hlow (fun i a b c => c (hmin i a b)) h5]
          congr 1
          apply keeping_congr
          intro i _ _
          rw [taken_step P j m hP h3 hmin h5]
          tauto
      · right
        refine ⟨j, hj, ?_, hsame, ?_⟩
        · rw [tooMany_append, if_pos le_rfl, countP_all P j hP]
          omega
        · congr 1
          have hsp : keeping l 0 (fun m => ¬ Taken P m) =
              l.take j ++ keeping (l.drop j) j (fun m => ¬ Taken P m) := by
            conv_lhs => rw [← List.take_append_drop j l]
            rw [keeping_append, keeping_all _ _ _ (fun i _ h => hlow i (by simp at h; omega))]
            congr 2
            simp; omega
          rw [hsp] at hlt ⊢
          simp only [List.length_append, List.length_take, min_eq_left hj.le] at hlt
          rw [List.eq_nil_of_length_eq_zero (by omega : (keeping (l.drop j) j fun m => ¬ Taken P m).length = 0),
            List.append_nil]
    · right
      rw [h3]
      have hkj : j ≤ k := by
        by_contra hc
        refine h2 j (by omega) hj.le ?_
        unfold TooMany at h1 ⊢
        rw [countP_all P j hP]
        rw [countP_all P k (fun i hi => (by omega : k ≤ j).trans (hP i hi))] at h1
        omega
      refine ⟨k, hk, ?_, ?_, rfl⟩
      · rw [tooMany_append]
        unfold TooMany at h1
        omega
      · intro k' h h'
        rw [tooMany_append, if_neg (by omega)]
        exact h2 k' h h'

section
variable {K : Type} [Field K] [LinearOrder K] [IsStrictOrderedRing K] [RealFns K] [FloorRing K]

theorem removeLoop_dels : ∀ (js : List ℕ) (l : List (GGrad K)) (s : Shallot K), s.gradients = some l →
    Shallot.removeLoop (js.map fun j : ℕ => (j : ℤ)) s =
      (if (dels js l).1 then .ok () else .error .indexError, { s with gradients := some (dels js l).2 })
  | [], l, s, hs => by
    simp only [dels, ← hs]; rfl
  | j :: js, l, s, hs => by
    rw [List.map_cons]
    unfold Shallot.removeLoop dels
    rw [Meth.get_bind]
    simp only [hs, Option.getD_some]
    by_cases h : j < l.length
    · rw [if_pos ⟨by omega, by omega⟩, if_pos h, bind_ok _ _ _ _ () (Meth.set_apply _ _),
        removeLoop_dels js (l.eraseIdx j) _ (by simp)]
    · rw [if_neg (by omega), if_neg h, Meth.throw_apply, ← hs]
      rfl

/-- **C40** Exactly what `remove_gradients` does with positions in range, repeated or not and in any
order.  If from no place on more positions are asked for than there are gradients, the gradients that
are taken go, the others stay in order and the fit is cleared.  Otherwise it raises `IndexError`, keeps
the fit, and the gradients before the last such place are left. -/
theorem C40_exact (s : Shallot K) (l : List (GGrad K)) (hs : s.gradients = some l) (is : List ℕ)
    (h : ∀ i ∈ is, i < l.length) (hl : l ≠ []) :
    ((∀ j ≤ l.length, ¬ TooMany l.length is j) ∧ Shallot.removeGradients (positions is) s =
      (.ok (), { s with gradients := some (keeping l 0 fun m => ¬ Taken is m), gradientFit := none })) ∨
    ∃ j < l.length, TooMany l.length is j ∧ (∀ k, j < k → k ≤ l.length → ¬ TooMany l.length is k) ∧
      Shallot.removeGradients (positions is) s =
        (.error .indexError, { s with gradients := some (l.take j) }) := by
  have hperm : ((is.mergeSort (fun i j => decide (i ≤ j))).reverse).Perm is :=
    (List.reverse_perm _).trans (List.mergeSort_perm _ _)
  have hsort : ((is.mergeSort (fun i j => decide (i ≤ j))).reverse).Pairwise (· ≥ ·) := by
    rw [List.pairwise_reverse]
    refine (List.pairwise_mergeSort (le := fun i j : ℕ => decide (i ≤ j))
      (fun a b c h1 h2 => by simp at *; omega) (fun a b => by simp; omega) is).imp ?_
    intro a b h3
    simpa using h3
  rw [removeGradients_eq s l hs is h hl]
  generalize (is.mergeSort (fun i j => decide (i ≤ j))).reverse = d at hperm hsort
  have ht : ∀ j, TooMany l.length is j ↔ TooMany l.length d j := by
    intro j; unfold TooMany; rw [hperm.countP_eq]
  have hk : ∀ m, Taken is m ↔ Taken d m := by
    intro m; unfold Taken askedBetween; simp only [hperm.countP_eq]
  simp only [ht, hk]
  have hloop := removeLoop_dels d l s hs
  rcases dels_exact l d hsort (fun j hj => h j (hperm.mem_iff.1 hj)) with ⟨h1, h2⟩ | ⟨j, hj, h1, h2, h3⟩
  · rw [h2] at hloop
    exact Or.inl ⟨h1, by rw [bind_ok _ _ _ _ () hloop]; rfl⟩
  · rw [h3] at hloop
    exact Or.inr ⟨j, hj, h1, h2, by rw [bind_err _ _ _ _ _ hloop]⟩

end

/-- Asked to remove the positions 1, 1 and 4 of six: those at 1, 2 and 4 are taken; … -/
example : (∀ j ≤ 6, ¬ TooMany 6 [1, 4, 1] j) ∧ ¬ Taken [1, 4, 1] 0 ∧ Taken [1, 4, 1] 1 ∧
    Taken [1, 4, 1] 2 ∧ ¬ Taken [1, 4, 1] 3 ∧ Taken [1, 4, 1] 4 ∧ ¬ Taken [1, 4, 1] 5 := by
  unfold TooMany Taken askedBetween
  decide +kernel

/-- … and 1, 4, 4 and 5 are too many: from 4 on three for two gradients. -/
example : TooMany 6 [1, 4, 5, 4] 4 ∧ ∀ k, 4 < k → k ≤ 6 → ¬ TooMany 6 [1, 4, 5, 4] k := by
  unfold TooMany
  refine ⟨by decide, fun k h h' => ?_⟩
  obtain rfl | rfl : k = 5 ∨ k = 6 := by omega
  · decide
  · decide

end Beyonce
