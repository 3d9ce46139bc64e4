import Verif.Props.Measured
import Verif.Props.Remove

/-!
# Property C136: gradients that were added can be removed again
-/

set_option linter.unusedSectionVars false

namespace Beyonce
open Spec

theorem without_tail {α : Type} (l gs : List α) : without (l ++ gs) (List.range' l.length gs.length) = l := by
  unfold without
  rw [List.zipIdx_append, List.filter_append, List.map_append]
  have e1 : ((l.zipIdx 0).filter fun p => p.2 ∉ List.range' l.length gs.length) = l.zipIdx 0 := by
    rw [List.filter_eq_self]
    rintro ⟨x, i⟩ hp
    have := List.mem_zipIdx hp
    simp only [decide_eq_true_eq, List.mem_range'_1, not_and, not_lt]
    omega
  have e2 : ((gs.zipIdx (0 + l.length)).filter fun p => p.2 ∉ List.range' l.length gs.length) = [] := by
    rw [List.filter_eq_nil_iff]
    rintro ⟨x, i⟩ hp
    have := List.mem_zipIdx hp
    simp only [decide_eq_true_eq, List.mem_range'_1, not_not]
    omega
  rw [e1, e2, List.map_nil, List.append_nil, List.zipIdx_map_fst]

section
variable {K : Type} [Field K] [LinearOrder K] [IsStrictOrderedRing K] [RealFns K] [FloorRing K]

/-- The number of gradients of a grid. -/
def Spec.howMany (s : Shallot K) : ℕ := (s.gradients.getD []).length

/-- **C136** After a call of `add_gradients`, whether it returned or raised, removing the gradients it left behind
gives the grid as it was, without a fit.  (A grid that had no list of gradients has an empty one.) -/
theorem C136_undo (times lc errors transmissions : PyVal K) (ht : Whole times) (hl : Whole lc)
    (he : Whole errors) (hr : Whole transmissions) (s : Shallot K) (s' : Shallot K)
    (h : (Shallot.addGradients times lc errors transmissions s).2 = s') :
    howMany s ≤ howMany s' ∧ (howMany s < howMany s' →
      Shallot.removeGradients (positions (List.range' (howMany s) (howMany s' - howMany s))) s' =
        (.ok (), { s with gradients := some (s.gradients.getD []), gradientFit := none })) := by
  have key : ∀ (gs : List (GGrad K)) (f : Option (GProp K)),
      s' = { s with gradients := some (s.gradients.getD [] ++ gs), gradientFit := f } →
      howMany s ≤ howMany s' ∧ (howMany s < howMany s' →
        Shallot.removeGradients (positions (List.range' (howMany s) (howMany s' - howMany s))) s' =
          (.ok (), { s with gradients := some (s.gradients.getD []), gradientFit := none })) := by
    intro gs f hs'
    have hn : howMany s' = howMany s + gs.length := by
      rw [hs']; unfold howMany; simp
    refine ⟨by omega, fun hlt => ?_⟩
    have hne : gs ≠ [] := by rintro rfl; simp at hn; omega
    rw [hn, Nat.add_sub_cancel_left, C40_removes_partial s' (s.gradients.getD [] ++ gs) (by rw [hs']) _
      List.nodup_range' (fun i hi => ?_) (by simp [hne])]
    · unfold howMany
      rw [without_tail, hs']
    · obtain ⟨-, hi⟩ := List.mem_range'_1.1 hi
      rw [List.length_append]
      exact hi
  rcases addGradients_cases times lc errors transmissions ht hl he hr s with ⟨-, h'⟩ |
    ⟨-, ⟨er, h'⟩, -⟩ | ⟨-, t, l, d, -, -, -, -, -, ⟨e', r, scale, -, -, -, -, -, -, h'⟩ |
      ⟨er, gs, -, h', -⟩⟩
  · rw [h'] at h; subst h; exact ⟨le_rfl, fun k => absurd k (lt_irrefl _)⟩
  · rw [h'] at h; subst h; exact ⟨le_rfl, fun k => absurd k (lt_irrefl _)⟩
  · rw [h'] at h; exact key _ none h.symm
  · rw [h'] at h; exact key gs s.gradientFit h.symm

/-- **C136** The grid that is left excludes the same elements as before. -/
theorem C136_mask (s : Shallot K) (f : Option (GProp K)) (i : ℕ) :
    MaskedAt { s with gradients := some (s.gradients.getD []), gradientFit := f } i ↔ MaskedAt s i := by
  unfold MaskedAt
  cases s.gradients with
  | none => simp
  | some l => simp

/-- A fit does not depend on the one that was there. -/
theorem fit_forgets (s s' : Shallot K) (w : Bool) (l : List (GGrad K)) (hl : s.gradients = some l)
    (f : Option (GProp K)) (h : Shallot.determineFit w s = (.ok (), s')) :
    Shallot.determineFit w { s with gradientFit := f } = (.ok (), s') := by
  rw [← h]
  unfold Shallot.determineFit at h ⊢
  rw [Meth.get_bind] at h
  rw [Meth.get_bind, Meth.get_bind]
  rw [hl] at h
  simp only [hl] at h ⊢
  generalize Shallot.fitLoop w l _ = x at h ⊢
  cases x with
  | error e => cases h
  | ok data =>
    simp only [Meth.lift_ok_bind] at h ⊢
    obtain ⟨y, hy⟩ : ∃ y, GProp.new (K := K) .gradientFit .none (.arr ⟨"float64", [s.params.gridShape.1,
      s.params.gridShape.2.1, s.params.gridShape.2.2], data⟩) s.params = y := ⟨_, rfl⟩
    rw [hy] at h ⊢
    cases y with
    | error e => cases h
    | ok p =>
      cases s
      cases hl
      rfl

/-- **C136** The fit that is determined anew on that grid is the one of before. -/
theorem C136_refit (s s' : Shallot K) (w : Bool) (l : List (GGrad K)) (hl : s.gradients = some l)
    (h : Shallot.determineFit w s = (.ok (), s')) :
    Shallot.determineFit w { s with gradients := some (s.gradients.getD []), gradientFit := none } = (.ok (), s') := by
  have he : ({ s with gradients := some (s.gradients.getD []), gradientFit := none } : Shallot K) =
      { s with gradientFit := none } := by rw [hl]; cases s; cases hl; rfl
  rw [he]
  exact fit_forgets s s' w l hl none h

end

/-- Non-vacuity, and the use of it: a call that raised has left a gradient behind, for which no fit can be determined;
once it is removed, there is the old fit again. -/
theorem C136_witness : ∃ (s s' s'' : Shallot ℝ) (e : Err) (p : GProp ℝ), Sound s ∧ s.gradientFit = some p ∧
    Shallot.addGradients (column [.fin 0]) (column [.fin 0]) (.float (.fin 1)) .none s = (.error e, s') ∧
    (∀ w, ∃ e', Shallot.determineFit w s' = (.error e', s')) ∧
    Shallot.removeGradients (positions (List.range' (howMany s) (howMany s' - howMany s))) s' =
      (.ok (), s'') ∧ s''.gradients = s.gradients ∧
    ∃ s₁, Shallot.determineFit true s'' = (.ok (), s₁) ∧ Shallot.determineFit true s = (.ok (), s₁) := by
  obtain ⟨s₀, s, -, -, h0, hs, hr, hd, ⟨l, hl, hl2⟩, p, hp⟩ := throwAway_fit
  obtain ⟨e, s', h, -, h2, h3⟩ := C41_false s hr _ hd ⟨"float64", [1], [.fin 0]⟩ ⟨"float64", [1], [.fin 0]⟩
    ⟨rfl, rfl, rfl⟩ ⟨rfl, rfl, rfl⟩ (by rintro a ⟨⟩; rfl) (by rintro a ⟨⟩; rfl)
    (by simp [less_iff]) rfl (by simp) (.float (.fin 1)) (by simp) (by simp) p hp
  have hu := C136_undo (column [.fin 0]) (column [.fin 0]) (.float (.fin 1)) .none (by rintro a ⟨⟩; rfl)
    (by rintro a ⟨⟩; rfl) (by rintro a ⟨⟩) (by rintro a ⟨⟩) s s' (by
      exact congrArg Prod.snd h)
  have hlt : howMany s < howMany s' := by
    refine lt_of_le_of_ne hu.1 fun hn => h2 ?_
    rcases C42_partial (column [.fin 0]) (column [.fin 0]) (.float (.fin 1)) .none (by rintro a ⟨⟩; rfl)
      (by rintro a ⟨⟩; rfl) (by rintro a ⟨⟩) (by rintro a ⟨⟩) s s' e h with ⟨k | ⟨gs, k⟩, -⟩
    · rw [k]
    · have : gs = [] := by
        rw [k] at hn
        unfold howMany at hn
        simpa using hn
      rw [k, this, hl]
      simp
  have hfit : Shallot.determineFit true s = (.ok (), s) := by
    rcases determineFit_cases true s₀ with ⟨hn, k⟩ | ⟨gs, hg, ⟨er, k, -⟩ | ⟨q, data, -, -, -, k⟩⟩
    · rw [h0] at k
      cases k
      rw [hl] at hn; cases hn
    · rw [h0] at k; cases k
    · have hk : s = { s₀ with gradientFit := some q } := by
        rw [h0] at k; exact congrArg Prod.snd k
      have := fit_forgets s₀ s true gs hg (some q) h0
      rw [← hk] at this
      exact this
  exact ⟨s, s', _, e, p, hs, hp, h, h3, hu.2 hlt, by rw [hl]; rfl, s, C136_refit s s true l hl hfit, hfit⟩

end Beyonce
