import Verif.Props.RescaleFailed

/-!
# C137: two calls of `update_gradient_scaling` are one
-/

set_option linter.unusedSectionVars false

namespace Beyonce
open Spec

section
variable {K : Type} [Field K] [LinearOrder K] [IsStrictOrderedRing K] [RealFns K] [FloorRing K]

/-- The later of two arguments, or the earlier one if the later one is missing. -/
def Spec.later (a b : PyVal K) : PyVal K := if b = .none then a else b

theorem later_none (a : PyVal K) : later a .none = a := if_pos rfl

theorem none_later (b : PyVal K) : later .none b = b := by
  unfold Spec.later
  split
  · rename_i h; exact h.symm
  · rfl

theorem later_given (a : PyVal K) {b : PyVal K} (h : b ≠ .none) : later a b = b := if_neg h

theorem later_self (a : PyVal K) : later a a = a := by
  unfold Spec.later
  split <;> rfl

theorem later_eq_none {a b : PyVal K} : later a b = .none ↔ a = .none ∧ b = .none := by
  unfold Spec.later
  split
  · rename_i h; simp [h]
  · rename_i h; simp [h]

theorem later_stored (a b : PyVal K) (x : Option (PyVal K)) :
    (if later a b = .none then x else some (later a b)) =
      if b = .none then (if a = .none then x else some a) else some b := by
  by_cases hb : b = .none
  · rw [hb, later_none, if_pos rfl]
  · rw [later_given a hb, if_neg hb, if_neg hb]

/-- A missing number is one, said or unsaid. -/
theorem determineMask_orOne (vm vo vt ve : PyVal K) :
    GGrad.determineMask vm vo (orOne vt) (orOne ve) = GGrad.determineMask vm vo vt ve := by
  have h : ∀ v : PyVal K, (if orOne v = .none then .int 1 else orOne v) =
      (if v = .none then PyVal.int 1 else v) := by
    intro v
    unfold orOne
    by_cases hv : v = .none
    · simp [hv]
    · simp [hv]
  unfold GGrad.determineMask
  rw [h vt, h ve]

theorem orOne_orOne (v : PyVal K) : orOne (orOne v) = orOne v := by
  unfold orOne
  by_cases hv : v = .none <;> simp [hv]

theorem updateScaling_nothing (s : Shallot K) :
    Shallot.updateScaling .none .none .none s = (.ok (), s) := by
  unfold Shallot.updateScaling
  rw [Meth.modify_bind]
  simp only [Meth.get_bind]
  rfl

/-- `C50_as_new` with the new scaling of every gradient. -/
theorem rescaled_as (v l t : PyVal K) (s s' : Shallot K)
    (h : Shallot.updateScaling v l t s = (.ok (), s')) (hgiven : v ≠ .none ∨ l ≠ .none ∨ t ≠ .none) :
    ∃ gs gs' : List (GGrad K), s.gradients = some gs ∧ gs'.length = gs.length ∧
      ChangesFor gs.length t ∧
      s' = { s with
        velocity := if v = .none then s.velocity else some v
        limb := if l = .none then s.limb else some l
        gradients := some gs', gradientFit := none } ∧
      ∀ (k : ℕ) (g g' : GGrad K), gs[k]? = some g → gs'[k]? = some g' → ∃ scale tr,
        NewScaling v l t s k g scale tr ∧
        ∀ h, SameGradient g h → GGrad.determineMask (Shallot.argOf g.measured) scale tr
          (Shallot.argOf g.error) h = (.ok (), g') := by
  obtain ⟨gs, gs', hg, hlen, hs', hk⟩ := C50_as_new v l t s s' h hgiven
  refine ⟨gs, gs', hg, hlen, ((C118_succeeds_iff v l t s gs hg hgiven).1 ⟨s', h⟩).1, hs', ?_⟩
  intro k g g' hkg hkg'
  obtain ⟨scale, tr, q1, q2, q3, q4, q5⟩ := hk k g g' hkg hkg'
  refine ⟨scale, tr, ⟨q1, ?_, q3, ?_⟩, q5⟩
  · intro hvl
    have := q2 hvl
    rw [hs'] at this
    exact this
  · rintro a rfl
    obtain ⟨b, hb, -, hb'⟩ := q4 (by simp)
    cases hb
    exact hb'

theorem newScaling_unique {v l t : PyVal K} {s : Shallot K} {k n : ℕ} {g : GGrad K}
    {scale tr scale' tr' : PyVal K} (ht : ChangesFor n t) (h : NewScaling v l t s k g scale tr)
    (h' : NewScaling v l t s k g scale' tr') : scale = scale' ∧ tr = tr' := by
  constructor
  · by_cases hvl : v ≠ .none ∨ l ≠ .none
    · have := (h.new hvl).symm.trans (h'.new hvl)
      exact Except.ok.inj this
    · push Not at hvl
      rw [h.kept hvl, h'.kept hvl]
  · rcases ht with rfl | ⟨a, rfl, -⟩
    · rw [h.keptTransmission rfl, h'.keptTransmission rfl]
    · rw [h.newTransmission a rfl, h'.newTransmission a rfl]

/-- **C137** Two calls are one: if `update_gradient_scaling` succeeds twice, one call with, for each
argument, what the second call was given, or else what the first one was given, succeeds and leaves the
same grid. -/
theorem C137_twice (v₁ l₁ t₁ v₂ l₂ t₂ : PyVal K) (s s₁ s₂ : Shallot K)
    (h₁ : Shallot.updateScaling v₁ l₁ t₁ s = (.ok (), s₁))
    (h₂ : Shallot.updateScaling v₂ l₂ t₂ s₁ = (.ok (), s₂)) :
    Shallot.updateScaling (later v₁ v₂) (later l₁ l₂) (later t₁ t₂) s = (.ok (), s₂) := by
  by_cases hn₁ : v₁ = .none ∧ l₁ = .none ∧ t₁ = .none
  · obtain ⟨rfl, rfl, rfl⟩ := hn₁
    rw [updateScaling_nothing] at h₁
    have : s = s₁ := congrArg Prod.snd h₁
    subst this
    rw [none_later, none_later, none_later, h₂]
  by_cases hn₂ : v₂ = .none ∧ l₂ = .none ∧ t₂ = .none
  · obtain ⟨rfl, rfl, rfl⟩ := hn₂
    rw [updateScaling_nothing] at h₂
    have : s₁ = s₂ := congrArg Prod.snd h₂
    subst this
    rw [later_none, later_none, later_none, h₁]
  have hg₁ : v₁ ≠ .none ∨ l₁ ≠ .none ∨ t₁ ≠ .none := by
    by_contra hc
    push Not at hc
    exact hn₁ hc
  have hg₂ : v₂ ≠ .none ∨ l₂ ≠ .none ∨ t₂ ≠ .none := by
    by_contra hc
    push Not at hc
    exact hn₂ hc
  have hg : later v₁ v₂ ≠ .none ∨ later l₁ l₂ ≠ .none ∨ later t₁ t₂ ≠ .none := by
    by_contra hc
    push Not at hc
    simp only [later_eq_none] at hc
    exact hn₂ ⟨hc.1.2, hc.2.1.2, hc.2.2.2⟩
  obtain ⟨gs, gs₁, a1, a2, a3, a4, a5⟩ := rescaled_as v₁ l₁ t₁ s s₁ h₁ hg₁
  obtain ⟨gs₁', gs₂, b1, b2, b3, b4, b5⟩ := rescaled_as v₂ l₂ t₂ s₁ s₂ h₂ hg₂
  have : gs₁ = gs₁' := by
    rw [a4] at b1
    exact Option.some.inj b1
  subst this
  have hch : ChangesFor gs.length (later t₁ t₂) := by
    unfold Spec.later
    split
    · exact a3
    · rw [← a2]; exact b3
  -- the scaling of the two calls together
  have key : ∀ (k : ℕ) (g g₂ : GGrad K), gs[k]? = some g → gs₂[k]? = some g₂ → ∃ scale tr,
      NewScaling (later v₁ v₂) (later l₁ l₂) (later t₁ t₂) s k g scale tr ∧
      GGrad.determineMask (Shallot.argOf g.measured) scale tr (Shallot.argOf g.error) g =
        (.ok (), g₂) := by
    intro k g g₂ hkg hkg₂
    obtain ⟨hlt, -⟩ := List.getElem?_eq_some_iff.1 hkg
    obtain ⟨g₁, hkg₁⟩ : ∃ g₁, gs₁[k]? = some g₁ :=
      ⟨_, List.getElem?_eq_getElem (by rw [a2]; exact hlt)⟩
    obtain ⟨sc₁, tr₁, n₁, d₁⟩ := a5 k g g₁ hkg hkg₁
    obtain ⟨sc₂, tr₂, n₂, d₂⟩ := b5 k g₁ g₂ hkg₁ hkg₂
    obtain ⟨m1, m2, m3, m4, m5, -⟩ := determineMask_stored (d₁ g ⟨rfl, rfl⟩)
    have d := d₂ g m5.symm
    rw [m1, m4] at d
    have hm : Shallot.argOf (some (Shallot.argOf g.measured)) = Shallot.argOf g.measured := rfl
    have he : Shallot.argOf (some (orOne (Shallot.argOf g.error))) = orOne (Shallot.argOf g.error) := rfl
    rw [hm, he] at d
    have hnew : ∀ sc, Shallot.orbital { s with
          velocity := if v₂ = .none then (if v₁ = .none then s.velocity else some v₁) else some v₂
          limb := if l₂ = .none then (if l₁ = .none then s.limb else some l₁) else some l₂ } = .ok sc →
        Shallot.orbital { s with
          velocity := if later v₁ v₂ = .none then s.velocity else some (later v₁ v₂)
          limb := if later l₁ l₂ = .none then s.limb else some (later l₁ l₂) } = .ok sc := by
      intro sc h
      rw [later_stored, later_stored]
      exact h
    have hscale : NewScaling (later v₁ v₂) (later l₁ l₂) .none s k g sc₂ (Shallot.argOf g.transmission) := by
      refine ⟨?_, ?_, fun _ => rfl, by simp⟩
      · rintro ⟨hv, hl⟩
        rw [later_eq_none] at hv hl
        rw [n₂.kept ⟨hv.2, hl.2⟩, m2, n₁.kept ⟨hv.1, hl.1⟩]
        rfl
      · intro hvl
        by_cases h2 : v₂ ≠ .none ∨ l₂ ≠ .none
        · refine hnew sc₂ ?_
          have := n₂.new h2
          rw [a4] at this
          exact this
        · push Not at h2
          obtain ⟨rfl, rfl⟩ := h2
          rw [later_none, later_none] at hvl ⊢
          rw [n₂.kept ⟨rfl, rfl⟩, m2]
          exact n₁.new hvl
    by_cases ht₂ : t₂ = .none
    · subst ht₂
      rw [later_none]
      refine ⟨sc₂, tr₁, ⟨hscale.kept, hscale.new, n₁.keptTransmission, n₁.newTransmission⟩, ?_⟩
      rw [n₂.keptTransmission rfl, m3] at d
      have ht : Shallot.argOf (some (orOne tr₁)) = orOne tr₁ := rfl
      rw [ht, determineMask_orOne] at d
      exact d
    · rw [later_given _ ht₂]
      refine ⟨sc₂, tr₂, ⟨hscale.kept, hscale.new, fun h => absurd h ht₂, n₂.newTransmission⟩, ?_⟩
      rw [← determineMask_orOne, orOne_orOne, determineMask_orOne] at d
      exact d
  obtain ⟨s₃, h₃⟩ := (C118_succeeds_iff _ _ _ s gs a1 hg).2 ⟨hch, by
    intro k g hkg
    obtain ⟨hlt, -⟩ := List.getElem?_eq_some_iff.1 hkg
    obtain ⟨scale, tr, q1, q2⟩ := key k g _ hkg
      (List.getElem?_eq_getElem (by rw [b2, a2]; exact hlt))
    exact ⟨scale, tr, _, q1, q2⟩⟩
  obtain ⟨gs', gs₃, c1, c2, c3, c4, c5⟩ := rescaled_as _ _ _ s s₃ h₃ hg
  rw [a1] at c1
  cases c1
  have hgs : gs₃ = gs₂ := by
    refine List.ext_getElem (by rw [c2, b2, a2]) fun k hk hk' => ?_
    obtain ⟨g, hkg⟩ : ∃ g, gs[k]? = some g := ⟨_, List.getElem?_eq_getElem (by rw [← c2]; exact hk)⟩
    obtain ⟨scale, tr, q1, q2⟩ := key k g _ hkg (List.getElem?_eq_getElem hk')
    obtain ⟨scale', tr', q3, q4⟩ := c5 k g _ hkg (List.getElem?_eq_getElem hk)
    obtain ⟨rfl, rfl⟩ := newScaling_unique hch q1 q3
    have := (q4 g ⟨rfl, rfl⟩).symm.trans q2
    exact congrArg Prod.snd this
  rw [later_stored, later_stored, hgs] at c4
  rw [h₃, c4, b4, a4]

/-- **C137** The last one counts: after a successful call, a successful call that gives all the
arguments the first one gave leaves the grid as if there had been no first call. -/
theorem C137_last (v₁ l₁ t₁ v₂ l₂ t₂ : PyVal K) (s s₁ s₂ : Shallot K)
    (hv : v₂ = .none → v₁ = .none) (hl : l₂ = .none → l₁ = .none) (ht : t₂ = .none → t₁ = .none)
    (h₁ : Shallot.updateScaling v₁ l₁ t₁ s = (.ok (), s₁))
    (h₂ : Shallot.updateScaling v₂ l₂ t₂ s₁ = (.ok (), s₂)) :
    Shallot.updateScaling v₂ l₂ t₂ s = (.ok (), s₂) := by
  have h : ∀ {a b : PyVal K}, (b = .none → a = .none) → later a b = b := by
    intro a b hab
    by_cases hb : b = .none
    · rw [hab hb, hb, later_none]
    · exact later_given a hb
  have := C137_twice v₁ l₁ t₁ v₂ l₂ t₂ s s₁ s₂ h₁ h₂
  rwa [h hv, h hl, h ht] at this

/-- **C137** One after the other: giving velocity, limb darkening and transmission changes in three
calls is giving them in one. -/
theorem C137_separately (v l t : PyVal K) (s s₁ s₂ s₃ : Shallot K)
    (h₁ : Shallot.updateScaling v .none .none s = (.ok (), s₁))
    (h₂ : Shallot.updateScaling .none l .none s₁ = (.ok (), s₂))
    (h₃ : Shallot.updateScaling .none .none t s₂ = (.ok (), s₃)) :
    Shallot.updateScaling v l t s = (.ok (), s₃) := by
  have := C137_twice _ _ _ _ _ _ s s₂ s₃ (C137_twice _ _ _ _ _ _ s s₁ s₂ h₁ h₂) h₃
  simpa only [later_none, none_later] using this

/-- **C137** In any order: two calls that are given different arguments leave the same grid in both
orders, if they succeed in both. -/
theorem C137_order (v₁ l₁ t₁ v₂ l₂ t₂ : PyVal K) (s s₁ s₂ s₁' s₂' : Shallot K)
    (hv : v₁ = .none ∨ v₂ = .none) (hl : l₁ = .none ∨ l₂ = .none) (ht : t₁ = .none ∨ t₂ = .none)
    (h₁ : Shallot.updateScaling v₁ l₁ t₁ s = (.ok (), s₁))
    (h₂ : Shallot.updateScaling v₂ l₂ t₂ s₁ = (.ok (), s₂))
    (h₁' : Shallot.updateScaling v₂ l₂ t₂ s = (.ok (), s₁'))
    (h₂' : Shallot.updateScaling v₁ l₁ t₁ s₁' = (.ok (), s₂')) : s₂' = s₂ := by
  have h : ∀ {a b : PyVal K}, (a = .none ∨ b = .none) → later b a = later a b := by
    rintro a b (rfl | rfl) <;> rw [later_none, none_later]
  have e₁ := C137_twice _ _ _ _ _ _ s s₁ s₂ h₁ h₂
  have e₂ := C137_twice _ _ _ _ _ _ s s₁' s₂' h₁' h₂'
  rw [h hv, h hl, h ht, e₁] at e₂
  exact (congrArg Prod.snd e₂).symm

/-- **C137** Saying it again changes nothing: a successful call can be repeated, and the grid stays as
it is. -/
theorem C137_again (v l t : PyVal K) (s s₁ : Shallot K)
    (h : Shallot.updateScaling v l t s = (.ok (), s₁)) :
    Shallot.updateScaling v l t s₁ = (.ok (), s₁) := by
  by_cases hn : v = .none ∧ l = .none ∧ t = .none
  · obtain ⟨rfl, rfl, rfl⟩ := hn
    exact updateScaling_nothing s₁
  have hg : v ≠ .none ∨ l ≠ .none ∨ t ≠ .none := by
    by_contra hc
    push Not at hc
    exact hn hc
  obtain ⟨gs, gs₁, a1, a2, a3, a4, a5⟩ := rescaled_as v l t s s₁ h hg
  have hgs : s₁.gradients = some gs₁ := by rw [a4]
  obtain ⟨s₂, h₂⟩ := (C118_succeeds_iff v l t s₁ gs₁ hgs hg).2 ⟨by rw [a2]; exact a3, by
    intro k g₁ hkg₁
    obtain ⟨hlt, -⟩ := List.getElem?_eq_some_iff.1 hkg₁
    obtain ⟨g, hkg⟩ : ∃ g, gs[k]? = some g := ⟨_, List.getElem?_eq_getElem (by rw [← a2]; exact hlt)⟩
    obtain ⟨sc, tr, n, d⟩ := a5 k g g₁ hkg hkg₁
    obtain ⟨m1, m2, m3, m4, m5, -⟩ := determineMask_stored (d g ⟨rfl, rfl⟩)
    have d := d g₁ m5
    have ho : v ≠ .none ∨ l ≠ .none → Shallot.orbital { s₁ with
        velocity := if v = .none then s₁.velocity else some v
        limb := if l = .none then s₁.limb else some l } = .ok sc := by
      intro hvl
      rw [← n.new hvl, a4]
      have e : ∀ (x : PyVal K) (y : Option (PyVal K)),
          (if x = .none then (if x = .none then y else some x) else some x) =
            if x = .none then y else some x := by
        intro x y
        split <;> rfl
      show Shallot.orbital { s with
        velocity := if v = .none then (if v = .none then s.velocity else some v) else some v
        limb := if l = .none then (if l = .none then s.limb else some l) else some l
        gradients := some gs₁, gradientFit := none } = _
      rw [e, e]
      rfl
    have hm : Shallot.argOf g₁.measured = Shallot.argOf g.measured := by rw [m1]; rfl
    have he : Shallot.argOf g₁.error = orOne (Shallot.argOf g.error) := by rw [m4]; rfl
    have hk : sc = Shallot.argOf g₁.orbital := by rw [m2]; rfl
    rw [hm, he]
    by_cases ht : t = .none
    · refine ⟨sc, orOne tr, g₁, ⟨fun _ => hk, ho, fun _ => by rw [m3]; rfl, ?_⟩, ?_⟩
      · rintro a rfl
        cases ht
      · rw [determineMask_orOne]
        exact d
    · refine ⟨sc, tr, g₁, ⟨fun _ => hk, ho, fun h => absurd h ht, n.newTransmission⟩, ?_⟩
      rw [← determineMask_orOne, orOne_orOne, determineMask_orOne]
      exact d⟩
  have := C137_twice v l t v l t s s₁ s₂ h h₂
  rw [later_self, later_self, later_self, h] at this
  have : s₁ = s₂ := congrArg Prod.snd this
  rw [h₂, this]

end

/-- The hypotheses of `C137_twice` and `C137_last` are met: velocity 2, then velocity 3, on a grid with
two gradients and a fit. The grids after the two calls differ. -/
theorem C137_witness : ∃ (s s₁ s₂ : Shallot ℝ) (g₁ g₂ : GGrad ℝ) (p : GProp ℝ),
    s.gradients = some [g₁, g₂] ∧ s.gradientFit = some p ∧
    Shallot.updateScaling (.int 2) .none .none s = (.ok (), s₁) ∧
    Shallot.updateScaling (.int 3) .none .none s₁ = (.ok (), s₂) ∧ s₂ ≠ s₁ ∧ s₁ ≠ s ∧
    Shallot.updateScaling (.int 3) .none .none s = (.ok (), s₂) := by
  obtain ⟨s, g₁, g₂, p, -, -, hl, hg, hp, -, hm⟩ := throwAway_scaled
  have hsl : (slopeOf (1 / 2)).slope.abs = .fin (1 / 2) := by
    show (XF.fin (1 / 2 : ℝ)).abs = _
    rw [XF.abs_fin, abs_of_nonneg (by norm_num)]
  have step : ∀ (n : ℕ) (r : Shallot ℝ) (gs : List (GGrad ℝ)), 1 ≤ n → r.limb = some (.int 0) →
      r.gradients = some gs → (∀ g ∈ gs, g.measured = some (.npFloat .w64 (.fin (1 / 2))) ∧
        g.transmission = some (.npFloat .w64 (.fin 1)) ∧ g.error = some (.npFloat .w64 (.fin 1))) →
      ∃ r', Shallot.updateScaling (.int n) .none .none r = (.ok (), r') := by
    intro n r gs hn hrl hrg hrm
    obtain ⟨k, hk, hk2, ho⟩ := orbital_int (Shallot.storeScaling (.int n) .none r) n hn hrl rfl
    refine updateScaling_velocity r gs (.int n) (.float (.fin k)) hrg (by simp) ho ?_
    intro g hgm
    obtain ⟨m1, m3, m4⟩ := hrm g hgm
    rw [m1, m3, m4]
    have := slope_mask g k (1 / 2) hk hk2 (by norm_num) le_rfl
    rw [hsl] at this
    exact this
  obtain ⟨s₁, h₁⟩ := step 2 s _ (by norm_num) hl hg hm
  obtain ⟨gs, gs₁, a1, a2, -, a4, a5⟩ := rescaled_as _ _ _ s s₁ h₁ (Or.inl (by simp))
  rw [hg] at a1
  cases a1
  obtain ⟨s₂, h₂⟩ := step 3 s₁ gs₁ (by norm_num) (by rw [a4]; exact hl) (by rw [a4]) (by
    intro g' hg'
    obtain ⟨k, hk⟩ := List.mem_iff_getElem?.1 hg'
    obtain ⟨hlt, -⟩ := List.getElem?_eq_some_iff.1 hk
    obtain ⟨g, hkg⟩ : ∃ g, [g₁, g₂][k]? = some g :=
      ⟨_, List.getElem?_eq_getElem (by rw [← a2]; exact hlt)⟩
    obtain ⟨sc, tr, n, d⟩ := a5 k g g' hkg hk
    obtain ⟨q1, -, q3, q4, -, -⟩ := determineMask_stored (d g ⟨rfl, rfl⟩)
    obtain ⟨m1, m3, m4⟩ := hm g (List.mem_of_getElem? hkg)
    rw [q1, q3, q4, n.keptTransmission rfl, m1, m3, m4]
    simp [Shallot.argOf, orOne])
  obtain ⟨gs', gs₂, b1, b2, -, b4, b5⟩ := rescaled_as _ _ _ s₁ s₂ h₂ (Or.inl (by simp))
  refine ⟨s, s₁, s₂, g₁, g₂, p, hg, hp, h₁, h₂, ?_, ?_,
    C137_last _ _ _ _ _ _ s s₁ s₂ (by simp) (by simp) (by simp) h₁ h₂⟩
  · intro he
    have e2 : s₂.velocity = some (.int 3) := by rw [b4]; simp
    have e1 : s₁.velocity = some (.int 2) := by rw [a4]; simp
    rw [he, e1] at e2
    simp at e2
  · intro he
    have e1 : s₁.gradientFit = none := by rw [a4]
    rw [he, hp] at e1
    cases e1

end Beyonce
