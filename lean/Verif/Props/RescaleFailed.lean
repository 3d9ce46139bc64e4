import Verif.Props.Rescale

/-!
# C118: what a call of `update_gradient_scaling` that raises leaves behind
-/

set_option linter.unusedSectionVars false

namespace Beyonce
open Spec

section
variable {K : Type} [Field K] [LinearOrder K] [IsStrictOrderedRing K] [RealFns K] [FloorRing K]

/-- A gradient that `determine_mask` could not be applied to keeps its position, its data and its
mask. -/
theorem determineMask_raised {vm vo vt ve : PyVal K} {g g' : GGrad K} {e : Err}
    (h : GGrad.determineMask vm vo vt ve g = (.error e, g')) :
    g'.position = g.position ∧ g'.prop = g.prop := by
  rcases determineMask_cases vm vo vt ve g with ⟨-, e, h'⟩ | ⟨-, -, e, h'⟩ | ⟨-, -, -, e, h'⟩ |
    ⟨-, -, -, -, e, h'⟩ | ⟨h1, h2, h3, h4, ⟨e, -, h'⟩ | ⟨q, hq1, ⟨hlt, h'⟩ | ⟨hlt, h'⟩⟩⟩
  all_goals rw [h'] at h
  all_goals first | (simp at h; done) | skip
  all_goals have hg : _ = g' := congrArg Prod.snd h
  all_goals subst hg
  all_goals exact ⟨rfl, rfl⟩

theorem rescaleLoop_raised (u : Bool) (t : Option (List (XF K))) (gs : List (GGrad K)) :
    ∀ (pre : List (GGrad K)) (s s' : Shallot K) (e : Err), s.gradients = some (pre ++ gs) →
    Shallot.rescaleLoop u t gs.length pre.length s = (.error e, s') →
    ∃ (gs' : List (GGrad K)) (n : ℕ), n < gs.length ∧
      s' = { s with gradients := some (pre ++ gs') } ∧ gs'.length = gs.length ∧
      ∀ (k : ℕ) (g g' : GGrad K), gs[k]? = some g → gs'[k]? = some g' →
        (k < n → ∃ scale, (if u then s.orbital else .ok (Shallot.argOf g.orbital)) = .ok scale ∧
          GGrad.determineMask (Shallot.argOf g.measured) scale (newTransmission t (pre.length + k) g)
            (Shallot.argOf g.error) g = (.ok (), g')) ∧
        (k = n → ((if u then s.orbital else .ok (Shallot.argOf g.orbital)) = .error e ∧ g' = g) ∨
          ∃ scale, (if u then s.orbital else .ok (Shallot.argOf g.orbital)) = .ok scale ∧
            GGrad.determineMask (Shallot.argOf g.measured) scale
              (newTransmission t (pre.length + k) g) (Shallot.argOf g.error) g = (.error e, g')) ∧
        (n < k → g' = g) := by
  induction gs with
  | nil => intro pre s s' e hg h; cases h
  | cons g gs ih =>
    intro pre s s' e hg h
    rw [List.length_cons] at h
    unfold Shallot.rescaleLoop at h
    rw [Meth.get_bind] at h
    have hk : (s.gradients.getD [])[pre.length]? = some g := by rw [hg]; simp
    simp only [hk] at h
    cases hsc : (if u = true then s.orbital else .ok (Shallot.argOf g.orbital)) with
    | error e' =>
      rw [hsc] at h
      cases h
      refine ⟨g :: gs, 0, by simp, by rw [← hg], rfl, ?_⟩
      intro k a b ha hb
      rw [ha] at hb
      cases hb
      refine ⟨fun hk => absurd hk (Nat.not_lt_zero _), ?_, fun _ => rfl⟩
      rintro rfl
      cases ha
      exact Or.inl ⟨hsc, rfl⟩
    | ok scale =>
      rw [hsc, Meth.lift_ok_bind] at h
      have h : (do
          Shallot.onGradient pre.length (GGrad.determineMask (Shallot.argOf g.measured) scale
            (newTransmission t pre.length g) (Shallot.argOf g.error))
          Shallot.rescaleLoop u t gs.length (pre.length + 1)) s = (.error e, s') := h
      obtain ⟨r, hr⟩ : ∃ r, r = GGrad.determineMask (Shallot.argOf g.measured) scale
          (newTransmission t pre.length g) (Shallot.argOf g.error) g := ⟨_, rfl⟩
      have hon : Shallot.onGradient pre.length (GGrad.determineMask (Shallot.argOf g.measured) scale
          (newTransmission t pre.length g) (Shallot.argOf g.error)) s =
          (r.1, { s with gradients := some (pre ++ r.2 :: gs) }) := by
        unfold Shallot.onGradient
        rw [hk]
        simp only [hg, Option.getD_some, ← hr]
        congr 3
        simp
      obtain ⟨r1, r2⟩ := r
      cases r1 with
      | error er =>
        rw [bind_err _ _ _ _ er hon] at h
        cases h
        refine ⟨r2 :: gs, 0, by simp, rfl, rfl, ?_⟩
        intro k a b ha hb
        refine ⟨fun hk => absurd hk (Nat.not_lt_zero _), ?_, ?_⟩
        · rintro rfl
          simp only [List.getElem?_cons_zero, Option.some.injEq] at ha hb
          subst ha hb
          exact Or.inr ⟨scale, hsc, hr.symm⟩
        · intro hk
          obtain ⟨k, rfl⟩ : ∃ j, k = j + 1 := ⟨k - 1, by omega⟩
          simp only [List.getElem?_cons_succ] at ha hb
          rw [ha] at hb
          cases hb
          rfl
      | ok x =>
        cases x
        rw [bind_ok _ _ _ _ () hon] at h
        obtain ⟨gs', n, hn, k1, k2, k3⟩ := ih (pre ++ [r2])
          { s with gradients := some (pre ++ r2 :: gs) } s' e (by simp) (by simpa using h)
        refine ⟨r2 :: gs', n + 1, by simpa using hn, ?_, by simp [k2], ?_⟩
        · rw [k1]
          simp
        · intro k a b ha hb
          cases k with
          | zero =>
            simp only [List.getElem?_cons_zero, Option.some.injEq] at ha hb
            subst ha hb
            exact ⟨fun _ => ⟨scale, hsc, hr.symm⟩, fun h => absurd h (by omega),
              fun h => absurd h (by omega)⟩
          | succ k =>
            simp only [List.getElem?_cons_succ] at ha hb
            have q := k3 k a b ha hb
            rw [List.length_append, List.length_singleton, Nat.add_assoc, Nat.add_comm 1 k] at q
            exact ⟨fun h => q.1 (by omega), fun h => q.2.1 (by omega), fun h => q.2.2 (by omega)⟩

/-- The transmission changes are missing, or a one-dimensional array of doubles in `[-1, 1]` with one
entry for each of `n` gradients. -/
def Spec.ChangesFor (n : ℕ) (t : PyVal K) : Prop :=
  t = .none ∨ ∃ a, t = .arr a ∧ a.dtype = "float64" ∧ a.shape = [n] ∧
    ∀ x ∈ a.data, ¬ Less x (.fin (-1)) ∧ ¬ Less (.fin 1) x

theorem newTransmissions_raises_iff (s : Shallot K) (gs : List (GGrad K)) (hg : s.gradients = some gs)
    (t : PyVal K) : (∃ e, s.newTransmissions t = .error e) ↔ ¬ ChangesFor gs.length t := by
  have hsh : s.gradientsShape = [gs.length] := by unfold Shallot.gradientsShape; rw [hg]
  have hb := fun a => both_ok t a (.int (-1)) (.int 1) (.fin ((-1 : ℤ) : K)) (.fin ((1 : ℤ) : K))
    (by simp) (by simp) (int_isNumber (-1)) (int_isNumber 1) (by
      rw [less_iff]
      simp only [XF.lt, decide_eq_true_eq, not_lt]
      push_cast
      linarith)
  simp only [Int.cast_neg, Int.cast_one] at hb
  unfold Shallot.newTransmissions Spec.ChangesFor
  by_cases ht : t = .none
  · simp [ht]
  rw [if_neg ht]
  cases ha : array t (lower := .int (-1)) (upper := .int 1) (dtype := .str "float64")
      (numDimensions := .int 1) with
  | error e =>
    refine ⟨fun _ => ?_, fun _ => ⟨e, rfl⟩⟩
    rintro (h | ⟨a, h1, h2, h3, h4⟩)
    · exact ht h
    · rw [(hb a).2 ⟨⟨h1, h2, by rw [h3]; rfl⟩, h4⟩] at ha
      cases ha
  | ok a =>
    rw [ok_bind]
    obtain ⟨hf, h4⟩ := (hb a).1 ha
    cases hs : sameShapeArrays [.arr a, .arr ⟨"object", s.gradientsShape, []⟩] 2 with
    | error e =>
      refine ⟨fun _ => ?_, fun _ => ⟨e, rfl⟩⟩
      rintro (h | ⟨b, h1, h2, h3, -⟩)
      · exact ht h
      · have hab : a = b := by
          have := hf.arr.symm.trans h1
          exact PyVal.arr.inj this
        subst hab
        rw [(sameShape2_ok _ _).2 (h3.trans hsh.symm)] at hs
        cases hs
    | ok _ =>
      rw [ok_bind]
      refine ⟨fun ⟨e, h⟩ => (by cases h), fun h => absurd (Or.inr ⟨a, hf.arr, hf.type, ?_, h4⟩) h⟩
      exact ((sameShape2_ok _ _).1 hs).trans hsh

/-- The orbital scale and the transmission change that a call on `s` with the arguments `v`, `l` and `t`
uses for `g`, gradient number `k`: the scale of the new velocity and limb darkening if one of them is
given, the `k`-th transmission change if they are given, otherwise what the gradient had. -/
structure Spec.NewScaling (v l t : PyVal K) (s : Shallot K) (k : ℕ) (g : GGrad K) (scale tr : PyVal K) :
    Prop where
  kept : v = .none ∧ l = .none → scale = Shallot.argOf g.orbital
  new : v ≠ .none ∨ l ≠ .none → Shallot.orbital { s with
    velocity := if v = .none then s.velocity else some v
    limb := if l = .none then s.limb else some l } = .ok scale
  keptTransmission : t = .none → tr = Shallot.argOf g.transmission
  newTransmission : ∀ a, t = .arr a → tr = .npFloat .w64 (a.data.getD k .nan)

theorem newScaling_of (v l t : PyVal K) (s : Shallot K) (k : ℕ) (g : GGrad K) (scale : PyVal K)
    (tt : Option (List (XF K))) (ht : (Shallot.storeScaling v l s).newTransmissions t = .ok tt)
    (h : (if decide (v ≠ .none ∨ l ≠ .none) = true then (Shallot.storeScaling v l s).orbital else
      .ok (Shallot.argOf g.orbital)) = .ok scale) :
    NewScaling v l t s k g scale (newTransmission tt k g) := by
  obtain ⟨h1, h2, h3⟩ := newTransmissions_ok _ _ _ ht
  refine ⟨?_, ?_, ?_, ?_⟩
  · rintro ⟨rfl, rfl⟩
    simpa using h.symm
  · intro hvl
    rw [decide_eq_true hvl] at h
    exact h
  · intro htn
    rw [h2.2 htn]
    rfl
  · rintro a rfl
    rw [h1]
    rfl

/-- **C118** (partial) A call of `update_gradient_scaling` that raises changes the stored velocity and
limb darkening (if they are given, whatever they are) and gradients, nothing else: the fit is kept.
Either no gradient has been touched, because there are none or the transmission changes are not an
array for them, or there is a first gradient `n` that could not be rescaled: the ones before it have
been rescaled as in a successful call, the ones after it are as before, and it has its position, its
data and its mask. The property asks that a call that raises changes nothing: see `C118_false` and
`C118_false_velocity`. -/
theorem C118_partial (v l t : PyVal K) (s s' : Shallot K) (e : Err)
    (h : Shallot.updateScaling v l t s = (.error e, s')) :
    (s' = { s with
        velocity := if v = .none then s.velocity else some v
        limb := if l = .none then s.limb else some l } ∧
      ∀ gs, s.gradients = some gs → ¬ ChangesFor gs.length t) ∨
    ∃ (gs gs' : List (GGrad K)) (n : ℕ), s.gradients = some gs ∧ gs'.length = gs.length ∧
      n < gs.length ∧ ChangesFor gs.length t ∧
      s' = { s with
        velocity := if v = .none then s.velocity else some v
        limb := if l = .none then s.limb else some l
        gradients := some gs' } ∧
      ∀ (k : ℕ) (g g' : GGrad K), gs[k]? = some g → gs'[k]? = some g' →
        (k < n → ∃ scale tr, NewScaling v l t s k g scale tr ∧
          GGrad.determineMask (Shallot.argOf g.measured) scale tr (Shallot.argOf g.error) g =
            (.ok (), g')) ∧
        (k = n → g'.position = g.position ∧ g'.prop = g.prop ∧
          ((g' = g ∧ (v ≠ .none ∨ l ≠ .none) ∧ s'.orbital = .error e) ∨
          ∃ scale tr, NewScaling v l t s k g scale tr ∧
            GGrad.determineMask (Shallot.argOf g.measured) scale tr (Shallot.argOf g.error) g =
              (.error e, g'))) ∧
        (n < k → g' = g) := by
  unfold Shallot.updateScaling at h
  rw [Meth.modify_bind] at h
  simp only [Meth.get_bind] at h
  have hnt := fun gs (hg : (Shallot.storeScaling v l s).gradients = some gs) =>
    newTransmissions_raises_iff _ gs hg t
  cases ht : (Shallot.storeScaling v l s).newTransmissions t with
  | error e' =>
    rw [ht] at h
    cases h
    exact Or.inl ⟨rfl, fun gs hg => (hnt gs hg).1 ⟨_, ht⟩⟩
  | ok tt =>
    rw [ht, Meth.lift_ok_bind] at h
    obtain ⟨h1, h2, h3⟩ := newTransmissions_ok _ _ _ ht
    by_cases hb : (!decide (v ≠ .none ∨ l ≠ .none) && tt.isNone) = true
    · rw [if_pos hb] at h
      cases h
    rw [if_neg hb] at h
    cases hg : (Shallot.storeScaling v l s).gradients with
    | none =>
      rw [hg] at h
      cases h
      left
      refine ⟨rfl, fun gs hgs => ?_⟩
      have : s.gradients = none := hg
      rw [hgs] at this
      cases this
    | some gs =>
      rw [hg] at h
      have hch : ChangesFor gs.length t := by
        by_contra hn
        obtain ⟨e', he'⟩ := (hnt gs hg).2 hn
        rw [ht] at he'
        cases he'
      rcases bind_cases (Shallot.rescaleLoop (decide (v ≠ .none ∨ l ≠ .none)) tt gs.length 0)
        (fun _ => Shallot.resetFit) (Shallot.storeScaling v l s) with ⟨⟨⟩, s₁, e1, e2⟩ | ⟨e', s₁, e1, e2⟩
      · have h := e2.symm.trans h
        cases h
      · have h := e2.symm.trans h
        cases h
        obtain ⟨gs', n, k0, k1, k2, k3⟩ :=
          rescaleLoop_raised _ tt gs [] _ s' _ (by simpa using hg) e1
        subst k1
        refine Or.inr ⟨gs, gs', n, hg, k2, k0, hch, rfl, ?_⟩
        intro k g g' hk hk'
        obtain ⟨q1, q2, q3⟩ := k3 k g g' hk hk'
        refine ⟨fun hkn => ?_, fun hkn => ?_, q3⟩
        · obtain ⟨scale, q4, q5⟩ := q1 hkn
          exact ⟨scale, newTransmission tt k g, newScaling_of v l t s k g scale tt ht q4,
            by simpa using q5⟩
        · rcases q2 hkn with ⟨q4, rfl⟩ | ⟨scale, q4, q5⟩
          · refine ⟨rfl, rfl, Or.inl ⟨rfl, ?_⟩⟩
            by_cases hvl : v ≠ .none ∨ l ≠ .none
            · rw [decide_eq_true hvl] at q4
              exact ⟨hvl, q4⟩
            · rw [decide_eq_false hvl] at q4
              cases q4
          · obtain ⟨w1, w2⟩ := determineMask_raised q5
            exact ⟨w1, w2, Or.inr ⟨scale, newTransmission tt k g,
              newScaling_of v l t s k g scale tt ht q4, by simpa using q5⟩⟩

/-- **C118** Transmission changes that are not an array for the gradients, given alone, change
nothing. -/
theorem C118_transmissions (t : PyVal K) (s : Shallot K) (gs : List (GGrad K))
    (hg : s.gradients = some gs) (ht : ¬ ChangesFor gs.length t) :
    ∃ e, Shallot.updateScaling .none .none t s = (.error e, s) := by
  obtain ⟨e, he⟩ := (newTransmissions_raises_iff s gs hg t).2 ht
  refine ⟨e, ?_⟩
  unfold Shallot.updateScaling
  rw [Meth.modify_bind]
  simp only [Meth.get_bind]
  rw [show (Shallot.storeScaling .none .none s).newTransmissions t = .error e from he]
  rfl

/-- **C118** A call in which something is given succeeds exactly when the transmission changes are an
array for the gradients and `determine_mask` accepts the new scaling of every gradient. -/
theorem C118_succeeds_iff (v l t : PyVal K) (s : Shallot K) (gs : List (GGrad K))
    (hg : s.gradients = some gs) (hgiven : v ≠ .none ∨ l ≠ .none ∨ t ≠ .none) :
    (∃ s', Shallot.updateScaling v l t s = (.ok (), s')) ↔ ChangesFor gs.length t ∧
      ∀ (k : ℕ) (g : GGrad K), gs[k]? = some g → ∃ scale tr g',
        NewScaling v l t s k g scale tr ∧
        GGrad.determineMask (Shallot.argOf g.measured) scale tr (Shallot.argOf g.error) g =
          (.ok (), g') := by
  have hnt := newTransmissions_raises_iff (Shallot.storeScaling v l s) gs hg t
  constructor
  · rintro ⟨s', h⟩
    refine ⟨?_, ?_⟩
    · by_contra hn
      obtain ⟨e, he⟩ := hnt.2 hn
      unfold Shallot.updateScaling at h
      rw [Meth.modify_bind] at h
      simp only [Meth.get_bind] at h
      rw [he] at h
      cases h
    · obtain ⟨gs₁, gs', hg₁, hlen, hs', hk⟩ := C50_as_new v l t s s' h hgiven
      rw [hg] at hg₁
      cases hg₁
      intro k g hkg
      obtain ⟨hlt, -⟩ := List.getElem?_eq_some_iff.1 hkg
      obtain ⟨scale, tr, q1, q2, q3, q4, q5⟩ := hk k g _ hkg
        (List.getElem?_eq_getElem (by rw [hlen]; exact hlt))
      refine ⟨scale, tr, _, ⟨q1, ?_, q3, ?_⟩, q5 g ⟨rfl, rfl⟩⟩
      · intro hvl
        have := q2 hvl
        rw [hs'] at this
        exact this
      · rintro a rfl
        obtain ⟨b, hb, -, hb'⟩ := q4 (by simp)
        cases hb
        exact hb'
  · rintro ⟨hch, hk⟩
    unfold Shallot.updateScaling
    rw [Meth.modify_bind]
    simp only [Meth.get_bind]
    cases ht : (Shallot.storeScaling v l s).newTransmissions t with
    | error e => exact absurd hch (hnt.1 ⟨e, ht⟩)
    | ok tt =>
      rw [Meth.lift_ok_bind]
      obtain ⟨h1, h2, h3⟩ := newTransmissions_ok _ _ _ ht
      by_cases hb : (!decide (v ≠ .none ∨ l ≠ .none) && tt.isNone) = true
      · rw [if_pos hb]
        exact ⟨_, rfl⟩
      rw [if_neg hb, show (Shallot.storeScaling v l s).gradients = some gs from hg]
      obtain ⟨s', hs'⟩ := rescaleLoop_of (decide (v ≠ .none ∨ l ≠ .none)) tt gs []
        (Shallot.storeScaling v l s) hg (by
          intro k g hkg
          obtain ⟨scale, tr, g', ⟨q1, q2, q3, q4⟩, q5⟩ := hk k g hkg
          refine ⟨scale, ?_, ?_⟩
          · by_cases hvl : v ≠ .none ∨ l ≠ .none
            · rw [decide_eq_true hvl, if_pos rfl]
              exact q2 hvl
            · rw [decide_eq_false hvl, if_neg (by simp)]
              push Not at hvl
              rw [q1 hvl]
          · have : newTransmission tt (([] : List (GGrad K)).length + k) g = tr := by
              rcases hch with rfl | ⟨a, rfl, -⟩
              · rw [h2.2 rfl, q3 rfl]
                rfl
              · rw [h1, q4 a rfl]
                simp [newTransmission, transmissionsIn]
            rw [this, q5])
      exact ⟨_, (bind_ok _ _ _ _ () hs').trans rfl⟩

/-- **C118** is false: the array of transmission changes may contain a negative number. The call then
raises at that gradient (here the second one) after the gradients before it have been rescaled, and
the fit of the gradients as they were is kept. -/
theorem C118_false (v : PyVal K) (s : Shallot K) (g₁ g₂ : GGrad K) (gs : List (GGrad K))
    (hg : s.gradients = some (g₁ :: g₂ :: gs)) (hv : v ≠ .none) (scale : PyVal K)
    (ho : Shallot.orbital { s with velocity := some v } = .ok scale) (x y : K) (xs : List (XF K))
    (hch : ChangesFor (gs.length + 2) (.arr ⟨"float64", [gs.length + 2], .fin x :: .fin y :: xs⟩))
    (hy : y < 0) (g₁' : GGrad K)
    (h₁ : GGrad.determineMask (Shallot.argOf g₁.measured) scale (.npFloat .w64 (.fin x))
      (Shallot.argOf g₁.error) g₁ = (.ok (), g₁')) :
    ∃ (e : Err) (g₂' : GGrad K), g₂'.position = g₂.position ∧ g₂'.prop = g₂.prop ∧
      Shallot.updateScaling v .none (.arr ⟨"float64", [gs.length + 2], .fin x :: .fin y :: xs⟩) s =
        (.error e, { s with velocity := some v, gradients := some (g₁' :: g₂' :: gs) }) := by
  generalize hr : Shallot.updateScaling v .none
    (.arr ⟨"float64", [gs.length + 2], .fin x :: .fin y :: xs⟩) s = r
  obtain ⟨r, s'⟩ := r
  have hneg : ¬ Fraction (orOne (.npFloat .w64 (.fin y) : PyVal K)) := by
    rw [show orOne (.npFloat .w64 (.fin y) : PyVal K) = .npFloat .w64 (.fin y) by simp [orOne]]
    rintro ⟨z, hz, h0, -⟩
    obtain rfl := isNumber_unique hz (Or.inr ⟨rfl, .npFloat .w64 (.fin y)⟩)
    rw [less_iff] at h0
    simp [XF.lt, hy] at h0
  cases r with
  | ok u =>
    cases u
    exfalso
    obtain ⟨-, hk⟩ := (C118_succeeds_iff v .none _ s _ hg (Or.inl hv)).1 ⟨s', hr⟩
    obtain ⟨sc, tr, g', q4, q5⟩ := hk 1 g₂ rfl
    have := q4.newTransmission _ rfl
    simp only [List.getD_cons_succ, List.getD_cons_zero] at this
    subst this
    exact hneg (determineMask_stored q5).2.2.2.2.2
  | error e =>
    rcases C118_partial _ _ _ _ _ _ hr with ⟨-, hn⟩ | ⟨l, l', n, hl, hlen, hn, -, hs', hk⟩
    · exact absurd hch (hn _ hg)
    rw [hg] at hl
    cases hl
    obtain ⟨g₁'', g₂'', l'', rfl⟩ : ∃ a b c, l' = a :: b :: c := by
      match l', hlen with
      | a :: b :: c, _ => exact ⟨a, b, c, rfl⟩
    have hsc : ∀ sc tr, NewScaling v .none
        (.arr ⟨"float64", [gs.length + 2], .fin x :: .fin y :: xs⟩) s 0 g₁ sc tr →
        sc = scale ∧ tr = .npFloat .w64 (.fin x) := by
      intro sc tr h
      have h2 := h.new (Or.inl hv)
      rw [if_neg hv, if_pos rfl] at h2
      exact ⟨Except.ok.inj (h2.symm.trans ho), h.newTransmission _ rfl⟩
    have ho' : s'.orbital = .ok scale := by
      rw [hs', if_neg hv, if_pos rfl]
      exact ho
    have hn1 : n = 1 := by
      rcases Nat.lt_trichotomy n 1 with h | h | h
      · exfalso
        obtain rfl : n = 0 := by omega
        rcases ((hk 0 g₁ g₁'' rfl rfl).2.1 rfl).2.2 with ⟨-, -, h⟩ | ⟨sc, tr, h, h'⟩
        · rw [ho'] at h
          cases h
        · obtain ⟨rfl, rfl⟩ := hsc _ _ h
          rw [h₁] at h'
          cases h'
      · exact h
      · exfalso
        obtain ⟨sc, tr, h, h'⟩ := (hk 1 g₂ g₂'' rfl rfl).1 h
        have := h.newTransmission _ rfl
        simp only [List.getD_cons_succ, List.getD_cons_zero] at this
        subst this
        exact hneg (determineMask_stored h').2.2.2.2.2
    subst hn1
    obtain ⟨w1, w2, -⟩ := (hk 1 g₂ g₂'' rfl rfl).2.1 rfl
    refine ⟨e, g₂'', w1, w2, ?_⟩
    have e1 : g₁'' = g₁' := by
      obtain ⟨sc, tr, h, h'⟩ := (hk 0 g₁ g₁'' rfl rfl).1 one_pos
      obtain ⟨rfl, rfl⟩ := hsc _ _ h
      rw [h₁] at h'
      exact (congrArg Prod.snd h').symm
    have e2 : l'' = gs := by
      refine List.ext_getElem? fun k => ?_
      have hlen' : l''.length = gs.length := by simpa using hlen
      by_cases hkl : k < gs.length
      · rw [List.getElem?_eq_getElem hkl, List.getElem?_eq_getElem (by rw [hlen']; exact hkl)]
        congr 1
        exact (hk (k + 2) gs[k] (l''[k]'(by rw [hlen']; exact hkl)) (by simp [hkl])
          (by simp [hlen', hkl])).2.2 (by omega)
      · rw [List.getElem?_eq_none (by omega), List.getElem?_eq_none (by omega)]
    rw [hs', e1, e2, if_neg hv, if_pos rfl]

/-- **C118** is false: a velocity for which the orbital scale is negative is stored although the call
raises at the first gradient, and from then on every call of `add_gradients` raises too. -/
theorem C118_false_velocity (v : PyVal K) (s : Shallot K) (g : GGrad K) (gs : List (GGrad K))
    (hg : s.gradients = some (g :: gs)) (hv : v ≠ .none) (scale : PyVal K)
    (ho : Shallot.orbital { s with velocity := some v } = .ok scale) (hneg : ¬ NotNegative scale)
    (vm : PyVal K) (hm : g.measured = some vm) (hm' : NotNegative vm) :
    ∃ e, Shallot.updateScaling v .none .none s = (.error e, { s with velocity := some v }) ∧
      (s.ready = true → ∀ (bs : List (List (Measurement K))), bs.flatten ≠ [] → ∀ s'',
        addCalls bs { s with velocity := some v } ≠ (.ok (), s'')) := by
  obtain ⟨e, he⟩ : ∃ e, GGrad.determineMask vm scale (Shallot.argOf g.transmission)
      (Shallot.argOf g.error) g = (.error e, g) := by
    have hgm : ({ g with measured := some vm } : GGrad K) = g := by rw [← hm]
    rcases determineMask_cases vm scale (Shallot.argOf g.transmission) (Shallot.argOf g.error) g with
      ⟨h, -⟩ | ⟨-, -, e, h⟩ | ⟨-, h, -⟩ | ⟨-, h, -⟩ | ⟨-, h, -⟩
    · exact absurd hm' h
    · rw [hgm] at h
      exact ⟨e, h⟩
    all_goals exact absurd h hneg
  refine ⟨e, ?_, ?_⟩
  · unfold Shallot.updateScaling
    rw [Meth.modify_bind]
    simp only [Meth.get_bind]
    have hst : Shallot.storeScaling v .none s = { s with velocity := some v } := by
      unfold Shallot.storeScaling
      rw [if_neg hv, if_pos rfl]
    rw [hst]
    have ht : ({ s with velocity := some v } : Shallot K).newTransmissions .none = .ok none := by
      unfold Shallot.newTransmissions
      rw [if_pos rfl]
    rw [ht, Meth.lift_ok_bind, if_neg (by simp [hv])]
    simp only [hg]
    refine bind_err _ _ _ _ e ?_
    rw [List.length_cons]
    unfold Shallot.rescaleLoop
    rw [Meth.get_bind]
    simp only [Option.getD_some, List.getElem?_cons_zero]
    have ho' : Shallot.orbital { s with velocity := some v, gradients := some (g :: gs) } =
        .ok scale := ho
    rw [decide_eq_true (Or.inl hv), if_pos rfl, ho', Meth.lift_ok_bind]
    refine bind_err _ _ _ _ e ?_
    unfold Shallot.onGradient
    simp only [Option.getD_some, List.getElem?_cons_zero, hm]
    rw [show Shallot.argOf (some vm) = vm from rfl, he]
    rfl
  · intro hr bs hbs s'' h
    obtain ⟨d, scale', -, ho', hq, -⟩ := addCalls_ok bs _ s'' (by
      unfold Shallot.ready at hr ⊢
      simp only [Bool.and_eq_true, Option.isSome_some, Bool.and_true] at hr ⊢
      exact hr.1) (by rintro rfl; exact hbs rfl) h
    rw [ho] at ho'
    cases ho'
    obtain ⟨q, hq'⟩ := List.exists_mem_of_ne_nil _ hbs
    have hok := gradientOf_eq (hq q hq').2
    rcases determineMask_cases (.npFloat .w64 q.slope.abs) scale (.npFloat .w64 q.transmission)
      (.npFloat .w64 q.error) (blank { s with velocity := some v } (q.time.neg.div d.num)) with
      ⟨-, e, h⟩ | ⟨-, -, e, h⟩ | ⟨-, h, -⟩ | ⟨-, h, -⟩ | ⟨-, h, -⟩
    · rw [h] at hok; cases hok
    · rw [h] at hok; cases hok
    all_goals exact hneg h

end

/-- The grid of `throwAway_ready` with two gradients of slope 1/2 in the middle of the eclipse and a
fit. -/
theorem throwAway_scaled : ∃ (s : Shallot ℝ) (g₁ g₂ : GGrad ℝ) (p : GProp ℝ), Sound s ∧
    s.ready = true ∧ s.limb = some (.int 0) ∧ s.gradients = some [g₁, g₂] ∧ s.gradientFit = some p ∧
    (∃ k : ℝ, 0 < k ∧ k ≤ 2 ∧ s.orbital = .ok (.float (.fin k))) ∧
    ∀ g ∈ [g₁, g₂], g.measured = some (.npFloat .w64 (.fin (1 / 2))) ∧
      g.transmission = some (.npFloat .w64 (.fin 1)) ∧ g.error = some (.npFloat .w64 (.fin 1)) := by
  obtain ⟨-, s, -, -, hs, -, hr, hd, ⟨k, hk, hk2, ho⟩, hl, -, hg, -⟩ := throwAway_ready
  obtain ⟨s₁, h1⟩ := addCalls_of [[slopeOf (1 / 2), slopeOf (1 / 2)]] s hr _ _ hd ho (by
    intro q hq
    simp only [List.flatten_cons, List.flatten_nil, List.append_nil,
      List.mem_cons, List.not_mem_nil, or_false, or_self] at hq
    subst hq
    exact slopeOf_ok s _ k _ hk hk2 (by norm_num) le_rfl)
  have hs₁ := addCalls_sound [[slopeOf (1 / 2), slopeOf (1 / 2)]] s hs
  rw [h1] at hs₁
  obtain ⟨d, scale, hd', ho', hq, he⟩ := addCalls_ok _ s s₁ hr (by simp) h1
  rw [ho] at ho'
  cases ho'
  have hok := (hq (slopeOf (1 / 2)) (by simp)).2
  have hsl : (slopeOf (1 / 2)).slope.abs = .fin (1 / 2) := by
    show (XF.fin (1 / 2 : ℝ)).abs = _
    rw [XF.abs_fin, abs_of_nonneg (by norm_num)]
  obtain ⟨m1, m2, m3, m4, -⟩ := determineMask_stored (gradientOf_eq hok)
  obtain ⟨g, hgdef⟩ : ∃ g, g = (gradientOf s d (.float (.fin k)) (slopeOf (1 / 2))).2 := ⟨_, rfl⟩
  rw [← hgdef] at m1 m2 m3 m4
  rw [hsl] at m1
  have hor : ∀ x : XF ℝ, orOne (.npFloat .w64 x : PyVal ℝ) = .npFloat .w64 x := by
    intro x; simp [orOne]
  rw [hor] at m3 m4
  have m3 : g.transmission = some (.npFloat .w64 (.fin 1)) := m3
  have m4 : g.error = some (.npFloat .w64 (.fin 1)) := m4
  have hgs : s₁.gradients = some [g, g] := by
    rw [he, hg, hgdef]
    rfl
  have hsc : ∃ m : ℝ, g.scaled = .ok (some (.fin m)) := by
    refine ⟨1 / 2 * (k * (1 / 1)), ?_⟩
    unfold GGrad.scaled
    rw [m1, m2, m3]
    have e1 : (PyVal.npFloat .w64 (.fin (1 / 2)) : PyVal ℝ).num = .fin (1 / 2) := rfl
    have e2 : (PyVal.float (.fin k) : PyVal ℝ).num = .fin k := rfl
    have e3 : oneOver (PyVal.npFloat .w64 (.fin 1) : PyVal ℝ) = .ok (.fin (1 / 1)) := by
      have : oneOver (PyVal.npFloat .w64 (.fin 1) : PyVal ℝ) = .ok ((XF.fin 1).div (.fin 1)) := rfl
      rw [this, XF.div_fin _ _ one_ne_zero]
    simp only [needNumber, bind, Except.bind, e1, e2, e3, XF.mul_fin]
    rw [if_neg]
    simp only [XF.lt, decide_eq_true_eq, not_lt]
    linarith
  rcases determineFit_cases true s₁ with ⟨h, -⟩ | ⟨gs, hg', ⟨e, h, hloop⟩ | ⟨p, data, -, -, -, h⟩⟩
  · rw [hgs] at h; cases h
  · exfalso
    rw [hgs] at hg'
    cases hg'
    obtain ⟨m, hm⟩ := hsc
    simp only [Shallot.fitLoop, Shallot.fitWeight, Shallot.fitScaled, m4, hm, bind, Except.bind] at hloop
    cases hloop
  · have hs₂ := determineFit_sound true s₁ hs₁
    rw [h] at hs₂
    refine ⟨_, g, g, p, hs₂, ?_, ?_, hgs, rfl, ⟨k, hk, hk2, ?_⟩, ?_⟩
    · rw [he]; exact hr
    · rw [he]; exact hl
    · rw [he]; exact ho
    · intro g' hg'
      simp only [List.mem_cons, List.not_mem_nil, or_false, or_self] at hg'
      subst hg'
      exact ⟨m1, m3, m4⟩

/-- The hypotheses of `C118_false` are met: new velocity 2 and transmission changes 1 and -1. The first
gradient has the new orbital scale, the second one its old mask, and the fit is the one of before. -/
theorem C118_false_witness : ∃ (s s' : Shallot ℝ) (e : Err) (p : GProp ℝ) (g₁ g₂ g₁' g₂' : GGrad ℝ),
    Sound s ∧ s.gradients = some [g₁, g₂] ∧ s.gradientFit = some p ∧
    Shallot.updateScaling (.int 2) .none (column [.fin 1, .fin (-1)]) s = (.error e, s') ∧
    s'.velocity = some (.int 2) ∧ s'.gradientFit = some p ∧ s'.gradients = some [g₁', g₂'] ∧
    (∃ scale, s'.orbital = .ok scale ∧ g₁'.orbital = some scale) ∧ g₂'.prop = g₂.prop := by
  obtain ⟨s, g₁, g₂, p, hs, -, hl, hg, hp, -, hm⟩ := throwAway_scaled
  obtain ⟨k, hk, hk2, ho⟩ := orbital_int { s with velocity := some (.int 2) } 2 (by norm_num) hl rfl
  have hok := slope_mask g₁ k (1 / 2) hk hk2 (by norm_num) le_rfl
  have hsl : (slopeOf (1 / 2)).slope.abs = .fin (1 / 2) := by
    show (XF.fin (1 / 2 : ℝ)).abs = _
    rw [XF.abs_fin, abs_of_nonneg (by norm_num)]
  rw [hsl] at hok
  obtain ⟨m1, m3, m4⟩ := hm g₁ (by simp)
  obtain ⟨g₁', hg₁'⟩ : ∃ g₁', GGrad.determineMask (Shallot.argOf g₁.measured) (.float (.fin k))
      (.npFloat .w64 (.fin 1)) (Shallot.argOf g₁.error) g₁ = (.ok (), g₁') := by
    rw [m1, m4]
    exact ⟨_, Prod.ext hok rfl⟩
  obtain ⟨e, g₂', -, w2, w⟩ := C118_false (.int 2) s g₁ g₂ [] hg (by simp) _ ho 1 (-1) []
    (Or.inr ⟨_, rfl, rfl, rfl, by simp [less_iff, XF.lt]⟩) (by norm_num) g₁' hg₁'
  exact ⟨s, _, e, p, g₁, g₂, g₁', g₂', hs, hg, hp, w, rfl, hp, rfl,
    ⟨_, ho, (determineMask_stored hg₁').2.1⟩, w2⟩

/-- The hypotheses of `C118_false_velocity` are met: velocity -1. -/
theorem C118_false_velocity_witness : ∃ (s s' : Shallot ℝ) (e : Err), Sound s ∧ s.ready = true ∧
    (∃ k : ℝ, 0 < k ∧ s.orbital = .ok (.float (.fin k))) ∧
    Shallot.updateScaling (.int (-1)) .none .none s = (.error e, s') ∧
    s'.velocity = some (.int (-1)) ∧
    ∀ (bs : List (List (Measurement ℝ))), bs.flatten ≠ [] → ∀ s'', addCalls bs s' ≠ (.ok (), s'') := by
  obtain ⟨s, g₁, g₂, p, hs, hr, hl, hg, -, ⟨k, hk, -, ho⟩, hm⟩ := throwAway_scaled
  have ho' : Shallot.orbital { s with velocity := some (.int (-1)) } =
      .ok (.float (.fin (6 / 12 * (Real.pi / -1)))) := by
    unfold Shallot.orbital
    have e0 : (PyVal.int 0 : PyVal ℝ).num = .fin 0 := by simp [PyVal.num]
    have e1 : (PyVal.int (-1) : PyVal ℝ).num = .fin (-1) := by simp [PyVal.num]
    have e2 : Shallot.limbDenominator (XF.fin (0 : ℝ)) = .fin 12 := by
      unfold Shallot.limbDenominator
      rw [XF.mul_fin, XF.sub_fin]
      show (XF.fin (12 - 12 * 0)).add (XF.fin (3 * Real.pi * 0)) = .fin (12 : ℝ)
      rw [XF.add_fin]
      simp
    have e3 : Geometry.orbitalScale (.fin (0 : ℝ)) (.fin (-1)) =
        .fin (6 / 12 * (Real.pi / -1)) := by
      have : Geometry.orbitalScale (.fin (0 : ℝ)) (.fin (-1)) =
        (((XF.fin 6).sub ((XF.fin 2).mul (.fin 0))).div (Shallot.limbDenominator (.fin 0))).mul
          (XF.pi.div (.fin (-1))) := rfl
      rw [this, e2, XF.mul_fin, XF.sub_fin, XF.div_fin _ _ (by norm_num), XF.pi_eq,
        XF.div_fin _ _ (by norm_num), XF.mul_fin]
      norm_num
    simp only [hl, Shallot.operand, needNumber, Shallot.isNumeric, Shallot.isPython, bind, Except.bind,
      e0, e1, e2, e3, if_true, XF.eqb, Bool.true_and]
    simp
  have hneg : ¬ NotNegative (PyVal.float (.fin (6 / 12 * (Real.pi / -1))) : PyVal ℝ) := by
    rintro ⟨z, hz, h0⟩
    obtain rfl := isNumber_unique hz (Or.inr ⟨rfl, .float _⟩)
    rw [less_iff] at h0
    simp only [XF.lt, decide_eq_true_eq, not_lt] at h0
    have := Real.pi_pos
    linarith
  obtain ⟨m1, -⟩ := hm g₁ (by simp)
  obtain ⟨e, w1, w2⟩ := C118_false_velocity (.int (-1)) s g₁ [g₂] hg (by simp) _ ho' hneg _ m1
    ⟨.fin (1 / 2), Or.inr ⟨rfl, .npFloat _ _⟩, by rw [less_iff]; simp [XF.lt]⟩
  exact ⟨s, _, e, hs, hr, ⟨k, hk, ho⟩, w1, rfl, w2 hr⟩

/-- The hypotheses of `C118_transmissions` are met: one transmission change for two gradients; and the
condition of `C118_succeeds_iff` is met by velocity 2 and transmission changes of 1. -/
example : ∃ (s s' : Shallot ℝ) (e : Err), Sound s ∧
    Shallot.updateScaling .none .none (column [.fin 1]) s = (.error e, s) ∧
    Shallot.updateScaling (.int 2) .none (column [.fin 1, .fin 1]) s = (.ok (), s') := by
  obtain ⟨s, g₁, g₂, p, hs, -, hl, hg, hp, -, hm⟩ := throwAway_scaled
  obtain ⟨k, hk, hk2, ho⟩ := orbital_int { s with velocity := some (.int 2) } 2 (by norm_num) hl rfl
  obtain ⟨e, he⟩ := C118_transmissions (column [.fin 1]) s [g₁, g₂] hg (by
    rintro (h | ⟨a, h, -, h', -⟩)
    · cases h
    · cases h
      simp at h')
  have hsl : (slopeOf (1 / 2)).slope.abs = .fin (1 / 2) := by
    show (XF.fin (1 / 2 : ℝ)).abs = _
    rw [XF.abs_fin, abs_of_nonneg (by norm_num)]
  obtain ⟨s', hs'⟩ := (C118_succeeds_iff (.int 2) .none (column [.fin 1, .fin 1]) s [g₁, g₂] hg
    (Or.inl (by simp))).2 ⟨Or.inr ⟨_, rfl, rfl, rfl, by simp [less_iff, XF.lt]⟩, by
      intro j g hj
      obtain ⟨m1, -, m4⟩ := hm g (List.mem_of_getElem? hj)
      have hok := slope_mask g k (1 / 2) hk hk2 (by norm_num) le_rfl
      rw [hsl] at hok
      refine ⟨.float (.fin k), .npFloat .w64 (.fin 1),
        (GGrad.determineMask (.npFloat .w64 (.fin (1 / 2))) (.float (.fin k))
          (.npFloat .w64 (.fin 1)) (.npFloat .w64 (.fin 1)) g).2,
        ⟨by simp, fun _ => ho, by simp [column], ?_⟩, ?_⟩
      · intro a ha
        cases ha
        have : j < 2 := (List.getElem?_eq_some_iff.1 hj).1
        match j, this with
        | 0, _ => rfl
        | 1, _ => rfl
      · rw [m1, m4]
        exact Prod.ext hok rfl⟩
  exact ⟨s, s', e, hs, he, hs'⟩

end Beyonce
