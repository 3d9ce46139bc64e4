import Verif.Props.Remove

/-!
# C41: the gradient fit
-/

set_option linter.unusedSectionVars false

namespace Beyonce
open Spec

section
variable {K : Type} [Field K] [LinearOrder K] [IsStrictOrderedRing K] [FloorRing K] [RealFns K]

/-! ## What a fit is -/

/-- What one gradient adds to element `i` of the fit: the squared difference of the stored gradient
and the scaled measured one, over the squared error if the fit is weighted. -/
def Spec.Term (weighted : Bool) (i : ℕ) (g : GGrad K) (y : XF K) : Prop :=
  ∃ m e v : XF K, g.scaled = .ok (some m) ∧
    (weighted = true → ∃ ev, g.error = some ev ∧ e = ev.num.mul ev.num) ∧
    (weighted = false → e = .fin 1) ∧ g.prop.data.data[i]? = some v ∧
    y = ((v.sub m).mul (v.sub m)).div e

/-- `x` is element `i` of the fit of these gradients: the sum of what they add, from the first to the
last. -/
def Spec.FitAt (weighted : Bool) (gs : List (GGrad K)) (i : ℕ) (x : XF K) : Prop :=
  ∃ ys : List (XF K), List.Forall₂ (Term weighted i) gs ys ∧ x = ys.foldl XF.add (.fin 0)

/-- The stored fit, if there is one, belongs to the stored gradients: every element is that of their
fit (weighted or not), unless it has become NaN, or one of the gradients has there. -/
def Spec.FitCurrent (s : Shallot K) : Prop :=
  ∀ p, s.gradientFit = some p → ∃ gs w, s.gradients = some gs ∧
    ∀ (i : ℕ) (x : XF K), p.data.data[i]? = some x →
      x = .nan ∨ (∃ g ∈ gs, g.prop.data.data[i]? = some .nan) ∨ FitAt w gs i x

theorem fitLoop_spec (w : Bool) (N : ℕ) : ∀ (gs : List (GGrad K)) (acc data : List (XF K)),
    acc.length = N → (∀ g ∈ gs, g.prop.data.data.length = N) →
    Shallot.fitLoop w gs acc = .ok data → data.length = N ∧
      ∀ (i : ℕ) (a x : XF K), acc[i]? = some a → data[i]? = some x →
        ∃ ys : List (XF K), List.Forall₂ (Term w i) gs ys ∧ x = ys.foldl XF.add a
  | [], acc, data, hacc, _, h => by
    cases h
    refine ⟨hacc, fun i a x h1 h2 => ⟨[], .nil, ?_⟩⟩
    rw [h1] at h2
    exact (Option.some.inj h2).symm
  | g :: gs, acc, data, hacc, hgs, h => by
    unfold Shallot.fitLoop at h
    cases h1 : Shallot.fitWeight w g with
    | error e => rw [h1] at h; cases h
    | ok e =>
      rw [h1] at h
      cases h2 : Shallot.fitScaled g with
      | error e => rw [h2] at h; cases h
      | ok m =>
        rw [h2] at h
        have h' : Shallot.fitLoop w gs (List.zipWith (fun a x => a.add (Shallot.fitTerm e m x)) acc
          g.prop.data.data) = .ok data := h
        have hg := hgs g (by simp)
        obtain ⟨k1, k2⟩ := fitLoop_spec w N gs _ data (by simp [hacc, hg])
          (fun g' hg' => hgs g' (by simp [hg'])) h'
        refine ⟨k1, fun i a x ha hx => ?_⟩
        have hi : i < acc.length := (List.getElem?_eq_some_iff.1 ha).1
        have hi' : i < g.prop.data.data.length := by rw [hg, ← hacc]; exact hi
        obtain ⟨v, hv⟩ : ∃ v, g.prop.data.data[i]? = some v := ⟨_, List.getElem?_eq_getElem hi'⟩
        obtain ⟨ys, y1, y2⟩ := k2 i (a.add (Shallot.fitTerm e m v)) x
          (by rw [List.getElem?_zipWith, ha, hv]) hx
        refine ⟨Shallot.fitTerm e m v :: ys, .cons ⟨m, e, v, ?_, ?_, ?_, hv, rfl⟩ y1, y2⟩
        · unfold Shallot.fitScaled at h2
          cases h3 : g.scaled with
          | error er => rw [h3] at h2; cases h2
          | ok o =>
            rw [h3] at h2
            cases o with
            | none => cases h2
            | some o => cases h2; rfl
        · rintro rfl
          unfold Shallot.fitWeight at h1
          rw [if_pos rfl] at h1
          cases h3 : g.error with
          | none => rw [h3] at h1; cases h1
          | some ev => rw [h3] at h1; cases h1; exact ⟨ev, rfl, rfl⟩
        · rintro rfl
          cases h1
          rfl

/-- Everything `determine_gradient_fit` can do. -/
theorem determineFit_cases (w : Bool) (s : Shallot K) :
    (s.gradients = none ∧ Shallot.determineFit w s = (.ok (), s)) ∨
    ∃ gs, s.gradients = some gs ∧ ((∃ e, Shallot.determineFit w s = (.error e, s) ∧
        Shallot.fitLoop w gs (List.replicate
          (s.params.gridShape.1 * s.params.gridShape.2.1 * s.params.gridShape.2.2) (.fin 0)) = .error e) ∨
      ∃ p data, Shallot.fitLoop w gs (List.replicate
          (s.params.gridShape.1 * s.params.gridShape.2.1 * s.params.gridShape.2.2) (.fin 0)) = .ok data ∧
        p.data = ⟨[s.params.gridShape.1, s.params.gridShape.2.1, s.params.gridShape.2.2], data⟩ ∧
        p.mask = some ⟨p.data.shape, data.map XF.isNan⟩ ∧
        Shallot.determineFit w s = (.ok (), { s with gradientFit := some p })) := by
  rcases Option.eq_none_or_eq_some s.gradients with hg | ⟨gs, hg⟩
  · left
    refine ⟨hg, ?_⟩
    unfold Shallot.determineFit
    rw [Meth.get_bind, hg]
    rfl
  · right
    refine ⟨gs, hg, ?_⟩
    unfold Shallot.determineFit
    rw [Meth.get_bind, hg]
    obtain ⟨⟨a, b, c⟩, he⟩ : ∃ g, g = s.params.gridShape := ⟨_, rfl⟩
    simp only [← he]
    cases h1 : Shallot.fitLoop w gs (List.replicate (a * b * c) (.fin 0)) with
    | error e => exact Or.inl ⟨e, rfl, rfl⟩
    | ok data =>
      right
      rw [Meth.lift_ok_bind]
      have h2 := (prop_new_ok_iff .gradientFit .none (.arr ⟨"float64", [a, b, c], data⟩) s.params _).2
        ⟨_, rfl, rfl, by rw [← he], rfl⟩
      rw [h2, Meth.lift_ok_bind, Meth.modify_bind]
      rcases setMask_cases (.arr ⟨"bool", [a, b, c],
          data.map fun x => .fin (if x.isNan = true then 1 else 0)⟩)
          (⟨.gradientFit, .none, s.params, ⟨[a, b, c], data⟩, none, nanmin data, nanmax data, "viridis", 11⟩ :
            GProp K) with ⟨a', e1, -, -, e2⟩ | ⟨-, hno⟩
      · refine ⟨⟨.gradientFit, .none, s.params, ⟨[a, b, c], data⟩, some a'.toMask, nanmin data, nanmax data,
          "viridis", 11⟩, data, rfl, rfl, ?_, ?_⟩
        · obtain rfl : _ = a' := by simpa using e1
          have hfun : ((fun x : XF K => decide (x ≠ XF.fin 0)) ∘ fun x =>
              XF.fin (if x.isNan = true then 1 else 0)) = fun x : XF K => x.isNan := by
            funext x
            cases x <;> simp [XF.isNan]
          simp only [NpArr.toMask, List.map_map, hfun]
        · rw [onProp_ok .gradientFit _ _ _ _ () rfl e2]
          simp only [Shallot.setProp, hg]
      · exact absurd ⟨_, rfl, rfl, rfl⟩ hno

/-! ## Methods that at most turn elements into NaN -/

/-- `p'` is `p` but for elements that have become NaN. -/
structure Spec.PaleProp (p p' : GProp K) : Prop where
  rest : p' = { p with data := p'.data }
  values : ∀ i : ℕ, p'.data.data[i]? = p.data.data[i]? ∨ p'.data.data[i]? = some XF.nan
  length : p'.data.data.length = p.data.data.length

/-- The gradients and the fit of `s'` are those of `s` but for elements that have become NaN. -/
structure Spec.Pale (s s' : Shallot K) : Prop where
  fit : (s.gradientFit = none ∧ s'.gradientFit = none) ∨ ∃ p p', s.gradientFit = some p ∧
    s'.gradientFit = some p' ∧ PaleProp p p'
  gradients : (s.gradients = none ∧ s'.gradients = none) ∨ ∃ l l', s.gradients = some l ∧
    s'.gradients = some l' ∧ List.Forall₂ (fun g g' => g' = { g with prop := g'.prop } ∧
      PaleProp g.prop g'.prop) l l'

theorem Spec.PaleProp.refl (p : GProp K) : PaleProp p p := ⟨rfl, fun _ => Or.inl rfl, rfl⟩

theorem Spec.PaleProp.trans {p q r : GProp K} (h : PaleProp p q) (h' : PaleProp q r) : PaleProp p r := by
  refine ⟨?_, fun i => ?_, h'.length.trans h.length⟩
  · have := h'.rest
    rw [h.rest] at this
    exact this
  · rcases h'.values i with h1 | h1
    · rw [h1]; exact h.values i
    · exact Or.inr h1

theorem Spec.Pale.of_eq {s s' : Shallot K} (h1 : s'.gradientFit = s.gradientFit)
    (h2 : s'.gradients = s.gradients) : Pale s s' := by
  refine ⟨?_, ?_⟩
  · rw [h1]
    rcases Option.eq_none_or_eq_some s.gradientFit with h | ⟨p, h⟩
    · exact Or.inl ⟨h, h⟩
    · exact Or.inr ⟨p, p, h, h, .refl p⟩
  · rw [h2]
    rcases Option.eq_none_or_eq_some s.gradients with h | ⟨l, h⟩
    · exact Or.inl ⟨h, h⟩
    · exact Or.inr ⟨l, l, h, h, List.forall₂_same.2 fun g _ => ⟨rfl, .refl _⟩⟩

theorem Spec.Pale.trans {s t u : Shallot K} (h : Pale s t) (h' : Pale t u) : Pale s u := by
  refine ⟨?_, ?_⟩
  · rcases h.fit with ⟨h1, h2⟩ | ⟨p, q, h1, h2, h3⟩
    · rcases h'.fit with ⟨h4, h5⟩ | ⟨p', r, h4, h5, h6⟩
      · exact Or.inl ⟨h1, h5⟩
      · rw [h2] at h4; cases h4
    · rcases h'.fit with ⟨h4, h5⟩ | ⟨p', r, h4, h5, h6⟩
      · rw [h2] at h4; cases h4
      · rw [h2] at h4
        cases h4
        exact Or.inr ⟨p, r, h1, h5, h3.trans h6⟩
  · rcases h.gradients with ⟨h1, h2⟩ | ⟨l, l', h1, h2, h3⟩
    · rcases h'.gradients with ⟨h4, h5⟩ | ⟨l', l'', h4, h5, h6⟩
      · exact Or.inl ⟨h1, h5⟩
      · rw [h2] at h4; cases h4
    · rcases h'.gradients with ⟨h4, h5⟩ | ⟨m, l'', h4, h5, h6⟩
      · rw [h2] at h4; cases h4
      · rw [h2] at h4
        cases h4
        refine Or.inr ⟨l, l'', h1, h5, ?_⟩
        clear h1 h2 h5
        induction h3 generalizing l'' with
        | nil => cases h6; exact .nil
        | cons hd _ ih =>
          cases h6 with
          | cons hd' tl' =>
            refine .cons ⟨?_, hd.2.trans hd'.2⟩ (ih _ tl')
            have := hd'.1
            rw [hd.1] at this
            exact this

theorem Spec.Pale.pre : Pre (Pale (K := K)) := ⟨fun _ => .of_eq rfl rfl, Pale.trans⟩

theorem Spec.Faded.pale {s s' : Shallot K} (h : Faded s s') : Pale s s' := by
  have hp : ∀ {M : ℕ → Prop} {p p' : GProp K}, FadedProp M p p' → PaleProp p p' := fun h =>
    ⟨h.rest, fun i => (h.values i).imp id And.left, h.length⟩
  refine ⟨?_, ?_⟩
  · rcases h.props .gradientFit with h1 | ⟨p, p', h1, h2, h3⟩
    · exact Or.inl h1
    · exact Or.inr ⟨p, p', h1, h2, hp h3⟩
  · rcases h.gradients with h1 | ⟨l, l', h1, h2, h3⟩
    · exact Or.inl h1
    · exact Or.inr ⟨l, l', h1, h2, h3.imp fun _ _ h => ⟨h.1, hp h.2⟩⟩

theorem eraseAt_pale (i : ℕ) (s : Shallot K) :
    Pale s (Shallot.onProp .gradientFit (Shallot.eraseAt i) s).2 := by
  unfold Shallot.onProp
  rcases Option.eq_none_or_eq_some s.gradientFit with h | ⟨p, h⟩
  · rw [show s.prop .gradientFit = none from h]
    exact Pale.pre.refl s
  · rw [show s.prop .gradientFit = some p from h]
    refine ⟨Or.inr ⟨p, _, h, rfl, rfl, fun j => ?_, ?_⟩, (Pale.pre.refl s).gradients⟩
    · simp only [Shallot.eraseAt, Meth.modify_apply, List.getElem?_set]
      split_ifs
      · exact Or.inr rfl
      · subst_vars
        left
        rw [List.getElem?_eq_none (by omega)]
      · exact Or.inl rfl
    · simp [Shallot.eraseAt, Meth.modify_apply]

theorem solution_pale : Moves Pale (Shallot.solution (K := K)) := by
  unfold Shallot.solution
  refine Moves.bind Pale.pre (Moves.get Pale.pre) fun s => ?_
  cases s.gradientFit with
  | none => exact Moves.throw Pale.pre _
  | some fit =>
    refine Moves.bind Pale.pre (Moves.lift Pale.pre _) fun i => ?_
    refine Moves.bind Pale.pre (fun s => (gridPoint_faded _ _ _ _ s).pale) fun p => ?_
    exact Moves.bind Pale.pre (eraseAt_pale i) fun _ => Moves.pure Pale.pre _

theorem solutionLoop_pale : ∀ n : ℕ, Moves Pale (Shallot.solutionLoop (K := K) n)
  | 0 => Moves.pure Pale.pre _
  | n + 1 => by
    unfold Shallot.solutionLoop
    refine Moves.bind Pale.pre solution_pale fun _ => ?_
    exact Moves.bind Pale.pre (solutionLoop_pale n) fun _ => Moves.pure Pale.pre _

theorem extractSolutions_pale (v : PyVal K) : Moves Pale (Shallot.extractSolutions v) := by
  unfold Shallot.extractSolutions
  refine Moves.bind Pale.pre (Moves.get Pale.pre) fun s => ?_
  refine Moves.bind Pale.pre (Moves.lift Pale.pre _) fun _ => ?_
  refine Moves.bind Pale.pre (Moves.lift Pale.pre _) fun _ => ?_
  exact Moves.bind Pale.pre (fun s => (getGradientFit_faded _ _ s).pale) fun _ => solutionLoop_pale _

theorem onProp_keeps {α : Type} (c : Cube) (hc : c ≠ .gradientFit) (m : Meth (GProp K) α) (s : Shallot K) :
    (Shallot.onProp c m s).2.gradientFit = s.gradientFit ∧
      (Shallot.onProp c m s).2.gradients = s.gradients := by
  unfold Shallot.onProp
  cases h : s.prop c with
  | none => exact ⟨rfl, rfl⟩
  | some p => cases c <;> first | exact ⟨rfl, rfl⟩ | exact absurd rfl hc

theorem hillMask_pale (v : PyVal K) : Moves Pale (Shallot.hillMask v) := by
  unfold Shallot.hillMask
  refine Moves.bind Pale.pre (Moves.lift Pale.pre _) fun _ => ?_
  refine Moves.bind Pale.pre (Moves.get Pale.pre) fun s => ?_
  exact fun s => .of_eq (onProp_keeps _ (by simp) _ s).1 (onProp_keeps _ (by simp) _ s).2

theorem diagnose_pale : Moves Pale (Shallot.diagnose (K := K)) := by
  unfold Shallot.diagnose
  refine Moves.bind Pale.pre (Moves.get Pale.pre) fun s => ?_
  refine Moves.bind Pale.pre (Moves.lift Pale.pre _) fun _ => ?_
  exact Moves.modify fun s => .of_eq rfl rfl

/-- Elements that become NaN do not harm. -/
theorem Spec.Pale.fitCurrent {s s' : Shallot K} (h : Pale s s') (hs : FitCurrent s) : FitCurrent s' := by
  intro p' hp'
  rcases h.fit with ⟨-, h1⟩ | ⟨p, q, h1, h2, h3⟩
  · rw [h1] at hp'; cases hp'
  rw [h2] at hp'
  cases hp'
  obtain ⟨gs, w, h4, h5⟩ := hs p h1
  rcases h.gradients with ⟨h6, -⟩ | ⟨l, l', h6, h7, h8⟩
  · rw [h6] at h4; cases h4
  rw [h6] at h4
  cases h4
  refine ⟨l', w, h7, fun i x hx => ?_⟩
  rcases h3.values i with h9 | h9
  · rw [hx] at h9
    by_cases hn : ∃ g ∈ l', g.prop.data.data[i]? = some .nan
    · exact Or.inr (Or.inl hn)
    · rcases h5 i x h9.symm with h10 | ⟨g, h10, h11⟩ | ⟨ys, h10, h11⟩
      · exact Or.inl h10
      · refine absurd ?_ hn
        clear h6 h7 h5
        induction h8 with
        | nil => cases h10
        | @cons a b _ _ hd _ ih =>
          rcases List.mem_cons.1 h10 with rfl | h10
          · refine ⟨b, by simp, ?_⟩
            rcases hd.2.values i with h12 | h12
            · rw [h12, h11]
            · exact h12
          · obtain ⟨g', hg', hg''⟩ := ih (fun ⟨g', k1, k2⟩ => hn ⟨g', by simp [k1], k2⟩) h10
            exact ⟨g', by simp [hg'], hg''⟩
      · refine Or.inr (Or.inr ⟨ys, ?_, h11⟩)
        clear h6 h7 h5 h11
        induction h8 generalizing ys with
        | nil => cases h10; exact .nil
        | @cons a b _ _ hd _ ih =>
          cases h10 with
          | cons k1 k2 =>
            refine .cons ?_ (ih (fun ⟨g', k1, k2⟩ => hn ⟨g', by simp [k1], k2⟩) _ k2)
            obtain ⟨m, e, v, q1, q2, q3, q4, q5⟩ := k1
            have hb : b.prop.data.data[i]? = some v := by
              rcases hd.2.values i with h12 | h12
              · rw [h12, q4]
              · exact absurd ⟨b, by simp, h12⟩ hn
            refine ⟨m, e, v, ?_, ?_, q3, hb, q5⟩
            · rw [hd.1]; exact q1
            · rw [hd.1]; exact q2
  · rw [hx] at h9
    exact Or.inl (Option.some.inj h9)

/-! ## C41 -/

/-- The calls of `add_gradients`, `remove_gradients` and `update_gradient_scaling` must succeed. -/
def Spec.Succeeds : GridOp K → Shallot K → Prop
  | .add a b c d, s => (Shallot.addGradients a b c d s).1 = .ok ()
  | .remove v, s => (Shallot.removeGradients v s).1 = .ok ()
  | .update a b c, s => (Shallot.updateScaling a b c s).1 = .ok ()
  | _, _ => True

/-- A history in which they do. -/
def Spec.SucceedsAll : List (GridOp K) → Shallot K → Prop
  | [], _ => True
  | op :: ops, s => Succeeds op s ∧ SucceedsAll ops (op.exec s)

/-- No fit, or nothing changed. -/
def Spec.Reset (s s' : Shallot K) : Prop :=
  s'.gradientFit = none ∨ (s'.gradientFit = s.gradientFit ∧ s'.gradients = s.gradients)

theorem bind_cases {S α β : Type} (m : Meth S α) (f : α → Meth S β) (s : S) :
    (∃ a s', m s = (.ok a, s') ∧ (m >>= f) s = f a s') ∨
      ∃ e s', m s = (.error e, s') ∧ (m >>= f) s = (.error e, s') := by
  rcases h : m s with ⟨e | a, s'⟩
  · exact Or.inr ⟨e, s', rfl, bind_err _ _ _ _ e h⟩
  · exact Or.inl ⟨a, s', rfl, bind_ok _ _ _ _ a h⟩

/-- A method after which, if it returns, there is no fit. -/
def EndsReset (m : Meth (Shallot K) Unit) : Prop := ∀ s s', m s = (.ok (), s') → s'.gradientFit = none

theorem endsReset_bind {α : Type} (m : Meth (Shallot K) α) (f : α → Meth (Shallot K) Unit)
    (h : ∀ a, EndsReset (f a)) : EndsReset (m >>= f) := by
  intro s s' hs
  rcases bind_cases m f s with ⟨a, t, -, h2⟩ | ⟨e, t, -, h2⟩
  · rw [h2] at hs; exact h a _ _ hs
  · rw [h2] at hs; cases hs

theorem endsReset_resetFit : EndsReset (Shallot.resetFit (K := K)) := by
  intro s s' h
  cases h
  rfl

theorem endsReset_throw (e : Err) : EndsReset (Meth.throw e : Meth (Shallot K) Unit) := by
  intro s s' h
  cases h

theorem addGradients_resets (a b c d : PyVal K) (s s' : Shallot K)
    (h : Shallot.addGradients a b c d s = (.ok (), s')) : Reset s s' := by
  unfold Shallot.addGradients at h
  rw [Meth.get_bind] at h
  by_cases hr : s.ready = true
  · rw [if_pos hr] at h
    left
    refine endsReset_bind _ _ (fun _ => ?_) _ _ h
    refine endsReset_bind _ _ fun _ => ?_
    refine endsReset_bind _ _ fun _ => ?_
    refine endsReset_bind _ _ fun _ => ?_
    refine endsReset_bind _ _ fun _ => ?_
    exact endsReset_bind _ _ fun _ => endsReset_resetFit
  · rw [if_neg hr] at h
    cases h
    exact Or.inr ⟨rfl, rfl⟩

theorem removeGradients_resets (v : PyVal K) (s s' : Shallot K)
    (h : Shallot.removeGradients v s = (.ok (), s')) : Reset s s' := by
  unfold Shallot.removeGradients at h
  rw [Meth.get_bind] at h
  cases hg : s.gradients with
  | none =>
    rw [hg] at h
    cases h
    exact Or.inr ⟨rfl, rfl⟩
  | some l =>
    rw [hg] at h
    left
    refine endsReset_bind _ _ (fun _ => ?_) _ _ h
    exact endsReset_bind _ _ fun _ => endsReset_resetFit

theorem updateScaling_resets (a b c : PyVal K) (s s' : Shallot K)
    (h : Shallot.updateScaling a b c s = (.ok (), s')) : Reset s s' := by
  unfold Shallot.updateScaling at h
  rw [Meth.modify_bind] at h
  simp only [Meth.get_bind] at h
  cases ht : (Shallot.storeScaling a b s).newTransmissions c with
  | error e => rw [ht] at h; cases h
  | ok t =>
    rw [ht, Meth.lift_ok_bind] at h
    by_cases hb : (!decide (a ≠ .none ∨ b ≠ .none) && t.isNone) = true
    · rw [if_pos hb] at h
      cases h
      exact Or.inr ⟨rfl, rfl⟩
    · rw [if_neg hb] at h
      left
      cases hg : (Shallot.storeScaling a b s).gradients with
      | none => rw [hg] at h; cases h
      | some l =>
        rw [hg] at h
        exact endsReset_bind _ _ (fun _ => endsReset_resetFit) _ _ h

theorem Spec.Reset.fitCurrent {s s' : Shallot K} (h : Reset s s') (hs : FitCurrent s) : FitCurrent s' := by
  rcases h with h | ⟨h1, h2⟩
  · intro p hp
    rw [h] at hp
    cases hp
  · exact (Pale.of_eq h1 h2).fitCurrent hs

theorem setEclipse_resets (a b c : PyVal K) (s : Shallot K) :
    Reset s (Shallot.setEclipseParameters a b c s).2 := by
  unfold Shallot.setEclipseParameters
  rcases storeEclipse_cases a b c s with ⟨-, -, -, h⟩ | ⟨-, -, -, e, h⟩ | ⟨-, -, e, h⟩ | ⟨-, e, h⟩
  · rw [bind_ok _ _ _ _ () h]
    simp only [Meth.get_bind]
    rcases Option.eq_none_or_eq_some s.gradients with hg | ⟨l, hg⟩
    · simp only [hg]
      exact Or.inr ⟨rfl, hg.symm⟩
    · simp only [hg]
      exact Or.inl rfl
  all_goals
    rw [bind_err _ _ _ _ e h]
    exact Or.inr ⟨rfl, rfl⟩

theorem determineFit_current (w : Bool) (s : Shallot K) (hs : Sound s) (hc : FitCurrent s) :
    FitCurrent (Shallot.determineFit w s).2 := by
  rcases determineFit_cases w s with ⟨-, h⟩ | ⟨gs, hg, ⟨e, h, -⟩ | ⟨p, data, h1, h2, -, h3⟩⟩
  · rw [h]; exact hc
  · rw [h]; exact hc
  · rw [h3]
    rintro q ⟨⟩
    refine ⟨gs, w, hg, fun i x hx => Or.inr (Or.inr ?_)⟩
    rw [h2] at hx
    obtain ⟨k1, k2⟩ := fitLoop_spec w _ gs _ data List.length_replicate
      (fun g hgs => ((hs.gradients gs hg g hgs).data.2)) h1
    have hi : i < data.length := (List.getElem?_eq_some_iff.1 hx).1
    exact k2 i (.fin 0) x (by rw [List.getElem?_replicate, if_pos (by omega)]) hx

/-- **C41** partial: in every history in which the calls that change the gradients succeed (all other
calls may raise), the stored fit belongs to the stored gradients: every element is the sum, over the
gradients, of the squared difference of gradient and measured gradient, over the squared error if
weighted; elements may also have become NaN by masked reading or extraction.  In particular there is no
fit without gradients.  (The full claim, with calls that raise, is `C41_false`.) -/
theorem C41_partial (ops : List (GridOp K)) (s : Shallot K) (hs : Sound s) (hfit : s.gradientFit = none)
    (h : SucceedsAll ops s) : FitCurrent (runGrid ops s) := by
  have hc : FitCurrent s := by
    intro p hp
    rw [hfit] at hp
    cases hp
  clear hfit
  induction ops generalizing s with
  | nil => exact hc
  | cons op ops ih =>
    refine ih (op.exec s) (exec_sound op s hs) h.2 ?_
    have h1 := h.1
    clear ih h
    cases op with
    | get c v w => exact ((getCube_faded c v w s).pale).fitCurrent hc
    | getFit v w => exact ((getGradientFit_faded v w s).pale).fitCurrent hc
    | getGradients v w => exact ((getGradients_faded v w s).pale).fitCurrent hc
    | point y x r v => exact ((gridPoint_faded y x r v s).pale).fitCurrent hc
    | closest a b c d v => exact ((closestPoint_faded a b c d v s).pale).fitCurrent hc
    | hill h => exact (hillMask_pale h s).fitCurrent hc
    | diagnose => exact (diagnose_pale s).fitCurrent hc
    | add a b c d => exact (addGradients_resets a b c d s _ (Prod.ext h1 rfl)).fitCurrent hc
    | remove v => exact (removeGradients_resets v s _ (Prod.ext h1 rfl)).fitCurrent hc
    | eclipse a b c => exact (setEclipse_resets a b c s).fitCurrent hc
    | update a b c => exact (updateScaling_resets a b c s _ (Prod.ext h1 rfl)).fitCurrent hc
    | fit w => exact determineFit_current w s hs hc
    | extract n => exact (extractSolutions_pale n s).fitCurrent hc

/-- In numbers: with finite gradients, measured gradients and errors (not zero), the element of the
weighted fit is `Σ (gradient - measured)² / error²`. -/
theorem fitAt_sum (gs : List (GGrad K)) (i : ℕ) (x : XF K) (h : FitAt true gs i x)
    (qs : List (K × K × K))
    (hq : List.Forall₂ (fun g q => g.prop.data.data[i]? = some (.fin q.1) ∧
      g.scaled = .ok (some (.fin q.2.1)) ∧ q.2.2 ≠ 0 ∧ ∃ e, g.error = some e ∧ e.num = .fin q.2.2) gs qs) :
    x = .fin ((qs.map fun q => (q.1 - q.2.1) ^ 2 / q.2.2 ^ 2).sum) := by
  obtain ⟨ys, h1, rfl⟩ := h
  have key : ∀ (gs : List (GGrad K)) (ys : List (XF K)) (qs : List (K × K × K)) (a : K),
      List.Forall₂ (Term true i) gs ys →
      List.Forall₂ (fun g q => g.prop.data.data[i]? = some (.fin q.1) ∧
        g.scaled = .ok (some (.fin q.2.1)) ∧ q.2.2 ≠ 0 ∧ ∃ e, g.error = some e ∧ e.num = .fin q.2.2) gs qs →
      ys.foldl XF.add (.fin a) = .fin (a + (qs.map fun q => (q.1 - q.2.1) ^ 2 / q.2.2 ^ 2).sum) := by
    intro gs ys qs a h1 h2
    induction h1 generalizing qs a with
    | nil => cases h2; simp
    | @cons g y _ _ hd _ ih =>
      cases h2 with
      | @cons _ q _ _ k1 k2 =>
        obtain ⟨m, e, v, q1, q2, -, q4, rfl⟩ := hd
        obtain ⟨p1, p2, p3, er, p4, p5⟩ := k1
        rw [p1] at q4
        cases q4
        rw [p2] at q1
        cases q1
        obtain ⟨er', q6, rfl⟩ := q2 rfl
        rw [p4] at q6
        cases q6
        rw [p5]
        have : ((XF.sub (.fin q.1) (.fin q.2.1)).mul (XF.sub (.fin q.1) (.fin q.2.1))).div
            ((XF.fin q.2.2).mul (.fin q.2.2)) = .fin ((q.1 - q.2.1) ^ 2 / q.2.2 ^ 2) := by
          rw [XF.sub_fin, XF.mul_fin, XF.mul_fin, XF.div_fin _ _ (mul_ne_zero p3 p3), sq, sq]
        rw [List.foldl_cons, this, XF.add_fin, ih _ _ k2]
        simp only [List.map_cons, List.sum_cons, add_assoc]
  rw [key gs ys qs 0 h1 hq, zero_add]

theorem fitLoop_unmeasured (w : Bool) (g : GGrad K) (hm : g.measured = none) :
    ∀ (gs : List (GGrad K)) (acc : List (XF K)), g ∈ gs → ∃ e, Shallot.fitLoop w gs acc = .error e
  | g' :: gs, acc, h => by
    unfold Shallot.fitLoop
    cases h1 : Shallot.fitWeight w g' with
    | error e => exact ⟨e, rfl⟩
    | ok e =>
      cases h2 : Shallot.fitScaled g' with
      | error e => exact ⟨e, rfl⟩
      | ok m =>
        rcases List.mem_cons.1 h with rfl | h
        · unfold Shallot.fitScaled GGrad.scaled at h2
          rw [hm] at h2
          cases h2
        · exact fitLoop_unmeasured w g hm gs _ h

/-- **C41** is false: if `add_gradients` raises (here because the errors are not an array), then the new
gradients stay in the grid and so does the old fit, which now does not belong to the gradients: they
have no fit, `determine_gradient_fit` raises. -/
theorem C41_false (s : Shallot K) (hs : s.ready = true) (d : PyVal K) (hd : Duration s d)
    (t l : NpArr K) (ht : Floats (.arr t) t) (hl : Floats (.arr l) l) (hw : Whole (.arr t))
    (hw' : Whole (.arr l)) (hpos : ∀ x ∈ l.data, ¬ Less x (.fin 0)) (hsh : t.shape = l.shape)
    (hne : t.data ≠ []) (errors : PyVal K) (hen : errors ≠ .none) (hea : ∀ a, errors ≠ .arr a)
    (p : GProp K) (hp : s.gradientFit = some p) :
    ∃ e s', Shallot.addGradients (.arr t) (.arr l) errors .none s = (.error e, s') ∧
      s'.gradientFit = some p ∧ s'.gradients ≠ s.gradients ∧
      ∀ w, ∃ e', Shallot.determineFit w s' = (.error e', s') := by
  obtain ⟨e, gs, h1, h2, h3⟩ := C42_false s hs d hd t l ht hl hw hw' hpos hsh errors hen hea
  refine ⟨e, _, h2, hp, ?_, fun w => ?_⟩
  · intro h
    have h4 : (s.gradients.getD [] ++ gs).length = (s.gradients.getD []).length := by
      have := congrArg (fun o => (o.getD []).length) h
      exact this
    rw [List.length_append] at h4
    exact hne (List.length_eq_zero_iff.1 (by omega))
  · obtain ⟨g, hg⟩ : ∃ g, g ∈ gs := by
      cases gs with
      | nil => exact absurd (List.length_eq_zero_iff.1 h1.symm) hne
      | cons g _ => exact ⟨g, by simp⟩
    rcases determineFit_cases w { s with gradients := some (s.gradients.getD [] ++ gs) } with ⟨h, -⟩ |
      ⟨gs', h, ⟨e', h', -⟩ | ⟨q, data, h', -⟩⟩
    · cases h
    · exact ⟨e', h'⟩
    · cases h
      obtain ⟨e', he'⟩ := fitLoop_unmeasured w g (h3 g hg).2 (s.gradients.getD [] ++ gs) _
        (by simp [hg])
      rw [he'] at h'
      cases h'

end
end Beyonce
