import Verif.Props.Fit
import Verif.Props.Measured

/-!
# Properties C41 and C49, continued: histories in which calls raise
-/

set_option linter.unusedSectionVars false

namespace Beyonce
open Spec

section
variable {K : Type} [Field K] [LinearOrder K] [IsStrictOrderedRing K] [RealFns K] [FloorRing K]

/-- There is no fit, or the one that there was. -/
def FitStays (s s' : Shallot K) : Prop := s'.gradientFit = none ∨ s'.gradientFit = s.gradientFit

theorem FitStays.pre : Pre (FitStays (K := K)) where
  refl _ := Or.inr rfl
  trans h k := by
    rcases k with k | k
    · exact Or.inl k
    · rcases h with h | h
      · exact Or.inl (k.trans h)
      · exact Or.inr (k.trans h)

theorem fitStays_onGradient {α : Type} (i : ℕ) (m : Meth (GGrad K) α) :
    Moves FitStays (Shallot.onGradient i m) := by
  intro s
  unfold Shallot.onGradient
  cases (s.gradients.getD [])[i]? <;> exact Or.inr rfl

theorem fitStays_resetFit : Moves FitStays (Shallot.resetFit (K := K)) := fun _ => Or.inl rfl

theorem fitStays_set (f : Shallot K → Shallot K) (m : Meth (Shallot K) Unit) (s : Shallot K)
    (hf : (f s).gradientFit = s.gradientFit) (hm : Moves FitStays m) :
    FitStays s ((Meth.set (f s) >>= fun _ => m) s).2 :=
  FitStays.pre.trans (Or.inr hf) (hm (f s))

theorem fitStays_appendGradients : ∀ ps : List (XF K), Moves FitStays (Shallot.appendGradients ps)
  | [] => Moves.pure FitStays.pre ()
  | p :: ps => by
    unfold Shallot.appendGradients
    refine Moves.get_bind fun s => ?_
    cases GGrad.new (.arr ⟨"float64", (s.gradientCube p).shape, (s.gradientCube p).data⟩) s.params
      (.npFloat .w64 p) with
    | error e => exact FitStays.pre.refl s
    | ok g =>
      rw [Meth.lift_ok_bind]
      exact fitStays_set (fun s => { s with gradients := some (s.gradients.getD [] ++ [g]) }) _ s rfl
        (fitStays_appendGradients ps)

theorem fitStays_measureLoop (scale : PyVal K) : ∀ (l : List (XF K × XF K × XF K)) (k : ℕ),
    Moves FitStays (Shallot.measureLoop scale k l)
  | [], _ => Moves.pure FitStays.pre ()
  | (m, e, t) :: l, k => by
    unfold Shallot.measureLoop
    refine Moves.get_bind fun s => ?_
    split_ifs
    · exact Moves.bind FitStays.pre (fitStays_onGradient _ _) (fun _ => fitStays_measureLoop scale l (k + 1)) s
    · exact FitStays.pre.refl s

theorem fitStays_add (a b c d : PyVal K) : Moves FitStays (Shallot.addGradients a b c d) := by
  have pre := FitStays.pre (K := K)
  refine Moves.get_bind fun s => ?_
  split_ifs
  · refine Moves.bind pre (Moves.lift pre _) (fun _ => ?_) s
    refine Moves.bind pre (Moves.lift pre _) fun _ => ?_
    refine Moves.bind pre (Moves.lift pre _) fun _ => ?_
    refine Moves.bind pre (Moves.lift pre _) fun _ => ?_
    refine Moves.bind pre ?_ fun _ => Moves.bind pre ?_ fun _ => fitStays_resetFit
    · unfold Shallot.determineDiskGradients
      exact Moves.bind pre (Moves.lift pre _) fun _ => Moves.bind pre (Moves.modify fun _ => Or.inr rfl) fun _ =>
        fitStays_appendGradients _
    · unfold Shallot.setMeasured
      refine Moves.bind pre (Moves.lift pre _) fun _ => Moves.bind pre (Moves.lift pre _) fun _ =>
        Moves.bind pre (Moves.lift pre _) fun _ => Moves.get_bind fun s => ?_
      exact Moves.bind pre (Moves.lift pre _) (fun _ => fitStays_measureLoop _ _ _) s
  · exact pre.refl s

theorem fitStays_removeLoop : ∀ is : List ℤ, Moves FitStays (Shallot.removeLoop (K := K) is)
  | [] => Moves.pure FitStays.pre ()
  | i :: is => by
    unfold Shallot.removeLoop
    refine Moves.get_bind fun s => ?_
    split_ifs
    · exact fitStays_set (fun s => { s with gradients := some ((s.gradients.getD []).eraseIdx i.toNat) }) _ s rfl
        (fitStays_removeLoop is)
    · exact FitStays.pre.refl s

theorem fitStays_remove (v : PyVal K) : Moves FitStays (Shallot.removeGradients v) := by
  have pre := FitStays.pre (K := K)
  refine Moves.get_bind fun s => ?_
  cases s.gradients with
  | none => exact pre.refl s
  | some l =>
    exact Moves.bind pre (Moves.lift pre _) (fun _ => Moves.bind pre (fitStays_removeLoop _) fun _ =>
      fitStays_resetFit) s

theorem fitStays_rescaleLoop (u : Bool) (t : Option (List (XF K))) : ∀ n k,
    Moves FitStays (Shallot.rescaleLoop u t n k)
  | 0, _ => Moves.pure FitStays.pre ()
  | n + 1, k => by
    unfold Shallot.rescaleLoop
    refine Moves.get_bind fun s => ?_
    cases (s.gradients.getD [])[k]? with
    | none => exact FitStays.pre.refl s
    | some g =>
      exact Moves.bind FitStays.pre (Moves.lift FitStays.pre _) (fun _ => Moves.bind FitStays.pre
        (fitStays_onGradient _ _) fun _ => fitStays_rescaleLoop u t n (k + 1)) s

theorem fitStays_update (a b c : PyVal K) : Moves FitStays (Shallot.updateScaling a b c) := by
  have pre := FitStays.pre (K := K)
  unfold Shallot.updateScaling
  refine Moves.bind pre (Moves.modify fun _ => Or.inr rfl) fun _ => Moves.get_bind fun s => ?_
  refine Moves.bind pre (Moves.lift pre _) (fun t => ?_) s
  split_ifs
  · exact Moves.pure pre ()
  · cases s.gradients with
    | none => exact Moves.throw pre _
    | some l => exact Moves.bind pre (fitStays_rescaleLoop _ _ _ _) fun _ => fitStays_resetFit

/-- A call of `add_gradients`, `remove_gradients` or `update_gradient_scaling` that raises leaves the gradients as
they were. -/
def Spec.RaisesCleanly : GridOp K → Shallot K → Prop
  | .add a b c d, s => (Shallot.addGradients a b c d s).1 ≠ .ok () → (Shallot.addGradients a b c d s).2.gradients = s.gradients
  | .remove v, s => (Shallot.removeGradients v s).1 ≠ .ok () → (Shallot.removeGradients v s).2.gradients = s.gradients
  | .update a b c, s => (Shallot.updateScaling a b c s).1 ≠ .ok () → (Shallot.updateScaling a b c s).2.gradients = s.gradients
  | _, _ => True

/-- A history in which they all do. -/
def Spec.RaiseCleanly : List (GridOp K) → Shallot K → Prop
  | [], _ => True
  | op :: ops, s => RaisesCleanly op s ∧ RaiseCleanly ops (op.exec s)

/-- **C41, with calls that raise** partial: in every history in which the calls that raise leave the list of
gradients as it was, the stored fit belongs to the stored gradients, as in `C41_partial`.  (That some calls do not
is `C41_false`.) -/
theorem C41_clean_partial (ops : List (GridOp K)) (s : Shallot K) (hs : Sound s) (hfit : s.gradientFit = none)
    (h : RaiseCleanly ops s) : FitCurrent (runGrid ops s) := by
  have hc : FitCurrent s := by
    intro p hp
    rw [hfit] at hp
    cases hp
  clear hfit
  induction ops generalizing s with
  | nil => exact hc
  | cons op ops ih =>
    refine ih (op.exec s) (exec_sound op s hs) h.2 ?_
    have h1 := h.1
    clear ih h
    have either : ∀ m : Meth (Shallot K) Unit, Moves FitStays m → (∀ s', m s = (.ok (), s') → Reset s s') →
        ((m s).1 ≠ .ok () → (m s).2.gradients = s.gradients) → FitCurrent (m s).2 := by
      intro m k1 k2 k3
      by_cases hok : (m s).1 = .ok ()
      · exact (k2 _ (Prod.ext hok rfl)).fitCurrent hc
      · rcases k1 s with k | k
        · exact Spec.Reset.fitCurrent (Or.inl k) hc
        · exact Spec.Reset.fitCurrent (Or.inr ⟨k, k3 hok⟩) hc
    cases op with
    | get c v w => exact ((getCube_faded c v w s).pale).fitCurrent hc
    | getFit v w => exact ((getGradientFit_faded v w s).pale).fitCurrent hc
    | getGradients v w => exact ((getGradients_faded v w s).pale).fitCurrent hc
    | point y x r v => exact ((gridPoint_faded y x r v s).pale).fitCurrent hc
    | closest a b c d v => exact ((closestPoint_faded a b c d v s).pale).fitCurrent hc
    | hill h => exact (hillMask_pale h s).fitCurrent hc
    | diagnose => exact (diagnose_pale s).fitCurrent hc
    | add a b c d => exact either _ (fitStays_add a b c d) (fun s' => addGradients_resets a b c d s s') h1
    | remove v => exact either _ (fitStays_remove v) (fun s' => removeGradients_resets v s s') h1
    | eclipse a b c => exact (setEclipse_resets a b c s).fitCurrent hc
    | update a b c => exact either _ (fitStays_update a b c) (fun s' => updateScaling_resets a b c s s') h1
    | fit w => exact determineFit_current w s hs hc
    | extract n => exact (extractSolutions_pale n s).fitCurrent hc

/-- The elements of the fit are those of the earlier one, or NaN. -/
def Spec.FitFrom (s s' : Shallot K) : Prop :=
  ∀ p', s'.gradientFit = some p' → ∃ p, s.gradientFit = some p ∧
    ∀ (i : ℕ) (x : XF K), p'.data.data[i]? = some x → x = .nan ∨ p.data.data[i]? = some x

theorem Spec.Pale.fitFrom {s s' : Shallot K} (h : Pale s s') : FitFrom s s' := by
  intro p' hp
  rcases h.fit with ⟨-, h2⟩ | ⟨p, q, h1, h2, h3⟩
  · rw [h2] at hp; cases hp
  · rw [h2] at hp
    cases hp
    refine ⟨p, h1, fun i x hx => ?_⟩
    rcases h3.values i with k | k
    · exact Or.inr (k ▸ hx)
    · rw [k] at hx
      exact Or.inl (Option.some.inj hx).symm

theorem FitStays.fitFrom {s s' : Shallot K} (h : FitStays s s') : FitFrom s s' := by
  intro p' hp
  rcases h with h | h
  · rw [h] at hp; cases hp
  · exact ⟨p', h ▸ hp, fun i x hx => Or.inr hx⟩

/-- Every call but `determine_gradient_fit` keeps the fit, up to NaN, or removes it. -/
theorem exec_fitFrom (op : GridOp K) (s : Shallot K) (h : ∀ w, op ≠ .fit w) : FitFrom s (op.exec s) := by
  cases op with
  | get c v w => exact ((getCube_faded c v w s).pale).fitFrom
  | getFit v w => exact ((getGradientFit_faded v w s).pale).fitFrom
  | getGradients v w => exact ((getGradients_faded v w s).pale).fitFrom
  | point y x r v => exact ((gridPoint_faded y x r v s).pale).fitFrom
  | closest a b c d v => exact ((closestPoint_faded a b c d v s).pale).fitFrom
  | hill v => exact (hillMask_pale v s).fitFrom
  | diagnose => exact (diagnose_pale s).fitFrom
  | add a b c d => exact (fitStays_add a b c d s).fitFrom
  | remove v => exact (fitStays_remove v s).fitFrom
  | eclipse a b c =>
    refine FitStays.fitFrom ?_
    rcases setEclipse_resets a b c s with h | h
    · exact Or.inl h
    · exact Or.inr h.1
  | update a b c => exact (fitStays_update a b c s).fitFrom
  | fit w => exact absurd rfl (h w)
  | extract n => exact (extractSolutions_pale n s).fitFrom

theorem runGrid_snoc (ops : List (GridOp K)) (op : GridOp K) (s : Shallot K) :
    runGrid (ops ++ [op]) s = op.exec (runGrid ops s) := by
  induction ops generalizing s with
  | nil => rfl
  | cons o ops ih => exact ih (o.exec s)

theorem snoc_split {A : Type} (l b a : List A) (x y : A) (h : l ++ [x] = b ++ y :: a) :
    (a = [] ∧ b = l ∧ y = x) ∨ ∃ a', a = a' ++ [x] ∧ l = b ++ y :: a' := by
  rcases List.eq_nil_or_concat a with rfl | ⟨a', z, rfl⟩
  · obtain ⟨h1, h2⟩ := List.append_inj' h rfl
    exact Or.inl ⟨rfl, h1.symm, (List.cons.inj h2).1.symm⟩
  · have h' : l ++ [x] = (b ++ y :: a') ++ [z] := by
      rw [h]; simp
    obtain ⟨h1, h2⟩ := List.append_inj' h' rfl
    obtain rfl := (List.cons.inj h2).1
    exact Or.inr ⟨a', by simp, h1⟩

/-- **C41, exactly** After any history whatever, with calls that raise or not, a stored fit comes from a call of
`determine_gradient_fit`: every element that has not become NaN is the sum over the gradients that the grid had
at that call, and later calls of `determine_gradient_fit` have changed nothing. -/
theorem C41_exact (ops : List (GridOp K)) (s : Shallot K) (hs : Sound s) (hfit : s.gradientFit = none)
    (p : GProp K) (hp : (runGrid ops s).gradientFit = some p) :
    ∃ before w after gs, ops = before ++ .fit w :: after ∧ (runGrid before s).gradients = some gs ∧
      (∀ b v a, after = b ++ .fit v :: a → (Shallot.determineFit v (runGrid (before ++ .fit w :: b) s)).2 =
        runGrid (before ++ .fit w :: b) s) ∧
      ∀ (i : ℕ) (x : XF K), p.data.data[i]? = some x → x = .nan ∨ FitAt w gs i x := by
  induction ops using List.reverseRecOn generalizing p with
  | nil =>
    have : (runGrid [] s).gradientFit = none := hfit
    rw [this] at hp
    cases hp
  | append_singleton ops op ih =>
    rw [runGrid_snoc] at hp
    have later : ∀ p0, (runGrid ops s).gradientFit = some p0 →
        (∀ (i : ℕ) (x : XF K), p.data.data[i]? = some x → x = .nan ∨ p0.data.data[i]? = some x) →
        (∀ v, op = .fit v → op.exec (runGrid ops s) = runGrid ops s) →
        ∃ before w after gs, ops ++ [op] = before ++ .fit w :: after ∧ (runGrid before s).gradients = some gs ∧
          (∀ b v a, after = b ++ .fit v :: a → (Shallot.determineFit v (runGrid (before ++ .fit w :: b) s)).2 =
            runGrid (before ++ .fit w :: b) s) ∧
          ∀ (i : ℕ) (x : XF K), p.data.data[i]? = some x → x = .nan ∨ FitAt w gs i x := by
      intro p0 h0 hx hop
      obtain ⟨before, w, after, gs, h1, h2, h3, h4⟩ := ih p0 h0
      refine ⟨before, w, after ++ [op], gs, by rw [h1]; simp, h2, fun b v a hb => ?_, fun i x hi => ?_⟩
      · rcases snoc_split _ _ _ _ _ hb with ⟨-, rfl, rfl⟩ | ⟨a', -, hl⟩
        · rw [← h1]
          exact hop v rfl
        · exact h3 b v a' hl
      · rcases hx i x hi with h | h
        · exact Or.inl h
        · exact h4 i x h
    by_cases hf : ∃ w, op = .fit w
    · obtain ⟨w, rfl⟩ := hf
      have hp' : (Shallot.determineFit w (runGrid ops s)).2.gradientFit = some p := hp
      have hso : Sound (runGrid ops s) := runGrid_sound ops s hs
      rcases determineFit_cases w (runGrid ops s) with ⟨-, h⟩ | ⟨gs, hg, ⟨e, h, -⟩ | ⟨q, data, h1, h2, -, h3⟩⟩
      · rw [h] at hp'
        exact later p hp' (fun _ _ h => Or.inr h) fun v hv => by
          cases hv
          exact congrArg Prod.snd h
      · rw [h] at hp'
        exact later p hp' (fun _ _ h => Or.inr h) fun v hv => by
          cases hv
          exact congrArg Prod.snd h
      · refine ⟨ops, w, [], gs, rfl, hg, fun b v a hb => ?_, fun i x hi => Or.inr ?_⟩
        · cases b <;> cases hb
        · rw [h3] at hp'
          cases hp'
          rw [h2] at hi
          obtain ⟨k1, k2⟩ := fitLoop_spec w _ gs _ data List.length_replicate
            (fun g hgs => ((hso.gradients gs hg g hgs).data.2)) h1
          have hlt : i < data.length := (List.getElem?_eq_some_iff.1 hi).1
          exact k2 i (.fin 0) x (by rw [List.getElem?_replicate, if_pos (by omega)]) hi
    · have hf' : ∀ w, op ≠ .fit w := fun w hw => hf ⟨w, hw⟩
      obtain ⟨p0, h0, hx⟩ := exec_fitFrom op (runGrid ops s) hf' p hp
      exact later p0 h0 hx fun v hv => absurd hv (hf' v)

/-- **C49, exactly** `set_eclipse_parameters` for all arguments: the parameters are stored one after the other up to
the first that is not acceptable; only if all are is anything done about gradients and fit. -/
theorem C49_exact (s : Shallot K) (d v u : PyVal K) :
    (¬ NotNegative d → ∃ e, Shallot.setEclipseParameters d v u s = (.error e, s)) ∧
    (NotNegative d → ¬ NotNegative v → ∃ e, Shallot.setEclipseParameters d v u s =
      (.error e, { s with eclipseDuration := some d })) ∧
    (NotNegative d → NotNegative v → ¬ Fraction u → ∃ e, Shallot.setEclipseParameters d v u s =
      (.error e, { s with eclipseDuration := some d, velocity := some v })) ∧
    (NotNegative d → NotNegative v → Fraction u → Shallot.setEclipseParameters d v u s =
      (.ok (), { s with
        eclipseDuration := some d, velocity := some v, limb := some u
        gradients := none
        gradientFit := if s.gradients = none then s.gradientFit else none })) := by
  unfold Shallot.setEclipseParameters
  rcases storeEclipse_cases d v u s with ⟨h1, h2, h3, h⟩ | ⟨h1, h2, h3, e, h⟩ | ⟨h1, h2, e, h⟩ | ⟨h1, e, h⟩
  · refine ⟨fun k => absurd h1 k, fun _ k => absurd h2 k, fun _ _ k => absurd h3 k, fun _ _ _ => ?_⟩
    rw [bind_ok _ _ _ _ () h]
    simp only [Meth.get_bind]
    rcases Option.eq_none_or_eq_some s.gradients with hg | ⟨l, hg⟩
    · simp only [hg, if_true]
      rfl
    · simp only [hg]
      rfl
  · exact ⟨fun k => absurd h1 k, fun _ k => absurd h2 k, fun _ _ _ => ⟨e, bind_err _ _ _ _ e h⟩,
      fun _ _ k => absurd k h3⟩
  · exact ⟨fun k => absurd h1 k, fun _ _ => ⟨e, bind_err _ _ _ _ e h⟩, fun _ k => absurd k h2, fun _ k => absurd k h2⟩
  · exact ⟨fun _ => ⟨e, bind_err _ _ _ _ e h⟩, fun k => absurd k h1, fun k => absurd k h1, fun k => absurd k h1⟩

end

/-- The hypotheses of `C41_clean_partial` are met by a history with a fit and then a call that raises: positions
to remove that are not an array. -/
example : ∃ (s : Shallot ℝ) (p : GProp ℝ), Sound s ∧ s.gradientFit = none ∧
    RaiseCleanly [.fit true, .remove (.int 0)] s ∧ ¬ SucceedsAll [.fit true, .remove (.int 0)] s ∧
    (runGrid [.fit true, .remove (.int 0)] s).gradientFit = some p := by
  obtain ⟨s₁, s₂, hs, hf, h, -, -, -, ⟨l, hl, -⟩, p, hp⟩ := throwAway_fit
  have h2 : GridOp.exec (.fit true) s₁ = s₂ := congrArg Prod.snd h
  have h3 : Shallot.removeGradients (.int 0) s₂ = (.error .typeError, s₂) := by
    unfold Shallot.removeGradients
    rw [Meth.get_bind, hl]
    rfl
  refine ⟨s₁, p, hs, hf, ⟨trivial, ?_, trivial⟩, fun hh => ?_, ?_⟩
  · rw [h2]
    intro _
    rw [h3]
  · have := hh.2.1
    rw [h2] at this
    have this : (Shallot.removeGradients (.int 0) s₂).1 = .ok () := this
    rw [h3] at this
    cases this
  · show (GridOp.exec (.remove (.int 0)) (GridOp.exec (.fit true) s₁)).gradientFit = some p
    rw [h2]
    show (Shallot.removeGradients (.int 0) s₂).2.gradientFit = some p
    rw [h3]
    exact hp

/-- The hypotheses of `C41_exact` are met by a grid whose fit is stale. -/
example : ∃ (ops : List (GridOp ℝ)) (s : Shallot ℝ) (p : GProp ℝ), Sound s ∧ s.gradientFit = none ∧
    (runGrid ops s).gradientFit = some p ∧ (runGrid ops s).gradients ≠ s.gradients ∧ ops.length = 2 := by
  obtain ⟨s₁, s₂, hs, hf, h, -, hr, hd, -, p, hp⟩ := throwAway_fit
  obtain ⟨e, s', k1, k2, k3, -⟩ := C41_false s₂ hr _ hd ⟨"float64", [1], [.fin 0]⟩ ⟨"float64", [1], [.fin 0]⟩
    ⟨rfl, rfl, rfl⟩ ⟨rfl, rfl, rfl⟩ (by rintro a ⟨⟩; rfl) (by rintro a ⟨⟩; rfl)
    (by simp [less_iff]) rfl (by simp) (.float (.fin 1)) (by simp) (by simp) p hp
  have hg : s₂.gradients = s₁.gradients := by
    rcases determineFit_cases true s₁ with ⟨-, q⟩ | ⟨gs, -, ⟨e, q, -⟩ | ⟨p, data, -, -, -, q⟩⟩ <;>
      rw [h] at q <;> exact congrArg (fun r => r.2.gradients) q
  have run : runGrid [.fit true, .add (.arr ⟨"float64", [1], [.fin 0]⟩) (.arr ⟨"float64", [1], [.fin 0]⟩)
      (.float (.fin 1)) .none] s₁ = s' := by
    show (Shallot.addGradients _ _ _ _ (Shallot.determineFit true s₁).2).2 = s'
    rw [h, k1]
  exact ⟨_, s₁, p, hs, hf, by rw [run]; exact k2, by rw [run, ← hg]; exact k3, rfl⟩

end Beyonce
