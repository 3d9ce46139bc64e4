import Verif.Props.Exceptions

/-!
# Property C133: which calls divide by zero

The transmission changes that `add_gradients` and `update_gradient_scaling` store are numpy numbers, for which a
division by zero does not raise.  So a grid that began without gradients has none that divides by a Python zero.
-/

set_option linter.unusedSectionVars false

namespace Beyonce
open Spec

section
variable {K : Type} [Field K] [LinearOrder K] [IsStrictOrderedRing K] [RealFns K] [FloorRing K]

/-- The transmission change of the gradient is not a Python zero. -/
def Passes (g : GGrad K) : Prop := ∀ t, g.transmission = some t → ¬ PyZero t

/-- So for all gradients. -/
def AllPass (s : Shallot K) : Prop := ∀ g ∈ s.gradients.getD [], Passes g

theorem allPass_iff (s : Shallot K) : AllPass s ↔ ¬ ZeroChange s := by
  constructor
  · rintro h ⟨l, g, t, hl, hg, ht, hz⟩
    exact h g (by rw [hl]; exact hg) t ht hz
  · intro h g hg t ht hz
    cases hl : s.gradients with
    | none => rw [hl] at hg; cases hg
    | some l =>
      rw [hl] at hg
      exact h ⟨l, g, t, hl, hg, ht, hz⟩

local notation "AP" => Inv.pre AllPass

theorem allPass_same {s s' : Shallot K} (h : SamePart .measurements s s') (hs : AllPass s) : AllPass s' := by
  intro g hg t ht
  cases hl' : s'.gradients with
  | none => rw [hl'] at hg; cases hg
  | some l' =>
    simp only [SamePart, hl'] at h
    cases hl : s.gradients with
    | none => rw [hl] at h; cases h
    | some l =>
      rw [hl', Option.getD_some] at hg
      rw [hl, Option.map_some, Option.map_some, Option.some.injEq] at h
      have := List.mem_map_of_mem (f := fun g : GGrad K => (g.measured, g.error, g.orbital, g.transmission)) hg
      rw [h] at this
      obtain ⟨g', hg', he⟩ := List.mem_map.1 this
      refine hs g' (by rw [hl]; exact hg') t ?_
      have : g'.transmission = g.transmission := congrArg (fun q => q.2.2.2) he
      rw [this, ht]

theorem onGradient_passes {α : Type} (s : Shallot K) (k : ℕ) (m : Meth (GGrad K) α)
    (hm : ∀ g, (s.gradients.getD [])[k]? = some g → Passes (m g).2) (hs : AllPass s) :
    AllPass (Shallot.onGradient k m s).2 := by
  unfold Shallot.onGradient
  cases h : (s.gradients.getD [])[k]? with
  | none => exact hs
  | some g =>
    intro g' hg'
    rcases List.mem_or_eq_of_mem_set hg' with h' | rfl
    · exact hs _ h'
    · exact hm g h

theorem determineMask_passes (vm vo vt ve : PyVal K) (g : GGrad K) (hg : Passes g) (hv : ¬ PyZero vt) :
    Passes (GGrad.determineMask vm vo vt ve g).2 := by
  have h1 : ¬ PyZero (orOne vt) := by
    unfold orOne
    split_ifs
    · simp [PyZero]
    · exact hv
  have h2 : ∀ t, some (orOne vt) = some t → ¬ PyZero t := by rintro t ⟨⟩; exact h1
  rcases determineMask_cases vm vo vt ve g with ⟨-, e, h⟩ | ⟨-, -, e, h⟩ | ⟨-, -, -, e, h⟩ |
    ⟨-, -, -, -, e, h⟩ | ⟨-, -, -, -, ⟨e, -, h⟩ | ⟨q, -, ⟨-, h⟩ | ⟨-, h⟩⟩⟩ <;> rw [h]
  · exact hg
  · exact hg
  · exact hg
  all_goals exact h2

theorem measureLoop_passes (scale : PyVal K) (ms : List (XF K × XF K × XF K)) : ∀ k,
    Moves (Inv AllPass) (Shallot.measureLoop scale k ms) := by
  induction ms with
  | nil => intro k; exact Moves.pure (Inv.pre _) _
  | cons q ms ih =>
    intro k
    unfold Shallot.measureLoop
    refine Moves.bind (Inv.pre _) (Moves.get (Inv.pre _)) fun s => ?_
    split_ifs
    · refine Moves.bind (Inv.pre _) (fun s hs => onGradient_passes s k _ (fun g hg => ?_) hs) fun _ => ih _
      exact determineMask_passes _ _ _ _ g (hs g (List.mem_of_getElem? hg)) (by simp [PyZero])
    · exact Moves.pure (Inv.pre _) _

theorem add_passes (t l e r : PyVal K) : Moves (Inv AllPass) (Shallot.addGradients t l e r) := by
  have P := Inv.pre (AllPass (K := K))
  unfold Shallot.addGradients
  refine Moves.bind P (Moves.get P) fun s => ?_
  split_ifs
  · refine Moves.bind P (Moves.lift P _) fun times => Moves.bind P (Moves.lift P _) fun lc =>
      Moves.bind P (Moves.lift P _) fun _ => Moves.bind P (Moves.lift P _) fun d => Moves.bind P ?_ fun _ =>
      Moves.bind P ?_ fun _ => Moves.modify fun s hs => hs
    · unfold Shallot.determineDiskGradients
      refine Moves.bind P (Moves.lift P _) fun a => ?_
      intro s hs
      rw [Meth.modify_bind, appendGradients_eq _ _ _ rfl]
      intro g hg
      rcases List.mem_append.1 hg with h | h
      · exact hs g h
      · obtain ⟨x, -, rfl⟩ := List.mem_map.1 h
        intro t ht
        cases ht
    · unfold Shallot.setMeasured
      exact Moves.bind P (Moves.lift P _) fun _ => Moves.bind P (Moves.lift P _) fun _ =>
        Moves.bind P (Moves.lift P _) fun _ => Moves.bind P (Moves.get P) fun _ =>
        Moves.bind P (Moves.lift P _) fun _ => measureLoop_passes _ _ _
  · exact Moves.pure P _

theorem remove_passes (v : PyVal K) : Moves (Inv AllPass) (Shallot.removeGradients v) := by
  have P := Inv.pre (AllPass (K := K))
  have loop : ∀ is : List ℤ, Moves (Inv AllPass) (Shallot.removeLoop (K := K) is) := by
    intro is
    induction is with
    | nil => exact Moves.pure P _
    | cons i is ih =>
      intro s hs
      unfold Shallot.removeLoop
      rw [Meth.get_bind]
      by_cases h : 0 ≤ i ∧ i < ((s.gradients.getD []).length : ℤ)
      · rw [if_pos h, bind_ok _ _ _ _ () (Meth.set_apply _ _)]
        exact ih _ fun g hg => hs g (List.mem_of_mem_eraseIdx hg)
      · rw [if_neg h]
        exact hs
  unfold Shallot.removeGradients
  refine Moves.bind P (Moves.get P) fun s => ?_
  cases s.gradients with
  | none => exact Moves.pure P _
  | some l =>
    exact Moves.bind P (Moves.lift P _) fun a => Moves.bind P (loop _) fun _ => Moves.modify fun s hs => hs

theorem eclipse_passes (d v u : PyVal K) : Moves (Inv AllPass) (Shallot.setEclipseParameters d v u) := by
  have P := Inv.pre (AllPass (K := K))
  unfold Shallot.setEclipseParameters Shallot.storeEclipse
  refine Moves.bind P (Moves.bind P (Moves.lift P _) fun _ => Moves.bind P (Moves.modify fun s hs => hs) fun _ =>
    Moves.bind P (Moves.lift P _) fun _ => Moves.bind P (Moves.modify fun s hs => hs) fun _ =>
    Moves.bind P (Moves.lift P _) fun _ => Moves.modify fun s hs => hs) fun _ => Moves.bind P (Moves.get P) fun s => ?_
  cases s.gradients with
  | none => exact Moves.pure P _
  | some l => exact Moves.bind P (Moves.modify fun s hs g hg => by cases hg) fun _ => Moves.modify fun s hs => hs

/-- What `update_gradient_scaling` passes on as transmission change of gradient `k`. -/
theorem newChange_passes (ts : Option (List (XF K))) (k : ℕ) (g : GGrad K) (hg : Passes g) :
    ¬ PyZero (match ts with
      | some l => .npFloat .w64 (l.getD k .nan)
      | none => Shallot.argOf g.transmission) := by
  cases ts with
  | some l => simp [PyZero]
  | none =>
    cases ht : g.transmission with
    | none => simp [PyZero, Shallot.argOf]
    | some t => exact hg t ht

theorem rescaleLoop_passes (b : Bool) (ts : Option (List (XF K))) : ∀ n k : ℕ,
    Moves (Inv AllPass) (Shallot.rescaleLoop b ts n k) := by
  have P := Inv.pre (AllPass (K := K))
  intro n
  induction n with
  | zero => intro k; exact Moves.pure P _
  | succ n ih =>
    intro k
    unfold Shallot.rescaleLoop
    refine Moves.get_bind fun s hs => ?_
    cases hk : (s.gradients.getD [])[k]? with
    | none => exact hs
    | some g =>
      have hp := hs g (List.mem_of_getElem? hk)
      refine (Moves.bind P (Moves.lift P _) fun scale => Moves.bind P (fun t ht => onGradient_passes t k _
        (fun g' hg' => determineMask_passes _ _ _ _ g' (ht g' (List.mem_of_getElem? hg'))
          (newChange_passes ts k g hp)) ht) fun _ => ih _ : Moves (Inv AllPass) _) s hs

theorem update_passes (v u t : PyVal K) : Moves (Inv AllPass) (Shallot.updateScaling v u t) := by
  have P := Inv.pre (AllPass (K := K))
  unfold Shallot.updateScaling
  refine Moves.bind P (Moves.modify fun s hs => hs) fun _ => Moves.bind P (Moves.get P) fun s =>
    Moves.bind P (Moves.lift P _) fun ts => ?_
  split_ifs
  · exact Moves.pure P _
  · cases s.gradients with
    | none => exact Moves.throw P _
    | some l => exact Moves.bind P (rescaleLoop_passes _ _ _ _) fun _ => Moves.modify fun s hs => hs

/-- No call makes a transmission change a Python zero. -/
theorem C133_changes (ops : List (GridOp K)) (s : Shallot K) (h : ¬ ZeroChange s) : ¬ ZeroChange (runGrid ops s) := by
  rw [← allPass_iff] at h ⊢
  induction ops generalizing s with
  | nil => exact h
  | cons op ops ih =>
    refine ih (op.exec s) ?_
    cases op with
    | add a b c d => exact add_passes a b c d s h
    | remove v => exact remove_passes v s h
    | eclipse a b c => exact eclipse_passes a b c s h
    | update a b c => exact update_passes a b c s h
    | _ => exact allPass_same (C132_frame _ s .measurements (by simp [Touches, OfFit])) h

theorem rescaleLoop_divides (z : Prop) (b : Bool) (ts : Option (List (XF K))) : ∀ n k : ℕ,
    Fails (fun t => AllPass t ∧ (z → ¬ NoOrbit t)) (fun e => e = .zeroDivisionError → ¬ z)
      (Shallot.rescaleLoop b ts n k) := by
  intro n
  induction n with
  | zero => intro k; exact Fails.pure _
  | succ n ih =>
    intro k
    unfold Shallot.rescaleLoop
    refine Fails.get_bind fun s hs => ?_
    cases hk : (s.gradients.getD [])[k]? with
    | none =>
      intro e he
      cases he
    | some g =>
      have hp := hs.1 g (List.mem_of_getElem? hk)
      simp only
      cases hsc : (if b = true then s.orbital else .ok (Shallot.argOf g.orbital)) with
      | error e' =>
        intro e he
        cases he
        rintro rfl hz
        split_ifs at hsc
        exact hs.2 hz (orbital_zero hsc)
      | ok scale =>
        rw [Meth.lift_ok_bind]
        intro e he
        rcases bind_raises he with h1 | ⟨a, s', h1, h2⟩
        · unfold Shallot.onGradient at h1
          rw [hk] at h1
          rintro rfl
          rcases determineMask_kinds h1 with h | h | ⟨-, h⟩
          · cases h
          · cases h
          · exact absurd h (newChange_passes ts k g hp)
        · have e2 := congrArg Prod.snd h1
          simp only at e2
          refine ih _ s' ⟨?_, ?_⟩ e h2
          · rw [← e2]
            exact onGradient_passes s k _ (fun g' hg' => determineMask_passes _ _ _ _ g'
              (hs.1 g' (List.mem_of_getElem? hg')) (newChange_passes ts k g hp)) hs.1
          · rw [← e2]
            unfold Shallot.onGradient
            rw [hk]
            exact hs.2

/-- **C133, when a call divides by zero.** On a grid that began without a transmission change that is a Python
zero, above all one without gradients, whatever was called before: only `add_gradients`, if the velocity in force or
the limb darkening in force has no orbital scale, and `update_gradient_scaling`, if those that will be in force have
none. -/
theorem C133_division (ops : List (GridOp K)) (op : GridOp K) (s : Shallot K) (hs : Sound s)
    (hd : s.diagnosticMap ≠ none) (hz : ¬ ZeroChange s)
    (h : op.raised (runGrid ops s) = some .zeroDivisionError) :
    ((∃ a b c d, op = .add a b c d) ∧ NoOrbit (runGrid ops s)) ∨
    ∃ v u t, op = .update v u t ∧ NoOrbit { runGrid ops s with
      velocity := if v = .none then (runGrid ops s).velocity else some v
      limb := if u = .none then (runGrid ops s).limb else some u } := by
  have hz' := C133_changes ops s hz
  have key := C133_history ops op s hs hd _ h
  generalize runGrid ops s = r at *
  cases op with
  | add a b c d =>
    simp only [CanRaise, Validation, reduceCtorEq, false_or, or_self, true_and] at key
    exact Or.inl ⟨⟨a, b, c, d, rfl⟩, key⟩
  | update v u t =>
    refine Or.inr ⟨v, u, t, rfl, by_contra fun hn => ?_⟩
    have h := failure_some h
    unfold Shallot.updateScaling at h
    rw [Meth.modify_bind, Meth.get_bind] at h
    have hn : ¬ NoOrbit (Shallot.storeScaling v u r) := hn
    have hp : AllPass (Shallot.storeScaling v u r) := (allPass_iff r).2 hz'
    generalize Shallot.storeScaling v u r = q at *
    rcases bind_raises h with h | ⟨ts, q', h1, h⟩
    · have : Validation .zeroDivisionError := by
        have h : q.newTransmissions t = .error .zeroDivisionError := h
        unfold Shallot.newTransmissions at h
        split_ifs at h
        cases ha : array t (.int (-1)) (.int 1) (.bool false) (.str "float64") (.int 1) with
        | error e' => rw [ha] at h; cases h; exact array_valid _ ha
        | ok a =>
          rw [ha] at h
          simp only [bind, Except.bind] at h
          cases hb : sameShapeArrays [.arr a, .arr ⟨"object", q.gradientsShape, []⟩] 2 with
          | error e' =>
            rw [hb] at h; cases h
            exact shapes_valid [a, ⟨"object", q.gradientsShape, []⟩] rfl rfl (by simp) _ hb
          | ok _ => rw [hb] at h; cases h
      simp [Validation] at this
    · obtain rfl : q = q' := congrArg Prod.snd h1
      split_ifs at h
      cases hg : q.gradients with
      | none => rw [hg] at h; cases h
      | some l =>
        rw [hg] at h
        rcases bind_raises h with h | ⟨a, q', k, h⟩
        · exact rescaleLoop_divides True _ _ _ _ q ⟨hp, fun _ => hn⟩ _ h rfl trivial
        · cases h
  | _ => simp_all [CanRaise]

end

/-- The hypotheses of `C133_division` are met, with either call. -/
theorem C133_division_witness :
    (∃ (s : Shallot ℝ) (ops : List (GridOp ℝ)), Sound s ∧ s.diagnosticMap ≠ none ∧ ¬ ZeroChange s ∧
      GridOp.raised (.add (column [.fin 0]) (column [.fin 0]) .none .none) (runGrid ops s) =
        some .zeroDivisionError) ∧
    ∃ s : Shallot ℝ, Sound s ∧ s.diagnosticMap ≠ none ∧ ¬ ZeroChange s ∧
      GridOp.raised (.update (.int 0) (.int 0) .none) s = some .zeroDivisionError := by
  constructor
  · obtain ⟨s, s', hs, hd, hg, h1, h2⟩ := C133_false_add
    refine ⟨s, [.eclipse (.int 1) (.int 0) (.int 0)], hs, hd, ?_, ?_⟩
    · rintro ⟨l, -, -, h, -⟩
      rw [hg] at h
      cases h
    · have : runGrid [.eclipse (.int 1) (.int 0) (.int 0)] s = s' := congrArg Prod.snd h1
      rw [this]
      exact h2
  · obtain ⟨s, s₁, hs, -, -, hg, -, -, h1, hs₁, -, -, -, -, ⟨p, hp⟩, l, hl, hl2, hm⟩ := throwAway_added
    refine ⟨s₁, hs₁, by rw [hp]; simp, ?_, ?_⟩
    · have calls : ∀ bs : List (List (Measurement ℝ)), Moves (Inv AllPass) (addCalls bs) := by
        intro bs
        induction bs with
        | nil => exact Moves.pure (Inv.pre _) _
        | cons b bs ih => exact Moves.bind (Inv.pre _) (add_passes _ _ _ _) fun _ => ih
      rw [← allPass_iff, ← show (addCalls [[slopeOf 0], [slopeOf (1 / 2)]] s).2 = s₁ by rw [h1]]
      refine calls _ s fun g k => ?_
      rw [hg] at k
      cases k
    · match l, hl, hl2 with
      | g :: l, hl, _ => exact C133_false_velocity s₁ g l hl

end Beyonce
