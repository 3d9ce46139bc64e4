import Verif.Props.GridMethods

/-!
# The methods of the grid by reference that concern its gradients
-/

set_option linter.unusedSectionVars false

namespace Beyonce
open Spec

section
variable {K : Type} [Field K] [LinearOrder K] [IsStrictOrderedRing K]

theorem view_gradients (w : GWorld K) :
    w.view.gradients = w.grid.gradients.map (List.map (HGrad.view w.arrays)) := rfl

theorem view_gradients_length (w : GWorld K) :
    (w.view.gradients.getD []).length = (w.grid.gradients.getD []).length := by
  rw [view_gradients]
  cases w.grid.gradients <;> simp

theorem self_bind {α : Type} (f : Shallot K → Meth (GWorld K) α) (w : GWorld K) :
    (GWorld.self >>= f) w = f w.view w := rfl

/-! ## Removing gradients -/

theorem removeAt_refines {w : GWorld K} (hw : Apart w) (i : ℕ) :
    Refines Later (fun _ _ _ => True)
      (GWorld.adjust ({ · with gradients := some ((w.grid.gradients.getD []).eraseIdx i) }))
      (Meth.set { w.view with gradients := some ((w.view.gradients.getD []).eraseIdx i) }) w := by
  have h := adjust_refines (w := w) hw
    ({ · with gradients := some ((w.grid.gradients.getD []).eraseIdx i) })
    (fun _ => { w.view with gradients := some ((w.view.gradients.getD []).eraseIdx i) })
    (fun a => match a with
      | .cube c => .cube c
      | .gradient k => .gradient (if k < i then k else k + 1)) ?_ ?_ ?_ ?_
  · exact ⟨h.apart, h.view, h.later, h.result⟩
  · intro a b h
    cases a <;> cases b <;> simp only [Slot.cube.injEq, Slot.gradient.injEq, reduceCtorEq] at h ⊢
    · exact h
    · split at h <;> split at h <;> omega
  · intro a p h
    cases a with
    | cube c => cases c <;> exact h
    | gradient k =>
      simp only [HGrid.slot, HGrid.gradient, Option.getD_some, List.getElem?_eraseIdx] at h ⊢
      split at h
      · rename_i hk; rw [if_pos hk]; exact h
      · rename_i hk; rw [if_neg hk]; exact h
  · intro c _ _
    cases c <;> rfl
  · show HGrid.view _ _ = _
    unfold GWorld.view HGrid.view
    simp only [Option.map_some]
    cases w.grid.gradients with
    | none => simp
    | some l => simp only [Option.getD_some, Option.map_some, List.eraseIdx_map]

theorem removeLoop_refines (is : List ℤ) : ∀ {w : GWorld K} (_ : Apart w),
    Refines Later (fun _ _ _ => True) (GWorld.removeLoop is) (Shallot.removeLoop is) w := by
  induction is with
  | nil => exact fun hw => Refines.pure later_pre hw _ _ trivial
  | cons i is ih =>
    intro w hw
    unfold GWorld.removeLoop Shallot.removeLoop
    refine Refines.get_bind ?_
    suffices h : Refines Later (fun _ _ _ => True)
        (if 0 ≤ i ∧ i < ((w.grid.gradients.getD []).length : ℤ) then do
          GWorld.adjust ({ · with gradients := some ((w.grid.gradients.getD []).eraseIdx i.toNat) })
          GWorld.removeLoop is
        else Meth.throw .indexError : Meth (GWorld K) Unit)
        (if 0 ≤ i ∧ i < ((w.view.gradients.getD []).length : ℤ) then do
          Meth.set { w.view with gradients := some ((w.view.gradients.getD []).eraseIdx i.toNat) }
          Shallot.removeLoop is
        else Meth.throw .indexError : Meth (Shallot K) Unit) w from
      ⟨h.apart, h.view, h.later, h.result⟩
    rw [view_gradients_length]
    split
    · exact (removeAt_refines hw i.toNat).bind later_pre fun _ _ w' hw' _ _ => ih hw'
    · exact Refines.throw later_pre hw _

theorem removeGradients_refines [FloorRing K] {w : GWorld K} (hw : Apart w) (v : PyVal K) :
    Refines Later (fun _ _ _ => True) (GWorld.removeGradients v) (Shallot.removeGradients v) w := by
  unfold GWorld.removeGradients Shallot.removeGradients
  refine Refines.get_bind ?_
  suffices h : Refines Later (fun _ _ _ => True)
      (match w.grid.gradients with
        | none => pure ()
        | some l => do
          let a ← Meth.lift (array v (lower := .int 0) (upper := .int ((l.length : ℤ) - 1))
            (dtype := .str "int64") (numDimensions := .int 1))
          GWorld.removeLoop ((Shallot.intsOf a).mergeSort (fun i j => decide (i ≤ j))).reverse
          GWorld.resetFit : Meth (GWorld K) Unit)
      (match w.view.gradients with
        | none => pure ()
        | some l => do
          let a ← Meth.lift (array v (lower := .int 0) (upper := .int ((l.length : ℤ) - 1))
            (dtype := .str "int64") (numDimensions := .int 1))
          Shallot.removeLoop ((Shallot.intsOf a).mergeSort (fun i j => decide (i ≤ j))).reverse
          Shallot.resetFit : Meth (Shallot K) Unit) w from
    ⟨h.apart, h.view, h.later, h.result⟩
  have hl := view_gradients w
  cases hg : w.grid.gradients with
  | none =>
    rw [hg, Option.map_none] at hl
    rw [hl]
    exact Refines.pure later_pre hw _ _ trivial
  | some l =>
    rw [hg, Option.map_some] at hl
    rw [hl]
    dsimp only
    rw [List.length_map]
    refine Refines.lift_bind later_pre hw _ fun a _ => ?_
    refine (removeLoop_refines _ hw).bind later_pre fun _ _ w1 hw1 _ _ => ?_
    exact resetFit_refines hw1

/-! ## Parameters of the eclipse, and the fit -/

theorem plain_view_slot {h h' : HGrid K} (h1 : ∀ c, h'.prop c = h.prop c)
    (h2 : h'.gradients = h.gradients) (a : Slot) : h'.slot a = h.slot a := by
  cases a with
  | cube c => exact h1 c
  | gradient k => simp only [HGrid.slot, HGrid.gradient, h2]

theorem dropGradients_refines {w : GWorld K} (hw : Apart w) :
    Refines Later (fun _ _ _ => True) (GWorld.adjust ({ · with gradients := none }))
      (Meth.modify ({ · with gradients := none })) w := by
  refine adjust_refines hw _ _ id (fun _ _ h => h) ?_ ?_ rfl
  · intro a p h
    cases a with
    | cube c => cases c <;> exact h
    | gradient k => simp [HGrid.slot, HGrid.gradient] at h
  · intro c _ _
    cases c <;> rfl

theorem setEclipseParameters_refines {w : GWorld K} (hw : Apart w) (d v u : PyVal K) :
    Refines Later (fun _ _ _ => True) (GWorld.setEclipseParameters d v u)
      (Shallot.setEclipseParameters d v u) w := by
  unfold GWorld.setEclipseParameters Shallot.setEclipseParameters Shallot.storeEclipse
  simp only [bind_assoc']
  refine Refines.lift_bind later_pre hw _ fun d _ => ?_
  refine (plain_refines hw _ _ (fun a => plain_view_slot (fun c => by cases c <;> rfl) rfl a)
    rfl).bind later_pre fun _ _ w1 hw1 _ _ => ?_
  refine Refines.lift_bind later_pre hw1 _ fun v _ => ?_
  refine (plain_refines hw1 _ _ (fun a => plain_view_slot (fun c => by cases c <;> rfl) rfl a)
    rfl).bind later_pre fun _ _ w2 hw2 _ _ => ?_
  refine Refines.lift_bind later_pre hw2 _ fun u _ => ?_
  refine (plain_refines hw2 _ _ (fun a => plain_view_slot (fun c => by cases c <;> rfl) rfl a)
    rfl).bind later_pre fun _ _ w3 hw3 _ _ => ?_
  refine Refines.get_bind ?_
  suffices h : Refines Later (fun _ _ _ => True)
      (match w3.grid.gradients with
        | none => pure ()
        | some _ => do
          GWorld.adjust ({ · with gradients := none })
          GWorld.resetFit : Meth (GWorld K) Unit)
      (match w3.view.gradients with
        | none => pure ()
        | some _ => do
          Meth.modify ({ · with gradients := none })
          Shallot.resetFit : Meth (Shallot K) Unit) w3 from
    ⟨h.apart, h.view, h.later, h.result⟩
  have hl := view_gradients w3
  cases hg : w3.grid.gradients with
  | none =>
    rw [hg, Option.map_none] at hl
    rw [hl]
    exact Refines.pure later_pre hw3 _ _ trivial
  | some l =>
    rw [hg, Option.map_some] at hl
    rw [hl]
    exact (dropGradients_refines hw3).bind later_pre fun _ _ w4 hw4 _ _ => resetFit_refines hw4

theorem determineFit_refines {w : GWorld K} (hw : Apart w) (b : Bool) :
    Refines Later (fun _ _ _ => True) (GWorld.determineFit b) (Shallot.determineFit b) w := by
  unfold GWorld.determineFit Shallot.determineFit
  refine Refines.self_bind ?_
  cases w.view.gradients with
  | none => exact Refines.pure later_pre hw _ _ trivial
  | some gs =>
    refine Refines.lift_bind later_pre hw _ fun data _ => ?_
    have := ((putNew_refines hw .gradientFit (.inr rfl) .gradientFit .none
      ⟨"float64", [w.view.params.gridShape.1, w.view.params.gridShape.2.1,
        w.view.params.gridShape.2.2], data⟩ w.view.params).bind later_pre
      fun _ _ w1 hw1 _ _ => setMask_refines hw1 .gradientFit
        ⟨"bool", [w.view.params.gridShape.1, w.view.params.gridShape.2.1,
          w.view.params.gridShape.2.2], data.map fun x => .fin (if x.isNan then 1 else 0)⟩)
    rw [bind_assoc'] at this
    exact this

/-! ## Adding gradients -/

variable [RealFns K]

/-- One round of the loop of `_determine_disk_gradients`, by value. -/
def appendRound (position : XF K) : Meth (Shallot K) Unit := do
  let self ← Meth.get
  let d := self.gradientCube position
  let g ← Meth.lift (GGrad.new (.arr ⟨"float64", d.shape, d.data⟩) self.params
    (.npFloat .w64 position))
  Meth.set { self with gradients := some (self.gradients.getD [] ++ [g]) }

theorem appendGradients_cons (x : XF K) (xs : List (XF K)) :
    Shallot.appendGradients (x :: xs) = appendRound x >>= fun _ => Shallot.appendGradients xs := by
  unfold appendRound
  rw [Shallot.appendGradients]
  simp only [bind_assoc']

theorem appendGradient_refines {w : GWorld K} (hw : Apart w) (x : XF K) :
    Refines Later (fun _ _ _ => True) (GWorld.appendGradient x) (appendRound x) w := by
  have hA := grown_append w ⟨"float64", (w.view.gradientCube x).shape, (w.view.gradientCube x).data⟩
  have e2 : appendRound x w.view = (.ok (), { w.view with
      gradients := some (w.view.gradients.getD [] ++ [blank w.view x]) }) := by
    unfold appendRound
    rw [Meth.get_bind]
    dsimp only
    rw [new_blank]
    rfl
  have e1 : GWorld.appendGradient x w = (.ok (),
      ⟨w.arrays ++ [⟨"float64", (w.view.gradientCube x).shape, (w.view.gradientCube x).data⟩],
        { w.grid with gradients := some (w.grid.gradients.getD [] ++
          [⟨⟨.gradient, .none, w.view.params, w.arrays.length, none,
            nanmin (w.view.gradientCube x).data, nanmax (w.view.gradientCube x).data, "viridis", 11⟩,
            .npFloat .w64 x, none, none, none, none⟩]) }⟩) := by
    unfold GWorld.appendGradient
    rw [self_bind]
    dsimp only
    rw [new_blank]
    rfl
  have hs : ∀ b, ({ w.grid with gradients := some (w.grid.gradients.getD [] ++
          [⟨⟨.gradient, .none, w.view.params, w.arrays.length, none,
            nanmin (w.view.gradientCube x).data, nanmax (w.view.gradientCube x).data, "viridis", 11⟩,
            .npFloat .w64 x, none, none, none, none⟩]) } : HGrid K).slot b =
      if b = .gradient (w.grid.gradients.getD []).length then
        some ⟨.gradient, .none, w.view.params, w.arrays.length, none,
            nanmin (w.view.gradientCube x).data, nanmax (w.view.gradientCube x).data, "viridis", 11⟩
      else w.grid.slot b := by
    intro b
    cases b with
    | cube c => cases c <;> rfl
    | gradient k =>
      simp only [HGrid.slot, HGrid.gradient, Option.getD_some, Slot.gradient.injEq,
        List.getElem?_append]
      by_cases hk : k = (w.grid.gradients.getD []).length
      · subst hk
        simp
      · rw [if_neg hk]
        split
        · rfl
        · rename_i h
          have h1 : ([⟨⟨.gradient, .none, w.view.params, w.arrays.length, none,
              nanmin (w.view.gradientCube x).data, nanmax (w.view.gradientCube x).data, "viridis", 11⟩,
              .npFloat .w64 x, none, none, none, none⟩] :
                List (HGrad K))[k - (w.grid.gradients.getD []).length]? = none :=
            List.getElem?_eq_none (by simp only [List.length_cons, List.length_nil]; omega)
          have h2 : (w.grid.gradients.getD [])[k]? = none := List.getElem?_eq_none (by omega)
          rw [h1, h2]
  have ho : Own w (w.arrays ++ [⟨"float64", (w.view.gradientCube x).shape,
      (w.view.gradientCube x).data⟩]) (.gradient (w.grid.gradients.getD []).length)
      ⟨.gradient, .none, w.view.params, w.arrays.length, none,
        nanmin (w.view.gradientCube x).data, nanmax (w.view.gradientCube x).data, "viridis", 11⟩ :=
    ⟨.inr le_rfl, by simp, by simp, by simp, by simp⟩
  refine ⟨?_, ?_, ?_, ?_⟩
  · rw [e1]; exact insert_apart hw hA hs ho
  · rw [e1, e2]
    have hv := hA.view hw
    show HGrid.view _ _ = _
    generalize hB : w.arrays ++ [⟨"float64", (w.view.gradientCube x).shape,
      (w.view.gradientCube x).data⟩] = B at *
    have hlast : arrayAt B w.arrays.length = ⟨"float64", (w.view.gradientCube x).shape,
        (w.view.gradientCube x).data⟩ := by rw [← hB, arrayAt_last]
    conv_rhs => rw [← hv]
    unfold HGrid.view
    simp only [Option.map_some, List.map_append, List.map_cons, List.map_nil]
    have hb : blank (w.grid.view B) x = HGrad.view B ⟨⟨.gradient, .none, w.view.params,
        w.arrays.length, none, nanmin (w.view.gradientCube x).data,
        nanmax (w.view.gradientCube x).data, "viridis", 11⟩, .npFloat .w64 x, none, none, none,
        none⟩ := by
      rw [hv]
      unfold HGrad.view HProp.view blank
      simp only [hlast, Option.map_none]
    unfold HGrid.view at hb
    rw [← hb]
    cases w.grid.gradients <;> rfl
  · rw [e1]
    exact insert_later hA hs ho fun c h => by cases h
  · rw [e1, e2]; exact .ok trivial

theorem appendGradients_refines (xs : List (XF K)) : ∀ {w : GWorld K} (_ : Apart w),
    Refines Later (fun _ _ _ => True) (GWorld.appendGradients xs) (Shallot.appendGradients xs) w := by
  induction xs with
  | nil => exact fun hw => Refines.pure later_pre hw _ _ trivial
  | cons x xs ih =>
    intro w hw
    rw [appendGradients_cons, GWorld.appendGradients]
    exact (appendGradient_refines hw x).bind later_pre fun _ _ w' hw' _ _ => ih hw'

theorem startGradients_refines {w : GWorld K} (hw : Apart w) :
    Refines Later (fun _ _ _ => True)
      (GWorld.adjust fun h => { h with gradients := some (h.gradients.getD []) })
      (Meth.modify fun s => { s with gradients := some (s.gradients.getD []) }) w := by
  refine plain_refines hw _ _ ?_ ?_
  · intro a
    cases a with
    | cube c => cases c <;> rfl
    | gradient k => rfl
  · show HGrid.view _ _ = _
    unfold GWorld.view HGrid.view
    cases w.grid.gradients <;> rfl

theorem determineDiskGradients_refines {w : GWorld K} (hw : Apart w) (a : NpArr K) :
    Refines Later (fun _ _ _ => True) (GWorld.determineDiskGradients a)
      (Shallot.determineDiskGradients a) w := by
  unfold GWorld.determineDiskGradients Shallot.determineDiskGradients
  refine Refines.lift_bind later_pre hw _ fun a _ => ?_
  exact (startGradients_refines hw).bind later_pre fun _ _ w1 hw1 _ _ => appendGradients_refines _ hw1

theorem measureLoop_refines (scale : PyVal K) (l : List (XF K × XF K × XF K)) : ∀ (k : ℕ)
    {w : GWorld K} (_ : Apart w), Refines Later (fun _ _ _ => True) (GWorld.measureLoop scale k l)
      (Shallot.measureLoop scale k l) w := by
  induction l with
  | nil =>
    intro k w hw
    unfold GWorld.measureLoop Shallot.measureLoop
    exact Refines.pure later_pre hw _ _ trivial
  | cons q l ih =>
    intro k w hw
    obtain ⟨m, e, t⟩ := q
    unfold GWorld.measureLoop Shallot.measureLoop
    refine Refines.get_bind ?_
    suffices h : Refines Later (fun _ _ _ => True)
        (if k < (w.grid.gradients.getD []).length then do
          GWorld.determineMask k (.npFloat .w64 m) scale (.npFloat .w64 t) (.npFloat .w64 e)
          GWorld.measureLoop scale (k + 1) l
        else pure () : Meth (GWorld K) Unit)
        (if k < (w.view.gradients.getD []).length then do
          Shallot.onGradient k
            (GGrad.determineMask (.npFloat .w64 m) scale (.npFloat .w64 t) (.npFloat .w64 e))
          Shallot.measureLoop scale (k + 1) l
        else pure () : Meth (Shallot K) Unit) w from ⟨h.apart, h.view, h.later, h.result⟩
    rw [view_gradients_length]
    split
    · exact (determineMask_refines hw k _ _ _ _).bind later_pre fun _ _ w' hw' _ _ => ih (k + 1) hw'
    · exact Refines.pure later_pre hw _ _ trivial

theorem setMeasured_refines {w : GWorld K} (hw : Apart w) (lc : NpArr K) (e t : PyVal K) :
    Refines Later (fun _ _ _ => True) (GWorld.setMeasured lc e t) (Shallot.setMeasured lc e t) w := by
  unfold GWorld.setMeasured Shallot.setMeasured
  refine Refines.lift_bind later_pre hw _ fun e _ => ?_
  refine Refines.lift_bind later_pre hw _ fun t _ => ?_
  refine Refines.lift_bind later_pre hw _ fun _ _ => ?_
  refine Refines.self_bind ?_
  refine Refines.lift_bind later_pre hw _ fun scale _ => ?_
  exact measureLoop_refines _ _ _ hw

theorem addGradients_refines {w : GWorld K} (hw : Apart w) (times lc e t : PyVal K) :
    Refines Later (fun _ _ _ => True) (GWorld.addGradients times lc e t)
      (Shallot.addGradients times lc e t) w := by
  unfold GWorld.addGradients Shallot.addGradients
  refine Refines.self_bind ?_
  cases w.view.ready with
  | false => exact Refines.pure later_pre hw _ _ trivial
  | true =>
    refine Refines.lift_bind later_pre hw _ fun times _ => ?_
    refine Refines.lift_bind later_pre hw _ fun lc _ => ?_
    refine Refines.lift_bind later_pre hw _ fun _ _ => ?_
    refine Refines.lift_bind later_pre hw _ fun d _ => ?_
    refine (determineDiskGradients_refines hw _).bind later_pre fun _ _ w1 hw1 _ _ => ?_
    refine (setMeasured_refines hw1 _ _ _).bind later_pre fun _ _ w2 hw2 _ _ => ?_
    exact resetFit_refines hw2

theorem rescaleLoop_refines (b : Bool) (t : Option (List (XF K))) (n : ℕ) : ∀ (k : ℕ)
    {w : GWorld K} (_ : Apart w), Refines Later (fun _ _ _ => True) (GWorld.rescaleLoop b t n k)
      (Shallot.rescaleLoop b t n k) w := by
  induction n with
  | zero =>
    intro k w hw
    unfold GWorld.rescaleLoop Shallot.rescaleLoop
    exact Refines.pure later_pre hw _ _ trivial
  | succ n ih =>
    intro k w hw
    unfold GWorld.rescaleLoop Shallot.rescaleLoop
    refine Refines.self_bind ?_
    cases (w.view.gradients.getD [])[k]? with
    | none => exact Refines.pure later_pre hw _ _ trivial
    | some g =>
      refine Refines.lift_bind later_pre hw _ fun scale _ => ?_
      refine (determineMask_refines hw k _ _ _ _).bind later_pre fun _ _ w' hw' _ _ => ih (k + 1) hw'

theorem updateScaling_refines {w : GWorld K} (hw : Apart w) (v u t : PyVal K) :
    Refines Later (fun _ _ _ => True) (GWorld.updateScaling v u t) (Shallot.updateScaling v u t) w := by
  unfold GWorld.updateScaling Shallot.updateScaling
  refine (plain_refines hw _ _ (fun a => plain_view_slot (fun c => by cases c <;> rfl) rfl a)
    rfl).bind later_pre fun _ _ w1 hw1 _ _ => ?_
  refine Refines.self_bind ?_
  refine Refines.lift_bind later_pre hw1 _ fun t _ => ?_
  split
  · exact Refines.pure later_pre hw1 _ _ trivial
  · cases w1.view.gradients with
    | none => exact Refines.throw later_pre hw1 _
    | some l =>
      exact (rescaleLoop_refines _ _ _ _ hw1).bind later_pre fun _ _ w2 hw2 _ _ => resetFit_refines hw2

/-! ## Reading all gradients -/

theorem gradientLoop_refines (m : Mask) (v : PyVal K) (n : ℕ) : ∀ (k : ℕ) {w : GWorld K}
    (_ : Apart w), Refines Later (fun w' a b => a = b ∧ InPlace w w') (GWorld.gradientLoop m v n k)
      (Shallot.gradientLoop m v n k) w := by
  induction n with
  | zero =>
    intro k w hw
    unfold GWorld.gradientLoop Shallot.gradientLoop
    exact Refines.pure later_pre hw _ _ ⟨rfl, rfl, rfl⟩
  | succ n ih =>
    intro k w hw
    unfold GWorld.gradientLoop Shallot.gradientLoop
    refine Refines.self_bind ?_
    cases (w.view.gradients.getD [])[k]? with
    | none => exact Refines.pure later_pre hw _ _ ⟨rfl, rfl, rfl⟩
    | some g =>
      refine Refines.lift_bind later_pre hw _ fun s _ => ?_
      refine (readGradient_refines hw k v).bind later_pre fun a d w1 hw1 _ hr => ?_
      refine Refines.read_bind ?_
      rw [hr.value]
      refine (ih (k + 1) hw1).bind later_pre fun a b w2 hw2 _ h => ?_
      obtain ⟨rfl, h⟩ := h
      exact Refines.pure later_pre hw2 _ _ ⟨rfl, hr.inPlace.trans h⟩

/-- A new array that the method returns. -/
theorem alloc_refines {w : GWorld K} (hw : Apart w) {α β : Type} (a : NpArr K) (f : ℕ → α) (y : β)
    (R : GWorld K → α → β → Prop)
    (h : R { w with arrays := w.arrays ++ [a] } (f w.arrays.length) y) :
    Refines Later R (do let r ← GWorld.alloc a; pure (f r)) (pure y) w := by
  have hA := grown_append w a
  exact ⟨grown_apart hw hA, hA.view hw, grown_later hA, .ok h⟩

theorem getGradients_refines {w : GWorld K} (hw : Apart w) (v u : PyVal K) :
    Refines Later (fun w' a b => a.1 = b ∧ w.arrays.length ≤ a.2 ∧ w'.grid = w.grid ∧
        a.2 < w'.arrays.length)
      (GWorld.getGradients v u) (Shallot.getGradients v u) w := by
  have hv : Shallot.getGradients v u = Shallot.getGradients v u >>= pure := by
    funext s
    rw [Meth.bind_apply]
    generalize Shallot.getGradients v u s = p
    obtain ⟨e | a, s'⟩ := p <;> rfl
  rw [hv]
  unfold GWorld.getGradients Shallot.getGradients
  rw [bind_assoc']
  refine Refines.self_bind ?_
  cases w.view.gradients with
  | none => exact ⟨hw, rfl, later_pre.refl w, .error _⟩
  | some l =>
    dsimp only
    simp only [bind_assoc']
    refine Refines.lift_bind later_pre hw _ fun b _ => ?_
    refine Refines.lift_bind later_pre hw _ fun m _ => ?_
    refine (gradientLoop_refines m u l.length 0 hw).bind later_pre fun a b w1 hw1 _ h1 => ?_
    obtain ⟨rfl, h1⟩ := h1
    exact alloc_refines hw1 _ (fun r => (a, r)) a _ ⟨rfl, h1.2.ge, h1.1, by simp⟩

end
end Beyonce
