import Verif.Props.GridMethodsGradients

/-!
# Sessions with a grid by reference

A caller calls methods of a grid in any order, keeps the arrays that are returned, makes arrays of
their own, and writes into any array.
-/

set_option linter.unusedSectionVars false

namespace Beyonce
open Spec

section
variable {K : Type} [Field K] [LinearOrder K] [IsStrictOrderedRing K] [RealFns K] [FloorRing K]

/-- What a method returns, as values. -/
inductive Spec.Out (K : Type)
  | nothing
  | cube (d : Nd K)
  | fit (d : Option (Nd K))
  | gradients (g : Shallot.Gradients K)
  | point (p : Shallot.Point K)
  | closest (c : Shallot.Closest K)
  | solutions (l : List (Shallot.Solution K))

/-- What a method returns, with references for arrays. -/
inductive Spec.RefOut (K : Type)
  | nothing
  | cube (r : ℕ)
  | fit (r : Option ℕ)
  | gradients (g : Shallot.Gradients K) (r : ℕ)
  | point (p : Shallot.Point K)
  | closest (c : Shallot.Closest K)
  | solutions (l : List (Shallot.Solution K))

/-- What the caller reads when the method has returned. -/
def Spec.RefOut.read (arrays : List (NpArr K)) : RefOut K → Out K
  | .nothing => .nothing
  | .cube r => .cube (ndAt arrays r)
  | .fit r => .fit (r.map (ndAt arrays))
  | .gradients g _ => .gradients g
  | .point p => .point p
  | .closest c => .closest c
  | .solutions l => .solutions l

/-- Call the method of the grid by value. -/
def GridOp.callVal : GridOp K → Meth (Shallot K) (Out K)
  | .get c v u => do let d ← Shallot.getCube c v u; pure (.cube d)
  | .getFit v u => do let d ← Shallot.getGradientFit v u; pure (.fit d)
  | .getGradients v u => do let g ← Shallot.getGradients v u; pure (.gradients g)
  | .point y x r v => do let p ← Shallot.gridPoint y x r v; pure (.point p)
  | .closest a b c d v => do let p ← Shallot.closestPoint a b c d v; pure (.closest p)
  | .hill h => do Shallot.hillMask h; pure .nothing
  | .diagnose => do Shallot.diagnose; pure .nothing
  | .add a b c d => do Shallot.addGradients a b c d; pure .nothing
  | .remove v => do Shallot.removeGradients v; pure .nothing
  | .eclipse a b c => do Shallot.setEclipseParameters a b c; pure .nothing
  | .update a b c => do Shallot.updateScaling a b c; pure .nothing
  | .fit w => do Shallot.determineFit w; pure .nothing
  | .extract n => do let l ← Shallot.extractSolutions n; pure (.solutions l)

/-- Call the method of the grid by reference. -/
def GridOp.callRef : GridOp K → Meth (GWorld K) (RefOut K)
  | .get c v u => do let r ← GWorld.getCube c v u; pure (.cube r)
  | .getFit v u => do let r ← GWorld.getGradientFit v u; pure (.fit r)
  | .getGradients v u => do let g ← GWorld.getGradients v u; pure (.gradients g.1 g.2)
  | .point y x r v => do let p ← GWorld.gridPoint y x r v; pure (.point p)
  | .closest a b c d v => do let p ← GWorld.closestPoint a b c d v; pure (.closest p)
  | .hill h => do GWorld.hillMask h; pure .nothing
  | .diagnose => do GWorld.diagnose; pure .nothing
  | .add a b c d => do GWorld.addGradients a b c d; pure .nothing
  | .remove v => do GWorld.removeGradients v; pure .nothing
  | .eclipse a b c => do GWorld.setEclipseParameters a b c; pure .nothing
  | .update a b c => do GWorld.updateScaling a b c; pure .nothing
  | .fit w => do GWorld.determineFit w; pure .nothing
  | .extract n => do let l ← GWorld.extractSolutions n; pure (.solutions l)

theorem bind_pure_snd {S α β : Type} (m : Meth S α) (f : α → β) (s : S) :
    ((m >>= fun x => (pure (f x) : Meth S β)) s).2 = (m s).2 := by
  rw [Meth.bind_apply]
  generalize m s = p
  obtain ⟨e | a, s'⟩ := p <;> rfl

theorem callVal_exec (op : GridOp K) (s : Shallot K) : (op.callVal s).2 = op.exec s := by
  cases op <;> exact bind_pure_snd _ _ s

theorem callRef_refines (op : GridOp K) {w : GWorld K} (hw : Apart w) :
    Refines Later (fun w' a b => a.read w'.arrays = b) op.callRef op.callVal w := by
  have unit : ∀ {mh : Meth (GWorld K) Unit} {mv : Meth (Shallot K) Unit},
      Refines Later (fun _ _ _ => True) mh mv w →
      Refines Later (fun w' a b => RefOut.read w'.arrays a = b)
        (do mh; pure .nothing) (do mv; pure .nothing) w := fun h =>
    h.bind later_pre fun _ _ w' hw' _ _ => Refines.pure later_pre hw' _ _ rfl
  cases op with
  | get c v u =>
    refine (getCube_refines hw c v u).bind later_pre fun r d w' hw' _ h => ?_
    refine Refines.pure later_pre hw' _ _ ?_
    show Out.cube (ndAt w'.arrays r) = _
    rw [h.value]
  | getFit v u =>
    refine (getGradientFit_refines hw v u).bind later_pre fun r d w' hw' _ h => ?_
    refine Refines.pure later_pre hw' _ _ ?_
    rcases h with ⟨rfl, rfl, -, -⟩ | ⟨a, b, rfl, rfl, h⟩
    · rfl
    · show Out.fit (some (ndAt w'.arrays a)) = _
      rw [h.value]
  | getGradients v u =>
    refine (getGradients_refines hw v u).bind later_pre fun r d w' hw' _ h => ?_
    exact Refines.pure later_pre hw' _ _ (congrArg Out.gradients h.1)
  | point y x r v =>
    refine (gridPoint_refines hw y x r v).bind later_pre fun r d w' hw' _ h => ?_
    exact Refines.pure later_pre hw' _ _ (congrArg Out.point h.1)
  | closest a b c d v =>
    refine (closestPoint_refines hw a b c d v).bind later_pre fun r d w' hw' _ h => ?_
    exact Refines.pure later_pre hw' _ _ (congrArg Out.closest h)
  | hill h => exact unit (hillMask_refines hw h)
  | diagnose => exact unit (diagnose_refines hw)
  | add a b c d => exact unit (addGradients_refines hw a b c d)
  | remove v => exact unit (removeGradients_refines hw v)
  | eclipse a b c => exact unit (setEclipseParameters_refines hw a b c)
  | update a b c => exact unit (updateScaling_refines hw a b c)
  | fit b => exact unit (determineFit_refines hw b)
  | extract n =>
    refine (extractSolutions_refines hw n).bind later_pre fun r d w' hw' _ h => ?_
    exact Refines.pure later_pre hw' _ _ (congrArg Out.solutions h)

/-- What a caller can do. -/
inductive Spec.GStep (K : Type)
  /-- a method of the grid -/
  | call (op : GridOp K)
  /-- `grid.get_combined_mask()` -/
  | combined
  /-- `grid.disk_radius.get_data(masked)`, `grid.gradients[k].get_data(masked)` and so on -/
  | data (a : Slot) (masked : PyVal K)
  /-- an array of the caller's own -/
  | new (a : NpArr K)
  /-- `a.flat[i] = x` for any array, also for one that is an attribute -/
  | poke (r i : ℕ) (x : XF K)

/-- `a.flat[i] = x`. -/
def GWorld.poke (r i : ℕ) (x : XF K) (w : GWorld K) : GWorld K :=
  { w with arrays := storeData w.arrays r ((arrayAt w.arrays r).data.set i x) }

/-- `grid.….get_data(masked)`. -/
def GWorld.slotData (a : Slot) (masked : PyVal K) : Meth (GWorld K) ℕ := do
  let w ← Meth.get
  match w.grid.slot a with
  | none => Meth.throw .attributeError
  | some p => GWorld.getData p masked

/-- One step; an exception is caught. -/
def Spec.GStep.exec : GStep K → GWorld K → GWorld K
  | .call op, w => (op.callRef w).2
  | .combined, w => (GWorld.combinedMask w).2
  | .data a v, w => (GWorld.slotData a v w).2
  | .new a, w => (GWorld.alloc a w).2
  | .poke r i x, w => w.poke r i x

/-- A session. -/
def Spec.runSteps (steps : List (GStep K)) (w : GWorld K) : GWorld K :=
  steps.foldl (fun w s => s.exec w) w

/-- The same step with the grid by value, for steps in which the caller writes into nothing. -/
def Spec.GStep.execVal : GStep K → Shallot K → Shallot K
  | .call op, s => op.exec s
  | .combined, s => s
  | .data a v, s => (Shallot.onSlot (GProp.getData v) a s).2
  | .new _, s => s
  | .poke _ _ _, s => s

/-- The caller writes. -/
def Spec.GStep.writes : GStep K → Bool
  | .poke _ _ _ => true
  | _ => false

/-- The caller writes into array `r`. -/
def Spec.GStep.writesTo (r : ℕ) : GStep K → Prop
  | .poke r' _ _ => r' = r
  | _ => False

theorem poke_apart {w : GWorld K} (hw : Apart w) (r i : ℕ) (x : XF K) : Apart (w.poke r i x) :=
  store_apart hw _ _

theorem slotData_refines {w : GWorld K} (hw : Apart w) {a : Slot} {p : HProp K}
    (ha : w.grid.slot a = some p) (v : PyVal K) :
    Refines Later (fun w' r d => Reads w a w' r d) (GWorld.slotData a v)
      (Shallot.onSlot (GProp.getData v) a) w := by
  have h := getData_refines hw ha v
  have e : GWorld.slotData a v w = GWorld.getData p v w := by
    unfold GWorld.slotData
    rw [Meth.get_bind]
    generalize hq : w.grid.slot a = q at *
    subst ha
    rfl
  exact ⟨by rw [e]; exact h.apart, by rw [e]; exact h.view, by rw [e]; exact h.later,
    by rw [e]; exact h.result⟩

theorem slotData_none {w : GWorld K} {a : Slot} (ha : w.grid.slot a = none) (v : PyVal K) :
    GWorld.slotData a v w = (.error .attributeError, w) := by
  unfold GWorld.slotData
  rw [Meth.get_bind]
  generalize hq : w.grid.slot a = q at *
  subst ha
  rfl

theorem onSlot_none {α : Type} (m : Meth (GProp K) α) (a : Slot) (s : Shallot K)
    (h : s.slot a = none) :
    Shallot.onSlot m a s = (.error (match a with
      | .cube _ => .attributeError
      | .gradient _ => .indexError), s) := by
  cases a with
  | cube c =>
    have h : s.prop c = none := h
    simp only [Shallot.onSlot, Shallot.onProp, h]
  | gradient k =>
    simp only [Shallot.slot, Option.map_eq_none_iff] at h
    simp only [Shallot.onSlot, Shallot.onGradient, h]

/-- A step in which the caller writes into nothing. -/
theorem step_quiet (s : GStep K) (hs : s.writes = false) {w : GWorld K} (hw : Apart w) :
    Apart (s.exec w) ∧ Later w (s.exec w) ∧ (s.exec w).view = s.execVal w.view := by
  cases s with
  | call op =>
    have h := callRef_refines op hw
    exact ⟨h.apart, h.later, h.view.trans (callVal_exec op _)⟩
  | combined =>
    have h := combinedMask_refines hw
    refine ⟨h.apart, h.later, h.view.trans ?_⟩
    rw [Meth.get_bind]
    cases w.view.combinedMask <;> rfl
  | data a v =>
    cases ha : w.grid.slot a with
    | none =>
      have hv : w.view.slot a = none := by
        unfold GWorld.view
        rw [view_slot, ha, Option.map_none]
      show Apart (GWorld.slotData a v w).2 ∧ Later w (GWorld.slotData a v w).2 ∧
        (GWorld.slotData a v w).2.view = _
      rw [slotData_none ha]
      exact ⟨hw, later_pre.refl w, (congrArg Prod.snd (onSlot_none _ a _ hv)).symm⟩
    | some p =>
      have h := slotData_refines hw ha v
      exact ⟨h.apart, h.later, h.view⟩
  | new a =>
    have hA := grown_append w a
    exact ⟨grown_apart hw hA, grown_later hA, hA.view hw⟩
  | poke r i x => cases hs

theorem step_apart (s : GStep K) {w : GWorld K} (hw : Apart w) : Apart (s.exec w) := by
  by_cases h : s.writes = false
  · exact (step_quiet s h hw).1
  · cases s with
    | poke r i x => exact poke_apart hw r i x
    | _ => exact absurd rfl h

/-! ## The theorems -/

/-- C102: in every session, whatever the caller calls, keeps and writes, no array becomes an attribute
twice: data and masks of all properties and gradients are different objects. -/
theorem C102_separate (steps : List (GStep K)) (w : GWorld K) (hw : Apart w) :
    Apart (runSteps steps w) := by
  induction steps generalizing w with
  | nil => exact hw
  | cons s steps ih => exact ih _ (step_apart s hw)

/-- C102: as long as the caller writes into no array, the grid goes through the same states as the grid
by value, of which the other theorems speak. -/
theorem C102_values (steps : List (GStep K)) (hs : ∀ s ∈ steps, s.writes = false) (w : GWorld K)
    (hw : Apart w) : (runSteps steps w).view = steps.foldl (fun g s => s.execVal g) w.view := by
  induction steps generalizing w with
  | nil => rfl
  | cons s steps ih =>
    obtain ⟨h1, -, h3⟩ := step_quiet s (hs s List.mem_cons_self) hw
    rw [List.foldl_cons, ← h3]
    exact ih (fun t ht => hs t (List.mem_cons_of_mem _ ht)) _ h1

/-- C102: in particular for calls alone. -/
theorem C102_values_calls (ops : List (GridOp K)) (w : GWorld K) (hw : Apart w) :
    (runSteps (ops.map .call) w).view = runGrid ops w.view := by
  rw [C102_values _ (by simp [Spec.GStep.writes]) w hw, List.foldl_map]
  rfl

/-- C102: and after any session, also one in which the caller has written into arrays, a method
returns, raises and leaves what it does by value. -/
theorem C102_results (steps : List (GStep K)) (w : GWorld K) (hw : Apart w) (op : GridOp K) :
    (op.callRef (runSteps steps w)).2.view = (op.callVal (runSteps steps w).view).2 ∧
    match (op.callRef (runSteps steps w)).1, (op.callVal (runSteps steps w).view).1 with
    | .ok a, .ok b => a.read (op.callRef (runSteps steps w)).2.arrays = b
    | .error e, .error e' => e = e'
    | _, _ => False := by
  have h := callRef_refines op (C102_separate steps w hw)
  refine ⟨h.view, ?_⟩
  have hr := h.result
  generalize (op.callRef (runSteps steps w)).1 = x at hr
  generalize (op.callVal (runSteps steps w).view).1 = y at hr
  cases hr with
  | ok h => exact h
  | error e => rfl

/-- C102: writing into the data of an attribute changes that one element of that one attribute. -/
theorem C102_poke_data (w : GWorld K) (hw : Apart w) (a : Slot) (p : GProp K) (r i : ℕ) (x : XF K)
    (ha : w.view.slot a = some p) (hr : w.grid.ref (a, false) = some r) :
    (w.poke r i x).view =
      w.view.setSlot { p with data := { p.data with data := p.data.data.set i x } } a := by
  cases hs : w.grid.slot a with
  | none => simp [HGrid.ref, hs] at hr
  | some q =>
    rw [ref_data hs] at hr
    obtain rfl := Option.some.inj hr
    rw [world_slot hs] at ha
    obtain rfl := Option.some.inj ha
    exact view_store hw hs _

/-- C102: writing into the mask of an attribute changes that one element of that one mask. -/
theorem C102_poke_mask (w : GWorld K) (hw : Apart w) (a : Slot) (p : GProp K) (r i : ℕ) (x : XF K)
    (ha : w.view.slot a = some p) (hr : w.grid.ref (a, true) = some r) :
    (w.poke r i x).view = w.view.setSlot { p with
      mask := p.mask.map fun m => { m with data := m.data.set i (decide (x ≠ .fin 0)) } } a := by
  cases hs : w.grid.slot a with
  | none => simp [HGrid.ref, hs] at hr
  | some q =>
    have hb := hw.bound _ _ hr
    have ne : ∀ b r', b ≠ (a, true) → w.grid.ref b = some r' →
        arrayAt (w.poke r i x).arrays r' = arrayAt w.arrays r' := by
      intro b r' hne hr'
      show arrayAt (storeData w.arrays r _) r' = _
      rw [arrayAt_store, if_neg]
      rintro ⟨rfl, -⟩
      exact hne (hw.inj _ _ _ hr' hr)
    rw [world_slot hs] at ha
    obtain rfl := Option.some.inj ha
    show w.grid.view (w.poke r i x).arrays = _
    rw [view_except (B := w.arrays) w.grid a q hs]
    · congr 1
      rw [ref_mask hs] at hr
      unfold HProp.view
      rw [ne (a, false) q.data (by simp) (ref_data hs), hr]
      simp only [Option.map_some]
      show GProp.mk _ _ _ _ (some (arrayAt (storeData w.arrays r _) r).toMask) _ _ _ _ = _
      rw [arrayAt_store, if_pos ⟨rfl, hb⟩]
      simp only [NpArr.toMask, List.map_set]
    · intro b q' hne hb'
      refine prop_view_congr q' (ne (b, false) _ (by simp) (ref_data hb')) fun r' hm => ?_
      exact ne (b, true) r' (by simpa using hne) (by rw [ref_mask hb', hm])

/-- C102: writing into any other array changes nothing. -/
theorem C102_poke_other (w : GWorld K) (r i : ℕ) (x : XF K) (hr : ∀ a, w.grid.ref a ≠ some r) :
    (w.poke r i x).view = w.view := by
  refine view_congr _ fun a r' h => ?_
  show arrayAt (storeData w.arrays r _) r' = _
  rw [arrayAt_store, if_neg]
  rintro ⟨rfl, -⟩
  exact hr a h

/-- C102: the five cubes keep their arrays: what `get_disk_radius` returns is the same object every
time, and it is the attribute. -/
theorem C102_same_array (steps : List (GStep K)) (w : GWorld K) (hw : Apart w) (c : Cube)
    (h1 : c ≠ .diagnosticMap) (h2 : c ≠ .gradientFit) (v u : PyVal K) (r : ℕ)
    (hr : (GWorld.getCube c v u (runSteps steps w)).1 = .ok r) :
    w.grid.ref (.cube c, false) = some r := by
  have same : ∀ (steps : List (GStep K)) (w : GWorld K), Apart w →
      (runSteps steps w).grid.ref (.cube c, false) = w.grid.ref (.cube c, false) := by
    intro steps
    induction steps with
    | nil => exact fun _ _ => rfl
    | cons s steps ih =>
      intro w hw
      refine (ih _ (step_apart s hw)).trans ?_
      by_cases h : s.writes = false
      · exact (step_quiet s h hw).2.1.cubes c h1 h2
      · cases s with
        | poke r i x => rfl
        | _ => exact absurd rfl h
  rw [← same steps w hw]
  have h := (getCube_refines (C102_separate steps w hw) c v u).result
  rw [hr] at h
  generalize (Shallot.getCube c v u (runSteps steps w).view).1 = y at h
  cases h with
  | ok h =>
    obtain ⟨p, hp, rfl⟩ := h.slot
    exact ref_data hp

/-! ## What a caller has -/

theorem step_notData (s : GStep K) {w : GWorld K} (hw : Apart w) (r : ℕ) (hr : r < w.arrays.length)
    (hn : ∀ a, w.grid.ref (a, false) ≠ some r) (hq : ¬ s.writesTo r) :
    arrayAt (s.exec w).arrays r = arrayAt w.arrays r ∧ r < (s.exec w).arrays.length ∧
      ∀ a, (s.exec w).grid.ref (a, false) ≠ some r := by
  by_cases h : s.writes = false
  · have hl := (step_quiet s h hw).2.1
    refine ⟨hl.kept r hr hn, hr.trans_le hl.size, fun a ha => ?_⟩
    rcases hl.fresh a r ha with h | ⟨b, hb⟩
    · omega
    · exact hn b hb
  · cases s with
    | poke r' i x =>
      refine ⟨?_, ?_, hn⟩
      · show arrayAt (storeData w.arrays r' _) r = _
        rw [arrayAt_store, if_neg]
        rintro ⟨h, -⟩
        exact hq h.symm
      · show r < (storeData w.arrays r' _).length
        rw [store_length]
        exact hr
    | _ => exact absurd rfl h

/-- C103 (partial): an array that is not the data of an attribute changes only if the caller writes into
it: arrays that the caller has made, masks, and the new arrays below.  Missing: the arrays that
`get_disk_radius` and the like return are the data of attributes, and change (`C103_false_read`). -/
theorem C103_kept_partial (steps : List (GStep K)) (w : GWorld K) (hw : Apart w) (r : ℕ)
    (hr : r < w.arrays.length) (hn : ∀ a, w.grid.ref (a, false) ≠ some r)
    (hq : ∀ s ∈ steps, ¬ s.writesTo r) :
    arrayAt (runSteps steps w).arrays r = arrayAt w.arrays r := by
  induction steps generalizing w with
  | nil => rfl
  | cons s steps ih =>
    obtain ⟨h1, h2, h3⟩ := step_notData s hw r hr hn (hq s List.mem_cons_self)
    exact (ih _ (step_apart s hw) h2 h3 fun t ht => hq t (List.mem_cons_of_mem _ ht)).trans h1

/-- C103 (partial): the array that `get_gradients` returns and the one that `get_combined_mask` returns
are new, so that the theorem before speaks about them. -/
theorem C103_new_partial (w : GWorld K) (hw : Apart w) :
    (∀ v u g r w', GWorld.getGradients v u w = (.ok (g, r), w') →
      w.arrays.length ≤ r ∧ r < w'.arrays.length ∧ ∀ a, w'.grid.ref a ≠ some r) ∧
    ∀ r w', GWorld.combinedMask w = (.ok r, w') →
      w.arrays.length ≤ r ∧ r < w'.arrays.length ∧ ∀ a, w'.grid.ref a ≠ some r := by
  refine ⟨fun v u g r w' h => ?_, fun r w' h => ?_⟩
  · have hr := (getGradients_refines hw v u).result
    rw [h] at hr
    generalize (Shallot.getGradients v u w.view).1 = y at hr
    cases hr with
    | ok h =>
      obtain ⟨-, h2, h3, h4⟩ := h
      refine ⟨h2, h4, fun a ha => ?_⟩
      have h3 : w'.grid = w.grid := h3
      rw [h3] at ha
      have := hw.bound _ _ ha
      simp only at h2
      omega
  · unfold GWorld.combinedMask at h
    rw [self_bind] at h
    cases hm : w.view.combinedMask with
    | error e => rw [hm] at h; cases h
    | ok m =>
      rw [hm] at h
      have h : ((Except.ok w.arrays.length : Except Err ℕ),
        ({ w with arrays := w.arrays ++ [GWorld.boolArray m] } : GWorld K)) = (.ok r, w') := h
      cases h
      refine ⟨le_rfl, by simp, fun a ha => ?_⟩
      have := hw.bound _ _ ha
      omega

/-- C103 (partial): as long as the caller does not write, the elements of an array that was returned
stay, or become NaN.  Missing: they do not stay. -/
theorem C103_nan_partial (steps : List (GStep K)) (hs : ∀ s ∈ steps, s.writes = false) (w : GWorld K)
    (hw : Apart w) (r : ℕ) (hr : r < w.arrays.length) :
    (arrayAt (runSteps steps w).arrays r).dtype = (arrayAt w.arrays r).dtype ∧
    (arrayAt (runSteps steps w).arrays r).shape = (arrayAt w.arrays r).shape ∧
    List.Forall₂ (fun x y => y = x ∨ y = .nan) (arrayAt w.arrays r).data
      (arrayAt (runSteps steps w).arrays r).data := by
  induction steps generalizing w with
  | nil => exact ⟨rfl, rfl, nan_refl _⟩
  | cons s steps ih =>
    obtain ⟨h1, h2, -⟩ := step_quiet s (hs s List.mem_cons_self) hw
    obtain ⟨a1, a2, a3⟩ := h2.nan r hr
    obtain ⟨b1, b2, b3⟩ := ih (fun t ht => hs t (List.mem_cons_of_mem _ ht)) _ h1 (hr.trans_le h2.size)
    exact ⟨b1.trans a1, b2.trans a2, nan_trans a3 b3⟩

/-- C103 (negation): writing into an array that a getter has returned changes the grid. -/
theorem C103_false_write (w w' : GWorld K) (hw : Apart w) (c : Cube) (v u : PyVal K) (r i : ℕ) (x : XF K)
    (p : GProp K) (h : GWorld.getCube c v u w = (.ok r, w')) (hp : w'.view.prop c = some p) :
    (w'.poke r i x).view.prop c =
      some { p with data := { p.data with data := p.data.data.set i x } } := by
  have hr := getCube_refines hw c v u
  have hw' := hr.apart
  have hres := hr.result
  rw [h] at hw' hres
  generalize (Shallot.getCube c v u w.view).1 = y at hres
  cases hres with
  | ok hd =>
    obtain ⟨q, hq, rfl⟩ := hd.slot
    have hq' : w'.grid.slot (.cube c) = some q := by
      have : w'.grid = w.grid := hd.grid
      rw [this]; exact hq
    rw [C102_poke_data w' hw' (.cube c) p q.data i x hp (ref_data hq')]
    cases c <;> rfl

end
end Beyonce
