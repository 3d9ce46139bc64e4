import Verif.Props.GridRefine
import Verif.Props.AddGradients

/-!
# Every method of the grid by reference refines the method by value
-/

set_option linter.unusedSectionVars false

namespace Beyonce
open Spec

section
variable {K : Type} [Field K] [LinearOrder K] [IsStrictOrderedRing K]

theorem setMask_refines {w : GWorld K} (hw : Apart w) (c : Cube) (a : NpArr K) :
    Refines Later (fun _ _ _ => True) (GWorld.setMask c a)
      (Shallot.onProp c (GProp.setMask (.arr a))) w := by
  have hA := grown_append w a
  have idle : ∀ e, GWorld.setMask c a w = (.error e, { w with arrays := w.arrays ++ [a] }) →
      Shallot.onProp c (GProp.setMask (.arr a)) w.view = (.error e, w.view) →
      Refines Later (fun _ _ _ => True) (GWorld.setMask c a)
        (Shallot.onProp c (GProp.setMask (.arr a))) w := by
    intro e e1 e2
    refine ⟨?_, ?_, ?_, ?_⟩
    · rw [e1]; exact grown_apart hw hA
    · rw [e1, e2]; exact hA.view hw
    · rw [e1]; exact grown_later hA
    · rw [e1, e2]; exact .error e
  cases hp : w.grid.prop c with
  | none =>
    have hv : w.view.prop c = none := by
      have := view_slot w.arrays w.grid (.cube c)
      simp only [HGrid.slot, hp, Option.map_none] at this
      exact this
    refine idle .attributeError ?_ ?_
    · have hp' : ({ w with arrays := w.arrays ++ [a] } : GWorld K).grid.prop c = none := hp
      show (match ({ w with arrays := w.arrays ++ [a] } : GWorld K).grid.prop c with
        | none => Meth.throw .attributeError
        | some p => _ : Meth (GWorld K) Unit) _ = _
      rw [hp']
      rfl
    · unfold Shallot.onProp
      rw [hv]
  | some p =>
    have hslot : w.grid.slot (.cube c) = some p := hp
    have hd0 : w.grid.ref (.cube c, false) = some p.data := ref_data hslot
    have hb := hw.bound _ _ hd0
    have hn : ndAt (w.arrays ++ [a]) p.data = ndAt w.arrays p.data := by
      unfold ndAt
      rw [arrayAt_append _ _ hb]
    have hov : ∀ (m : Meth (GProp K) Unit), Shallot.onProp c m w.view =
        ((m (p.view w.arrays)).1, w.view.setProp (m (p.view w.arrays)).2 c) :=
      fun m => onSlot_some m (.cube c) w.view _ (world_slot hslot)
    have hsame : w.view.setProp (p.view w.arrays) c = w.view :=
      setSlot_self (.cube c) _ _ (world_slot hslot)
    have e0 : GWorld.setMask c a w = (do
        let m ← Meth.lift (array (.arr a) (dtype := .str "bool"))
        let d := ndAt (w.arrays ++ [a]) p.data
        Meth.lift (sameShapeArrays [.arr m, .arr ⟨"float64", d.shape, d.data⟩] 2)
        GWorld.assign c { p with mask := some w.arrays.length } : Meth (GWorld K) Unit)
          { w with arrays := w.arrays ++ [a] } := by
      have hp' : ({ w with arrays := w.arrays ++ [a] } : GWorld K).grid.prop c = some p := hp
      show (match ({ w with arrays := w.arrays ++ [a] } : GWorld K).grid.prop c with
        | none => Meth.throw .attributeError
        | some p => _ : Meth (GWorld K) Unit) _ = _
      rw [hp']
    rw [hn] at e0
    have e1 : GProp.setMask (.arr a) (p.view w.arrays) = (do
        let m ← Meth.lift (array (.arr a) (dtype := .str "bool"))
        Meth.lift (sameShapeArrays [.arr m, .arr ⟨"float64", (ndAt w.arrays p.data).shape,
          (ndAt w.arrays p.data).data⟩] 2)
        Meth.modify ({ · with mask := some m.toMask }) : Meth (GProp K) Unit) (p.view w.arrays) := rfl
    cases h1 : array (.arr a) (dtype := .str "bool") with
    | error e =>
      rw [h1] at e0 e1
      refine idle e e0 ?_
      rw [hov, e1]
      exact congrArg _ hsame
    | ok m =>
      obtain ⟨ha, hd⟩ := (array_bool_ok _ _).1 h1
      obtain rfl : a = m := by simpa using ha
      rw [h1] at e0 e1
      simp only [Meth.lift_ok_bind] at e0 e1
      cases h2 : sameShapeArrays [PyVal.arr a, .arr ⟨"float64", (ndAt w.arrays p.data).shape,
          (ndAt w.arrays p.data).data⟩] 2 with
      | error e =>
        rw [h2] at e0 e1
        refine idle e e0 ?_
        rw [hov, e1]
        exact congrArg _ hsame
      | ok u =>
        rw [h2] at e0 e1
        rw [Meth.lift_ok_bind] at e0 e1
        have hs := setProp_slot w.grid { p with mask := some w.arrays.length } c
        have ho : Own w (w.arrays ++ [a]) (.cube c) { p with mask := some w.arrays.length } := by
          refine ⟨.inl hd0, ?_, ?_, ?_, ?_⟩
          · have := hb; simp only [List.length_append, List.length_cons, List.length_nil]; omega
          · intro r h; cases h; exact .inr le_rfl
          · intro r h; cases h; simp
          · intro h
            have h := Option.some.inj h
            simp only at h
            omega
        have e2 : GWorld.setMask c a w =
            (.ok (), ⟨w.arrays ++ [a], w.grid.setProp { p with mask := some w.arrays.length } c⟩) := e0
        refine ⟨?_, ?_, ?_, ?_⟩
        · rw [e2]; exact insert_apart hw hA hs ho
        · rw [e2, hov, e1]
          show (w.grid.setProp _ c).view (w.arrays ++ [a]) = w.view.setProp _ c
          rw [setProp_view, hA.view hw]
          congr 1
          unfold HProp.view
          simp only [Option.map_some, arrayAt_last, arrayAt_append _ _ hb]
          rfl
        · rw [e2]
          refine insert_later hA hs ho fun c' h => ?_
          cases h
          exact .inr (.inr hd0)
        · rw [e2, hov, e1]; exact .ok trivial

theorem boolArray_toMask (m : Mask) : (GWorld.boolArray (K := K) m).toMask = m := by
  unfold GWorld.boolArray NpArr.toMask
  obtain ⟨s, d⟩ := m
  simp only [List.map_map, Mask.mk.injEq, true_and]
  conv_rhs => rw [← List.map_id d]
  apply List.map_congr_left
  intro b _
  cases b <;> simp

/-- What `determine_mask` leaves alone. -/
theorem determineMask_parts (a b c d : PyVal K) (g : GGrad K) :
    (GGrad.determineMask a b c d g).2.position = g.position ∧
    ((∃ e, (GGrad.determineMask a b c d g).1 = .error e ∧
      (GGrad.determineMask a b c d g).2.prop = g.prop) ∨
    ∃ m, (GGrad.determineMask a b c d g).1 = .ok () ∧
      (GGrad.determineMask a b c d g).2.prop = { g.prop with mask := some m }) := by
  rcases determineMask_cases a b c d g with ⟨-, e, h⟩ | ⟨-, -, e, h⟩ | ⟨-, -, -, e, h⟩ |
    ⟨-, -, -, -, e, h⟩ | ⟨-, -, -, -, ⟨e, -, h⟩ | ⟨q, -, ⟨-, h⟩ | ⟨-, h⟩⟩⟩ <;> rw [h]
  · exact ⟨rfl, .inl ⟨_, rfl, rfl⟩⟩
  · exact ⟨rfl, .inl ⟨_, rfl, rfl⟩⟩
  · exact ⟨rfl, .inl ⟨_, rfl, rfl⟩⟩
  · exact ⟨rfl, .inl ⟨_, rfl, rfl⟩⟩
  · exact ⟨rfl, .inl ⟨_, rfl, rfl⟩⟩
  · exact ⟨rfl, .inl ⟨_, rfl, rfl⟩⟩
  · exact ⟨rfl, .inr ⟨_, rfl, rfl⟩⟩

theorem determineMask_refines {w : GWorld K} (hw : Apart w) (k : ℕ) (a b c d : PyVal K) :
    Refines Later (fun _ _ _ => True) (GWorld.determineMask k a b c d)
      (Shallot.onGradient k (GGrad.determineMask a b c d)) w := by
  have hv := view_gradient w k
  cases hg : w.grid.gradient k with
  | none =>
    rw [hg, Option.map_none] at hv
    refine ⟨?_, ?_, ?_, ?_⟩
    all_goals unfold GWorld.determineMask
    all_goals rw [hg]
    · exact hw
    · unfold Shallot.onGradient; rw [hv]
    · exact later_pre.refl w
    · unfold Shallot.onGradient; rw [hv]; exact .error _
  | some g =>
    rw [hg, Option.map_some] at hv
    have hslot : w.grid.slot (.gradient k) = some g.prop := by
      simp only [HGrid.slot, hg, Option.map_some]
    have hd0 : w.grid.ref (.gradient k, false) = some g.prop.data := ref_data hslot
    have hb := hw.bound _ _ hd0
    obtain ⟨hpos, hcase⟩ := determineMask_parts a b c d (g.view w.arrays)
    have e2 : Shallot.onGradient k (GGrad.determineMask a b c d) w.view =
        ((GGrad.determineMask a b c d (g.view w.arrays)).1, { w.view with
          gradients := some ((w.view.gradients.getD []).set k
            (GGrad.determineMask a b c d (g.view w.arrays)).2) }) := by
      unfold Shallot.onGradient
      rw [hv]
    have e1 : GWorld.determineMask k a b c d w =
        (let q := GGrad.determineMask a b c d (g.view w.arrays)
         let g' : HGrad K := { g with measured := q.2.measured, error := q.2.error,
                                      orbital := q.2.orbital, transmission := q.2.transmission }
         match q.1, q.2.prop.mask with
         | .ok _, some m =>
           (.ok (), { arrays := w.arrays ++ [GWorld.boolArray m]
                      grid := w.grid.setGradient k
                        { g' with prop := { g'.prop with mask := some w.arrays.length } } })
         | r, _ => (r, { w with grid := w.grid.setGradient k g' })) := by
      unfold GWorld.determineMask
      rw [hg]
      dsimp only
      generalize GGrad.determineMask a b c d (g.view w.arrays) = q
      obtain ⟨e | u, g2⟩ := q
      · rfl
      · dsimp only
        cases g2.prop.mask <;> rfl
    dsimp only at e1
    generalize GGrad.determineMask a b c d (g.view w.arrays) = q at *
    obtain ⟨res, g2⟩ := q
    obtain ⟨p2, pos2, m2, er2, o2, t2⟩ := g2
    simp only at hpos hcase e1 e2
    subst hpos
    rcases hcase with ⟨e, rfl, rfl⟩ | ⟨m, rfl, rfl⟩
    · have hs := setGradient_slot w.grid k
        { g with measured := m2, error := er2, orbital := o2, transmission := t2 } g hg
      have ho : Own w w.arrays (.gradient k) g.prop :=
        ⟨.inl (ref_data hslot), hb, fun r h => .inl (by rw [ref_mask hslot, h]),
          fun r h => hw.bound (.gradient k, true) r (by rw [ref_mask hslot, h]), fun h => by
            have := hw.inj (.gradient k, true) (.gradient k, false) g.prop.data
              (by rw [ref_mask hslot, h]) (ref_data hslot)
            simp at this⟩
      simp only at e1
      refine ⟨?_, ?_, ?_, ?_⟩
      · rw [e1]; exact insert_apart hw (grown_refl w) hs ho
      · rw [e1, e2]
        show (w.grid.setGradient k _).view w.arrays = _
        rw [setGradient_view]
        rfl
      · rw [e1]
        exact insert_later (grown_refl w) hs ho fun c h => by cases h
      · rw [e1, e2]; exact .error e
    · have hA := grown_append w (GWorld.boolArray m)
      have hs := setGradient_slot w.grid k
        { g with measured := m2, error := er2, orbital := o2, transmission := t2,
                 prop := { g.prop with mask := some w.arrays.length } } g hg
      have ho : Own w (w.arrays ++ [GWorld.boolArray m]) (.gradient k)
          { g.prop with mask := some w.arrays.length } := by
        refine ⟨.inl hd0, ?_, ?_, ?_, ?_⟩
        · have := hb; simp only [List.length_append, List.length_cons, List.length_nil]; omega
        · intro r h; cases h; exact .inr le_rfl
        · intro r h; cases h; simp
        · intro h
          have h := Option.some.inj h
          simp only at h
          omega
      simp only at e1
      refine ⟨?_, ?_, ?_, ?_⟩
      · rw [e1]; exact insert_apart hw hA hs ho
      · rw [e1, e2]
        show (w.grid.setGradient k _).view (w.arrays ++ [GWorld.boolArray m]) = _
        rw [setGradient_view, hA.view hw]
        congr 3
        unfold HGrad.view HProp.view
        simp only [Option.map_some, arrayAt_last, arrayAt_append _ _ hb, boolArray_toMask]
      · rw [e1]
        exact insert_later hA hs ho fun c h => by cases h
      · rw [e1, e2]; exact .ok trivial

/-! ## Methods that change no gradients -/

theorem bind_assoc' {S α β γ : Type} (m : Meth S α) (f : α → Meth S β) (g : β → Meth S γ) :
    ((m >>= f) >>= g) = m >>= fun x => f x >>= g := by
  funext s
  simp only [Meth.bind_apply]
  generalize m s = p
  obtain ⟨e | a, s'⟩ := p <;> rfl

theorem getGradientFit_refines {w : GWorld K} (hw : Apart w) (v u : PyVal K) :
    Refines Later (fun w' r d => (r = none ∧ d = none ∧ w' = w ∧ w.grid.gradientFit = none) ∨
        ∃ a b, r = some a ∧ d = some b ∧ Reads w (.cube .gradientFit) w' a b)
      (GWorld.getGradientFit v u) (Shallot.getGradientFit v u) w := by
  unfold GWorld.getGradientFit Shallot.getGradientFit
  refine Refines.self_bind ?_
  by_cases h : w.view.gradientFit = none
  · rw [if_pos h, if_pos h]
    refine Refines.pure later_pre hw _ _ (.inl ⟨rfl, rfl, rfl, ?_⟩)
    simp only [GWorld.view, HGrid.view, Option.map_eq_none_iff] at h
    exact h
  · rw [if_neg h, if_neg h]
    refine (getCube_refines hw .gradientFit v u).bind later_pre fun r d w' hw' _ hr => ?_
    exact Refines.pure later_pre hw' _ _ (.inr ⟨r, d, rfl, rfl, hr⟩)

theorem hillMask_refines {w : GWorld K} (hw : Apart w) (h : PyVal K) :
    Refines Later (fun _ _ _ => True) (GWorld.hillMask h) (Shallot.hillMask h) w := by
  unfold GWorld.hillMask Shallot.hillMask
  exact Refines.lift_bind later_pre hw _ fun x _ => Refines.self_bind (setMask_refines hw _ _)

theorem diagnose_refines {w : GWorld K} (hw : Apart w) :
    Refines Later (fun _ _ _ => True) GWorld.diagnose Shallot.diagnose w := by
  unfold GWorld.diagnose Shallot.diagnose
  exact Refines.self_bind (putNew_refines hw .diagnosticMap (.inl rfl) _ _ _ _)

theorem combinedMask_refines {w : GWorld K} (hw : Apart w) :
    Refines Later (fun w' r m => w'.grid = w.grid ∧ w.arrays.length ≤ r ∧
        (arrayAt w'.arrays r).toMask = m)
      GWorld.combinedMask (do let s ← Meth.get; Meth.lift s.combinedMask) w := by
  unfold GWorld.combinedMask
  refine Refines.self_bind ?_
  cases h : w.view.combinedMask with
  | error e => exact ⟨hw, rfl, later_pre.refl w, .error e⟩
  | ok m =>
    have hA := grown_append w (GWorld.boolArray m)
    have hl : (arrayAt (w.arrays ++ [GWorld.boolArray m]) w.arrays.length).toMask = m := by
      rw [arrayAt_last, boolArray_toMask]
    exact ⟨grown_apart hw hA, hA.view hw, grown_later hA, .ok ⟨rfl, le_rfl, hl⟩⟩

/-! ## Grid points -/

/-- A step that changes arrays of the grid in place and no reference. -/
def InPlace (w w' : GWorld K) : Prop := w'.grid = w.grid ∧ w'.arrays.length = w.arrays.length

theorem Reads.inPlace {w w' : GWorld K} {a : Slot} {r : ℕ} {d : Nd K} (h : Reads w a w' r d) :
    InPlace w w' := ⟨h.grid, h.size⟩

theorem InPlace.trans {u v w : GWorld K} (h1 : InPlace u v) (h2 : InPlace v w) : InPlace u w :=
  ⟨h2.1.trans h1.1, h2.2.trans h1.2⟩

theorem lookup_refines {w : GWorld K} (hw : Apart w) (c : Cube) (v : PyVal K) (y x r : ℤ) :
    Refines Later (fun w' a b => a = b ∧ InPlace w w') (GWorld.lookup c v y x r)
      (Shallot.lookup c v y x r) w := by
  unfold GWorld.lookup Shallot.lookup
  refine (getCube_refines hw c v _).bind later_pre fun a d w' hw' _ hr => ?_
  refine Refines.read_bind ?_
  rw [hr.value]
  exact Refines.lift later_pre hw' _ _ fun x _ => ⟨rfl, hr.inPlace⟩

theorem gradientValues_refines (v : PyVal K) (y x r : ℤ) (n : ℕ) : ∀ (k : ℕ) {w : GWorld K}
    (_ : Apart w), Refines Later (fun w' a b => a = b ∧ InPlace w w')
      (GWorld.gradientValues v y x r n k) (Shallot.gradientValues v y x r n k) w := by
  induction n with
  | zero => exact fun k w hw => Refines.pure later_pre hw _ _ ⟨rfl, rfl, rfl⟩
  | succ n ih =>
    intro k w hw
    unfold GWorld.gradientValues Shallot.gradientValues
    refine Refines.self_bind ?_
    refine (readGradient_refines hw k v).bind later_pre fun a d w1 hw1 _ hr => ?_
    refine Refines.read_bind ?_
    rw [hr.value]
    refine Refines.lift_bind later_pre hw1 _ fun z _ => ?_
    refine (ih (k + 1) hw1).bind later_pre fun p q w2 hw2 _ h => ?_
    obtain ⟨rfl, h⟩ := h
    exact Refines.pure later_pre hw2 _ _ ⟨rfl, hr.inPlace.trans h⟩

theorem gradientsAt_refines {w : GWorld K} (hw : Apart w) (v : PyVal K) (y x r : ℤ) :
    Refines Later (fun w' a b => a = b ∧ InPlace w w') (GWorld.gradientsAt v y x r)
      (Shallot.gradientsAt v y x r) w := by
  unfold GWorld.gradientsAt Shallot.gradientsAt
  refine Refines.self_bind ?_
  cases w.view.gradients with
  | none => exact Refines.pure later_pre hw _ _ ⟨rfl, rfl, rfl⟩
  | some l =>
    refine (gradientValues_refines v y x r l.length 0 hw).bind later_pre fun p q w1 hw1 _ h => ?_
    obtain ⟨rfl, h⟩ := h
    exact Refines.pure later_pre hw1 _ _ ⟨rfl, h⟩

theorem gridPoint_refines {w : GWorld K} (hw : Apart w) (y x r v : PyVal K) :
    Refines Later (fun w' a b => a = b ∧ InPlace w w') (GWorld.gridPoint y x r v)
      (Shallot.gridPoint y x r v) w := by
  unfold GWorld.gridPoint Shallot.gridPoint
  refine Refines.self_bind ?_
  refine Refines.lift_bind later_pre hw _ fun y _ => ?_
  refine Refines.lift_bind later_pre hw _ fun x _ => ?_
  refine Refines.lift_bind later_pre hw _ fun r _ => ?_
  refine (lookup_refines hw _ _ _ _ _).bind later_pre fun a1 b1 w1 hw1 _ h1 => ?_
  obtain ⟨rfl, h1⟩ := h1
  refine (lookup_refines hw1 _ _ _ _ _).bind later_pre fun a2 b2 w2 hw2 _ h2 => ?_
  obtain ⟨rfl, h2⟩ := h2
  refine (lookup_refines hw2 _ _ _ _ _).bind later_pre fun a3 b3 w3 hw3 _ h3 => ?_
  obtain ⟨rfl, h3⟩ := h3
  refine Refines.lift_bind later_pre hw3 _ fun dx _ => ?_
  refine Refines.lift_bind later_pre hw3 _ fun dy _ => ?_
  refine Refines.lift_bind later_pre hw3 _ fun rf _ => ?_
  refine (lookup_refines hw3 _ _ _ _ _).bind later_pre fun a4 b4 w4 hw4 _ h4 => ?_
  obtain ⟨rfl, h4⟩ := h4
  refine (lookup_refines hw4 _ _ _ _ _).bind later_pre fun a5 b5 w5 hw5 _ h5 => ?_
  obtain ⟨rfl, h5⟩ := h5
  refine (lookup_refines hw5 _ _ _ _ _).bind later_pre fun a6 b6 w6 hw6 _ h6 => ?_
  obtain ⟨rfl, h6⟩ := h6
  refine (gradientsAt_refines hw6 _ _ _ _).bind later_pre fun a7 b7 w7 hw7 _ h7 => ?_
  obtain ⟨rfl, h7⟩ := h7
  exact Refines.pure later_pre hw7 _ _
    ⟨rfl, h1.trans (h2.trans (h3.trans (h4.trans (h5.trans (h6.trans h7)))))⟩

theorem eraseAt_refines {w : GWorld K} (hw : Apart w) {a : Slot} {p : HProp K}
    (ha : w.grid.slot a = some p) (i : ℕ) :
    Refines Later (fun w' _ _ => InPlace w w') (GWorld.eraseAt p.data i)
      (Shallot.onSlot (Shallot.eraseAt i) a) w :=
  store_refines hw ha ((arrayAt w.arrays p.data).data.set i .nan) (nan_set _ _) (x := ()) (y := ())
    rfl rfl ⟨rfl, store_length _ _ _⟩

theorem solution_refines {w : GWorld K} (hw : Apart w) {p : HProp K}
    (hp : w.grid.gradientFit = some p) :
    Refines Later (fun w' a b => a = b ∧ InPlace w w') (GWorld.solution p.data) Shallot.solution w := by
  unfold GWorld.solution Shallot.solution
  refine Refines.self_bind ?_
  have hv : w.view.gradientFit = some (p.view w.arrays) := by
    simp only [GWorld.view, HGrid.view, hp, Option.map_some]
  rw [hv]
  refine Refines.read_bind ?_
  refine Refines.lift_bind later_pre hw _ fun i _ => ?_
  refine (gridPoint_refines hw _ _ _ _).bind later_pre fun a b w1 hw1 _ h1 => ?_
  obtain ⟨rfl, h1⟩ := h1
  refine (eraseAt_refines hw1 (a := .cube .gradientFit) (p := p)
    (by rw [h1.1]; exact hp) i).bind later_pre fun _ _ w2 hw2 _ h2 => ?_
  exact Refines.pure later_pre hw2 _ _ ⟨rfl, h1.trans h2⟩

theorem solutionLoop_refines (fit : Option ℕ) (n : ℕ) : ∀ {w : GWorld K} (_ : Apart w)
    (_ : fit = w.grid.gradientFit.map HProp.data),
    Refines Later (fun _ a b => a = b) (GWorld.solutionLoop fit n) (Shallot.solutionLoop n) w := by
  induction n with
  | zero => exact fun hw _ => Refines.pure later_pre hw _ _ rfl
  | succ n ih =>
    intro w hw hf
    unfold GWorld.solutionLoop Shallot.solutionLoop
    cases hp : w.grid.gradientFit with
    | none =>
      rw [hp] at hf
      subst hf
      have hv : w.view.gradientFit = none := by
        simp only [GWorld.view, HGrid.view, hp, Option.map_none]
      have e : Shallot.solution w.view = (.error .attributeError, w.view) := by
        unfold Shallot.solution
        rw [Meth.get_bind, hv]
        rfl
      have e' : (do let s ← Shallot.solution; let rest ← Shallot.solutionLoop n; pure (s :: rest) :
          Meth (Shallot K) _) w.view = (.error .attributeError, w.view) := by
        rw [Meth.bind_apply, e]
      exact ⟨hw, by rw [e']; rfl, later_pre.refl w, by rw [e']; exact .error _⟩
    | some p =>
      rw [hp] at hf
      subst hf
      refine (solution_refines hw hp).bind later_pre fun a b w1 hw1 _ h1 => ?_
      obtain ⟨rfl, h1⟩ := h1
      refine (ih hw1 (by rw [h1.1, hp])).bind later_pre fun a b w2 hw2 _ h2 => ?_
      subst h2
      exact Refines.pure later_pre hw2 _ _ rfl

theorem extractSolutions_refines {w : GWorld K} (hw : Apart w) (num : PyVal K) :
    Refines Later (fun _ a b => a = b) (GWorld.extractSolutions num) (Shallot.extractSolutions num)
      w := by
  unfold GWorld.extractSolutions Shallot.extractSolutions
  refine Refines.self_bind ?_
  refine Refines.lift_bind later_pre hw _ fun m _ => ?_
  refine Refines.lift_bind later_pre hw _ fun n _ => ?_
  refine (getGradientFit_refines hw _ _).bind later_pre fun a b w1 hw1 _ h1 => ?_
  refine solutionLoop_refines a n hw1 ?_
  rcases h1 with ⟨rfl, rfl, rfl, h⟩ | ⟨r, d, rfl, rfl, h⟩
  · rw [h]; rfl
  · obtain ⟨p, hp, rfl⟩ := h.slot
    have hp : w.grid.gradientFit = some p := hp
    rw [h.grid, hp]
    rfl

theorem closestPoint_refines {w : GWorld K} [RealFns K] (hw : Apart w) (a b c d v : PyVal K) :
    Refines Later (fun _ a b => a = b) (GWorld.closestPoint a b c d v) (Shallot.closestPoint a b c d v)
      w := by
  unfold GWorld.closestPoint Shallot.closestPoint
  refine Refines.lift_bind later_pre hw _ fun a _ => ?_
  refine Refines.lift_bind later_pre hw _ fun b _ => ?_
  refine Refines.lift_bind later_pre hw _ fun c _ => ?_
  refine Refines.lift_bind later_pre hw _ fun d _ => ?_
  refine Refines.lift_bind later_pre hw _ fun m _ => ?_
  refine (getCube_refines hw .diskRadius _ _).bind later_pre fun r1 d1 w1 hw1 _ h1 => ?_
  refine (getCube_refines hw1 .inclination _ _).bind later_pre fun r2 d2 w2 hw2 _ h2 => ?_
  refine (getCube_refines hw2 .tilt _ _).bind later_pre fun r3 d3 w3 hw3 _ h3 => ?_
  refine Refines.self_bind ?_
  refine Refines.get_bind ?_
  obtain ⟨p1, hp1, rfl⟩ := h1.slot
  obtain ⟨p2, hp2, rfl⟩ := h2.slot
  obtain ⟨p3, hp3, rfl⟩ := h3.slot
  rw [h1.grid] at hp2
  rw [h2.grid, h1.grid] at hp3
  have ne : ∀ {s t : Slot} {p q : HProp K}, w.grid.slot s = some p → w.grid.slot t = some q → s ≠ t →
      p.data ≠ q.data := by
    intro s t p q hs ht hne h
    have h1 := ref_data hs
    rw [h] at h1
    exact hne (congrArg Prod.fst (hw.inj _ _ _ h1 (ref_data ht)))
  have e1 : ndAt w3.arrays p1.data = d1 := by
    rw [← h1.value]
    unfold ndAt
    rw [h3.others _ (ne hp1 hp3 (by simp)), h2.others _ (ne hp1 hp2 (by simp))]
  have e2 : ndAt w3.arrays p2.data = d2 := by
    rw [← h2.value]
    unfold ndAt
    rw [h3.others _ (ne hp2 hp3 (by simp))]
  rw [e1, e2, h3.value]
  exact Refines.lift later_pre hw3 _ _ fun x _ => rfl

end
end Beyonce
