import Verif.Props.GridBuildRefine
import Verif.Props.Viewer
import Verif.Props.Getters

/-!
# Grids as objects, and concrete sessions
-/

set_option linter.unusedSectionVars false

namespace Beyonce
open Spec

section
variable {K : Type} [Field K] [LinearOrder K] [IsStrictOrderedRing K]

/-- The arrays of a property: data and mask (an array of no use if there is none). -/
def Spec.pair : Option (GProp K) → List (NpArr K)
  | none => [⟨"float64", [], []⟩, ⟨"float64", [], []⟩]
  | some p => [⟨"float64", p.data.shape, p.data.data⟩,
    match p.mask with
    | none => ⟨"float64", [], []⟩
    | some m => GWorld.boolArray m]

/-- The properties of a grid in a row. -/
def Spec.slots (s : Shallot K) : List (Option (GProp K)) :=
  [some s.diskRadius, some s.inclination, some s.tilt, some s.fxMap, some s.fyMap, s.diagnosticMap,
    s.gradientFit] ++ (s.gradients.getD []).map fun g => some g.prop

/-- The property with its arrays at `2 n` and `2 n + 1`. -/
def Spec.object (n : ℕ) (p : GProp K) : HProp K :=
  ⟨p.name, p.unit, p.params, 2 * n, p.mask.map fun _ => 2 * n + 1, p.vmin, p.vmax, p.colorMap,
    p.numColors⟩

/-- A grid whose arrays have all been made one by one, as those of a grid that is loaded: every
property and gradient has its own file (GridProperty.py L303-331, GridGradient likewise). -/
def Spec.ofValue (s : Shallot K) : GWorld K where
  arrays := (slots s).flatMap pair
  grid := ⟨s.params, s.numFxfy, s.diagnostics, s.circularRadius, s.shear, object 0 s.diskRadius,
    object 1 s.inclination, object 2 s.tilt, object 3 s.fxMap, object 4 s.fyMap,
    s.diagnosticMap.map (object 5), s.gradients.map fun l => l.mapIdx fun k g =>
      ⟨object (7 + k) g.prop, g.position, g.measured, g.error, g.orbital, g.transmission⟩,
    s.gradientFit.map (object 6), s.eclipseDuration, s.velocity, s.limb⟩

/-- The place of a slot in the row. -/
def Spec.seat : Slot → ℕ
  | .cube .diskRadius => 0
  | .cube .inclination => 1
  | .cube .tilt => 2
  | .cube .fxMap => 3
  | .cube .fyMap => 4
  | .cube .diagnosticMap => 5
  | .cube .gradientFit => 6
  | .gradient k => 7 + k

theorem seat_inj (a b : Slot) (h : seat a = seat b) : a = b := by
  cases a with
  | cube c =>
    cases b with
    | cube d => cases c <;> cases d <;> simp_all [seat]
    | gradient k => cases c <;> simp [seat] at h <;> omega
  | gradient k =>
    cases b with
    | cube d => cases d <;> simp [seat] at h <;> omega
    | gradient j => simp [seat] at h; rw [h]

theorem pairs_length (l : List (Option (GProp K))) : (l.flatMap pair).length = 2 * l.length := by
  induction l with
  | nil => rfl
  | cons a l ih =>
    rw [List.flatMap_cons, List.length_append, ih, List.length_cons]
    cases a <;> simp [pair] <;> omega

theorem pairs_at (l : List (Option (GProp K))) (n i : ℕ) (hi : i < 2) (p : Option (GProp K))
    (h : l[n]? = some p) : (l.flatMap pair)[2 * n + i]? = (pair p)[i]? := by
  induction l generalizing n with
  | nil => simp at h
  | cons a l ih =>
    have hl : (pair a).length = 2 := by cases a <;> rfl
    rw [List.flatMap_cons]
    cases n with
    | zero =>
      simp only [List.getElem?_cons_zero, Option.some.injEq] at h
      subst h
      rw [List.getElem?_append_left (by omega)]
      simp
    | succ n =>
      rw [List.getElem?_append_right (by omega), ← ih n (by simpa using h)]
      congr 1
      omega

theorem object_view (l : List (Option (GProp K))) (n : ℕ) (p : GProp K) (h : l[n]? = some (some p)) :
    (object n p).view (l.flatMap pair) = p := by
  have h0 := pairs_at l n 0 (by omega) _ h
  have h1 := pairs_at l n 1 (by omega) _ h
  obtain ⟨nm, u, g, ⟨sh, d⟩, m, lo, hi, cm, nc⟩ := p
  unfold HProp.view object arrayAt
  simp only [List.getD_eq_getElem?_getD, Nat.add_zero] at h0 ⊢
  rw [h0]
  cases m with
  | none => rfl
  | some m =>
    simp only [Option.map_some, h1]
    simp only [pair, List.getElem?_cons_zero, List.getElem?_cons_succ, Option.getD_some,
      boolArray_toMask]

theorem ofValue_slot (s : Shallot K) (a : Slot) :
    (ofValue s).grid.slot a = (s.slot a).map (object (seat a)) := by
  cases a with
  | cube c => cases c <;> rfl
  | gradient k =>
    simp only [HGrid.slot, HGrid.gradient, ofValue, Shallot.slot, seat]
    cases s.gradients with
    | none => simp
    | some l =>
      simp only [Option.map_some, Option.getD_some, List.getElem?_mapIdx]
      cases l[k]? <;> rfl

theorem slots_at (s : Shallot K) (a : Slot) (p : GProp K) (h : s.slot a = some p) :
    (slots s)[seat a]? = some (some p) := by
  cases a with
  | cube c =>
    cases c <;> simp only [Shallot.slot, Shallot.prop] at h <;>
      first | (cases h; rfl) | (simp only [slots, h]; rfl)
  | gradient k =>
    simp only [Shallot.slot, Option.map_eq_some_iff] at h
    obtain ⟨g, hg, rfl⟩ := h
    unfold slots seat
    rw [List.getElem?_append_right (by simp)]
    simp [hg]

theorem ofValue_ref (s : Shallot K) (a : Slot) (b : Bool) (r : ℕ)
    (h : (ofValue s).grid.ref (a, b) = some r) :
    r = 2 * seat a + (if b then 1 else 0) ∧ seat a < (slots s).length := by
  have hs := ofValue_slot s a
  cases hp : s.slot a with
  | none =>
    rw [hp, Option.map_none] at hs
    cases b <;> simp [HGrid.ref, hs] at h
  | some p =>
    rw [hp, Option.map_some] at hs
    refine ⟨?_, (List.getElem?_eq_some_iff.1 (slots_at s a p hp)).1⟩
    cases b with
    | false =>
      rw [ref_data hs] at h
      exact (Option.some.inj h).symm
    | true =>
      rw [ref_mask hs] at h
      simp only [object, Option.map_eq_some_iff] at h
      obtain ⟨-, -, h⟩ := h
      exact h.symm

/-- C102: every grid by value, such as one that has been loaded, is the value of a grid whose arrays are
different objects. -/
theorem C102_loaded (s : Shallot K) : Apart (ofValue s) ∧ (ofValue s).view = s := by
  refine ⟨⟨fun a r h => ?_, fun a b r ha hb => ?_⟩, ?_⟩
  · obtain ⟨a, x⟩ := a
    obtain ⟨rfl, h2⟩ := ofValue_ref s a x r h
    show _ < ((slots s).flatMap pair).length
    rw [pairs_length]
    split <;> omega
  · obtain ⟨a, x⟩ := a
    obtain ⟨b, y⟩ := b
    obtain ⟨h1, -⟩ := ofValue_ref s a x r ha
    obtain ⟨h2, -⟩ := ofValue_ref s b y r hb
    have : seat a = seat b ∧ x = y := by
      cases x <;> cases y <;> simp at h1 h2 ⊢ <;> omega
    rw [seat_inj a b this.1, this.2]
  · have view : ∀ a p, s.slot a = some p → (object (seat a) p).view (ofValue s).arrays = p :=
      fun a p h => object_view _ _ p (slots_at s a p h)
    have opt : ∀ a (o : Option (GProp K)), s.slot a = o →
        (o.map (object (seat a))).map (HProp.view (ofValue s).arrays) = o := by
      intro a o h
      cases o with
      | none => rfl
      | some p => simp only [Option.map_some, view a p h]
    have grads : (s.gradients.map fun l => l.mapIdx fun k g =>
        (⟨object (7 + k) g.prop, g.position, g.measured, g.error, g.orbital, g.transmission⟩ :
          HGrad K)).map (fun l => l.map (HGrad.view (ofValue s).arrays)) = s.gradients := by
      cases hg : s.gradients with
      | none => rfl
      | some l =>
        simp only [Option.map_some, Option.some.injEq]
        apply List.ext_getElem?
        intro k
        rw [List.getElem?_map, List.getElem?_mapIdx]
        cases hk : l[k]? with
        | none => rfl
        | some g =>
          have := view (.gradient k) g.prop (by
            simp only [Shallot.slot, hg, Option.getD_some, hk, Option.map_some])
          simp only [Option.map_some, HGrad.view, Option.some.injEq]
          rw [show 7 + k = seat (.gradient k) from rfl, this]
    have e1 := view (.cube .diskRadius) _ rfl
    have e2 := view (.cube .inclination) _ rfl
    have e3 := view (.cube .tilt) _ rfl
    have e4 := view (.cube .fxMap) _ rfl
    have e5 := view (.cube .fyMap) _ rfl
    have e6 := opt (.cube .diagnosticMap) s.diagnosticMap rfl
    have e7 := opt (.cube .gradientFit) s.gradientFit rfl
    unfold GWorld.view HGrid.view
    unfold seat at e1 e2 e3 e4 e5 e6 e7
    generalize (ofValue s).arrays = A at *
    unfold ofValue
    simp only [e1, e2, e3, e4, e5, e6, e7, grads]

end

section
variable {K : Type} [Field K] [LinearOrder K] [IsStrictOrderedRing K] [RealFns K] [FloorRing K]

/-- C102: from its construction on, whatever the caller does, the arrays of a grid are different
objects; and without writes of the caller it is the grid of which the other theorems speak. -/
theorem C102_built (A : List (NpArr K)) (g g' : GridParams K) (n k : PyVal K) (s : Shallot K)
    (h : Shallot.new n k g = (.ok s, g')) : ∃ w, GWorld.new A n k g = (.ok w, g') ∧
    (∀ steps, Apart (runSteps steps w)) ∧
    ∀ ops, (runSteps (ops.map .call) w).view = runGrid ops s := by
  have hc := C102_created A g n k
  rw [h] at hc
  obtain ⟨h1, h2⟩ := hc
  cases hw : GWorld.new A n k g with
  | mk x y =>
    rw [hw] at h1 h2
    cases x with
    | error e => exact h2.elim
    | ok w => exact ⟨w, by rw [show y = g' from h1], fun st => C102_separate st w h2.1,
        fun ops => by rw [C102_values_calls ops w h2.1, h2.2]⟩

end

/-! ## Concrete cases -/

/-- There are such grids. -/
example : ∃ s w, Shallot.new (.int 100) (.bool false) throwAway = (.ok s, s.params) ∧
    GWorld.new [] (.int 100) (.bool false) throwAway = (.ok w, s.params) ∧ Apart w ∧ w.view = s := by
  obtain ⟨s, hs, -⟩ := throwAway_sound
  obtain ⟨w, hw, h1, h2⟩ := C102_built [] throwAway s.params (.int 100) (.bool false) s hs
  exact ⟨s, w, hs, hw, h1 [], h2 []⟩

/-- A grid of 2 × 3 × 3 points whose disk radius has a mask at its first point. -/
def Spec.grid18 : Shallot ℚ where
  params := smallGrid
  numFxfy := .int 10
  diagnostics := none
  circularRadius := []
  shear := ⟨[], []⟩
  diskRadius := { cube18 with mask := some ⟨[2, 3, 3], true :: List.replicate 17 false⟩ }
  inclination := { cube18 with name := .inclination }
  tilt := { cube18 with name := .tilt }
  fxMap := { cube18 with name := .fxMap }
  fyMap := { cube18 with name := .fyMap }
  diagnosticMap := none
  gradients := none
  gradientFit := none
  eclipseDuration := none
  velocity := none
  limb := none

/-- C103 (negation): an array that a getter has returned changes though the caller writes into nothing:
here by another call of the same getter. -/
theorem C103_false_read : ∃ (w w₁ w₂ : GWorld ℚ) (r : ℕ), Apart w ∧
    GWorld.getCube .diskRadius (.bool false) (.bool false) w = (.ok r, w₁) ∧
    (ndAt w₁.arrays r).data = (List.range 18).map (fun i => .fin i) ∧
    GWorld.getCube .diskRadius (.bool false) (.bool true) w₁ = (.ok r, w₂) ∧
    (ndAt w₂.arrays r).data = .nan :: (List.range 17).map (fun i => .fin (i + 1)) := by
  refine ⟨ofValue grid18, ofValue grid18, _, 0, (C102_loaded _).1, rfl, by decide +kernel, rfl, ?_⟩
  decide +kernel

/-- A caller's own array, the disk radius and the tilt are three different objects; writing into the
disk radius changes the disk radius. -/
example : ∃ w w' : GWorld ℚ, Apart w ∧ w.grid.ref (.cube .diskRadius, false) = some 0 ∧
    w.grid.ref (.cube .diskRadius, true) = some 1 ∧ w.grid.ref (.cube .tilt, false) = some 4 ∧
    w' = w.poke 0 17 .pinf ∧ w'.view.diskRadius.data.data.getLast? = some .pinf ∧
    w'.view.tilt = w.view.tilt := by
  refine ⟨ofValue grid18, _, (C102_loaded _).1, rfl, rfl, rfl, rfl, ?_, ?_⟩ <;> decide +kernel

/-- Had two attributes one array, writing into one would change the other: `Apart` excludes this. -/
example : ∃ w : GWorld ℚ, ¬ Apart w ∧ (w.poke 0 17 .pinf).view.tilt ≠ w.view.tilt := by
  refine ⟨{ ofValue grid18 with grid := { (ofValue grid18).grid with tilt := object 0 grid18.tilt } },
    fun h => ?_, by decide +kernel⟩
  have := h.inj (.cube .diskRadius, false) (.cube .tilt, false) 0 rfl rfl
  simp at this

end Beyonce
