import Verif.GridHeap
import Verif.Props.PropertyHeap
import Verif.Props.Sound

/-!
# The grid by reference against the grid by value
-/

set_option linter.unusedSectionVars false

namespace Beyonce

/-- An attribute that has arrays. -/
inductive Slot
  | cube (c : Cube)
  | gradient (k : ℕ)
  deriving DecidableEq, Repr

section
variable {K : Type}

/-- The property in a slot. -/
def HGrid.slot (h : HGrid K) : Slot → Option (HProp K)
  | .cube c => h.prop c
  | .gradient k => (h.gradient k).map HGrad.prop

/-- All references of a grid: data (`false`) and mask (`true`) of each slot. -/
def HGrid.ref (h : HGrid K) : Slot × Bool → Option ℕ
  | (a, false) => (h.slot a).map HProp.data
  | (a, true) => (h.slot a).bind HProp.mask

/-- No array belongs to two attributes. -/
structure Spec.Apart (w : GWorld K) : Prop where
  bound : ∀ a r, w.grid.ref a = some r → r < w.arrays.length
  inj : ∀ a b r, w.grid.ref a = some r → w.grid.ref b = some r → a = b

/-- `w'` comes after `w` and no caller has written into arrays: only elements of the data of the grid
have changed, to NaN. -/
structure Spec.Later (w w' : GWorld K) : Prop where
  size : w.arrays.length ≤ w'.arrays.length
  kept : ∀ r < w.arrays.length, (∀ a, w.grid.ref (a, false) ≠ some r) →
    arrayAt w'.arrays r = arrayAt w.arrays r
  nan : ∀ r < w.arrays.length, (arrayAt w'.arrays r).dtype = (arrayAt w.arrays r).dtype ∧
    (arrayAt w'.arrays r).shape = (arrayAt w.arrays r).shape ∧
    List.Forall₂ (fun x y => y = x ∨ y = .nan) (arrayAt w.arrays r).data (arrayAt w'.arrays r).data
  fresh : ∀ a r, w'.grid.ref (a, false) = some r →
    w.arrays.length ≤ r ∨ ∃ b, w.grid.ref (b, false) = some r
  cubes : ∀ c, c ≠ .diagnosticMap → c ≠ .gradientFit →
    w'.grid.ref (.cube c, false) = w.grid.ref (.cube c, false)

/-- The property in a slot of a grid by value. -/
def Shallot.slot (s : Shallot K) : Slot → Option (GProp K)
  | .cube c => s.prop c
  | .gradient k => ((s.gradients.getD [])[k]?).map GGrad.prop

/-- Replace the property in a slot. -/
def Shallot.setSlot (s : Shallot K) (p : GProp K) : Slot → Shallot K
  | .cube c => s.setProp p c
  | .gradient k => match (s.gradients.getD [])[k]? with
    | some g => { s with gradients := some ((s.gradients.getD []).set k { g with prop := p }) }
    | none => s

/-- A method of the property in a slot. -/
def Shallot.onSlot {α : Type} (m : Meth (GProp K) α) : Slot → Meth (Shallot K) α
  | .cube c => Shallot.onProp c m
  | .gradient k => Shallot.onGradient k fun g => ((m g.prop).1, { g with prop := (m g.prop).2 })

theorem onSlot_some {α : Type} (m : Meth (GProp K) α) (a : Slot) (s : Shallot K) (p : GProp K)
    (h : s.slot a = some p) : Shallot.onSlot m a s = ((m p).1, s.setSlot (m p).2 a) := by
  cases a with
  | cube c =>
    have h : s.prop c = some p := h
    simp only [Shallot.onSlot, Shallot.onProp, h, Shallot.setSlot]
  | gradient k =>
    simp only [Shallot.slot, Option.map_eq_some_iff] at h
    obtain ⟨g, hg, rfl⟩ := h
    simp only [Shallot.onSlot, Shallot.onGradient, hg, Shallot.setSlot]

theorem setSlot_self (a : Slot) (s : Shallot K) (p : GProp K) (h : s.slot a = some p) :
    s.setSlot p a = s := by
  cases a with
  | cube c =>
    have h : s.prop c = some p := h
    cases c <;> simp only [Shallot.prop, Option.some.injEq] at h <;>
      simp only [Shallot.setSlot, Shallot.setProp] <;> first | (rw [← h]; done) | (subst h; rfl) | skip
  | gradient k =>
    simp only [Shallot.slot, Option.map_eq_some_iff] at h
    obtain ⟨g, hg, rfl⟩ := h
    simp only [Shallot.setSlot, hg]
    cases hl : s.gradients with
    | none => rw [hl] at hg; simp at hg
    | some l =>
      rw [hl] at hg
      simp only [Option.getD_some] at hg ⊢
      have : l.set k g = l := by
        apply List.ext_getElem?
        intro i
        rw [List.getElem?_set]
        split_ifs with h1 h2
        · subst h1; exact hg.symm
        · subst h1
          rw [List.getElem?_eq_none (by omega)]
        · rfl
      rw [this, ← hl]

variable [Field K] [LinearOrder K] [IsStrictOrderedRing K]

/-! ## Views -/

theorem prop_view_congr {A B : List (NpArr K)} (p : HProp K)
    (hd : arrayAt A p.data = arrayAt B p.data)
    (hm : ∀ r, p.mask = some r → arrayAt A r = arrayAt B r) : p.view A = p.view B := by
  unfold HProp.view
  rw [hd]
  cases h : p.mask with
  | none => rfl
  | some r => simp only [Option.map_some, hm r h]

theorem grad_view_congr {A B : List (NpArr K)} (g : HGrad K) (h : g.prop.view A = g.prop.view B) :
    g.view A = g.view B := by
  unfold HGrad.view
  rw [h]

theorem view_slot (A : List (NpArr K)) (h : HGrid K) (a : Slot) :
    (h.view A).slot a = (h.slot a).map (HProp.view A) := by
  cases a with
  | cube c => cases c <;> rfl
  | gradient k =>
    simp only [Shallot.slot, HGrid.slot, HGrid.view, HGrid.gradient]
    cases h.gradients with
    | none => rfl
    | some l =>
      simp only [Option.map_some, Option.getD_some, List.getElem?_map, Option.map_map]
      rfl

/-- The views agree up to one slot if the arrays agree for all other slots. -/
theorem view_except {A B : List (NpArr K)} (h : HGrid K) (a : Slot) (p : HProp K)
    (ha : h.slot a = some p)
    (other : ∀ b q, b ≠ a → h.slot b = some q → q.view A = q.view B) :
    h.view A = (h.view B).setSlot (p.view A) a := by
  have opt : ∀ c, Slot.cube c ≠ a → (h.prop c).map (HProp.view A) = (h.prop c).map (HProp.view B) := by
    intro c hc
    cases hp : h.prop c with
    | none => rfl
    | some q => simp only [Option.map_some, other (.cube c) q hc hp]
  have cube : ∀ c q, Slot.cube c ≠ a → h.prop c = some q → q.view A = q.view B :=
    fun c q hc hq => other (.cube c) q hc hq
  cases a with
  | cube c =>
    have grads : (h.gradients.map fun l => l.map (HGrad.view A)) =
        (h.gradients.map fun l => l.map (HGrad.view B)) := by
      cases hl : h.gradients with
      | none => rfl
      | some l =>
        simp only [Option.map_some, Option.some.injEq]
        apply List.map_congr_left
        intro g hg
        obtain ⟨k, hk⟩ := List.mem_iff_getElem?.1 hg
        refine grad_view_congr g (other (.gradient k) g.prop (by simp) ?_)
        simp only [HGrid.slot, HGrid.gradient, hl, Option.getD_some, hk, Option.map_some]
    unfold HGrid.view
    rw [grads]
    cases c with
    | diskRadius =>
      obtain rfl := Option.some.inj ha
      rw [cube .inclination _ (by simp) rfl,
        cube .tilt _ (by simp) rfl,
        cube .fxMap _ (by simp) rfl,
        cube .fyMap _ (by simp) rfl,
        show h.diagnosticMap.map (HProp.view A) = h.diagnosticMap.map (HProp.view B) from opt .diagnosticMap (by simp),
        show h.gradientFit.map (HProp.view A) = h.gradientFit.map (HProp.view B) from opt .gradientFit (by simp)]
      rfl
    | inclination =>
      obtain rfl := Option.some.inj ha
      rw [cube .diskRadius _ (by simp) rfl,
        cube .tilt _ (by simp) rfl,
        cube .fxMap _ (by simp) rfl,
        cube .fyMap _ (by simp) rfl,
        show h.diagnosticMap.map (HProp.view A) = h.diagnosticMap.map (HProp.view B) from opt .diagnosticMap (by simp),
        show h.gradientFit.map (HProp.view A) = h.gradientFit.map (HProp.view B) from opt .gradientFit (by simp)]
      rfl
    | tilt =>
      obtain rfl := Option.some.inj ha
      rw [cube .diskRadius _ (by simp) rfl,
        cube .inclination _ (by simp) rfl,
        cube .fxMap _ (by simp) rfl,
        cube .fyMap _ (by simp) rfl,
        show h.diagnosticMap.map (HProp.view A) = h.diagnosticMap.map (HProp.view B) from opt .diagnosticMap (by simp),
        show h.gradientFit.map (HProp.view A) = h.gradientFit.map (HProp.view B) from opt .gradientFit (by simp)]
      rfl
    | fxMap =>
      obtain rfl := Option.some.inj ha
      rw [cube .diskRadius _ (by simp) rfl,
        cube .inclination _ (by simp) rfl,
        cube .tilt _ (by simp) rfl,
        cube .fyMap _ (by simp) rfl,
        show h.diagnosticMap.map (HProp.view A) = h.diagnosticMap.map (HProp.view B) from opt .diagnosticMap (by simp),
        show h.gradientFit.map (HProp.view A) = h.gradientFit.map (HProp.view B) from opt .gradientFit (by simp)]
      rfl
    | fyMap =>
      obtain rfl := Option.some.inj ha
      rw [cube .diskRadius _ (by simp) rfl,
        cube .inclination _ (by simp) rfl,
        cube .tilt _ (by simp) rfl,
        cube .fxMap _ (by simp) rfl,
        show h.diagnosticMap.map (HProp.view A) = h.diagnosticMap.map (HProp.view B) from opt .diagnosticMap (by simp),
        show h.gradientFit.map (HProp.view A) = h.gradientFit.map (HProp.view B) from opt .gradientFit (by simp)]
      rfl
    | diagnosticMap =>
      have ha : h.diagnosticMap = some p := ha
      rw [cube .diskRadius _ (by simp) rfl,
        cube .inclination _ (by simp) rfl,
        cube .tilt _ (by simp) rfl,
        cube .fxMap _ (by simp) rfl,
        cube .fyMap _ (by simp) rfl,
        show h.gradientFit.map (HProp.view A) = h.gradientFit.map (HProp.view B) from opt .gradientFit (by simp),
        ha,
        Option.map_some]
      rfl
    | gradientFit =>
      have ha : h.gradientFit = some p := ha
      rw [cube .diskRadius _ (by simp) rfl,
        cube .inclination _ (by simp) rfl,
        cube .tilt _ (by simp) rfl,
        cube .fxMap _ (by simp) rfl,
        cube .fyMap _ (by simp) rfl,
        show h.diagnosticMap.map (HProp.view A) = h.diagnosticMap.map (HProp.view B) from opt .diagnosticMap (by simp),
        ha,
        Option.map_some]
      rfl
  | gradient k =>
    have o1 := opt .diagnosticMap (by simp)
    have o2 := opt .gradientFit (by simp)
    simp only [HGrid.prop] at o1 o2
    simp only [HGrid.slot, Option.map_eq_some_iff, HGrid.gradient] at ha
    obtain ⟨g, hg, rfl⟩ := ha
    cases hl : h.gradients with
    | none => rw [hl] at hg; simp at hg
    | some l =>
      rw [hl, Option.getD_some] at hg
      have hk : k < l.length := (List.getElem?_eq_some_iff.1 hg).1
      unfold HGrid.view
      simp only [Shallot.setSlot, hl, Option.map_some, Option.getD_some, List.getElem?_map, hg]
      rw [o1, o2, cube .diskRadius _ (by simp) rfl, cube .inclination _ (by simp) rfl,
        cube .tilt _ (by simp) rfl, cube .fxMap _ (by simp) rfl, cube .fyMap _ (by simp) rfl]
      have : l.map (HGrad.view A) = (l.map (HGrad.view B)).set k
          { HGrad.view B g with prop := HProp.view A g.prop } := by
        apply List.ext_getElem?
        intro i
        rw [List.getElem?_set, List.length_map, List.getElem?_map, List.getElem?_map]
        by_cases hi : k = i
        · subst hi
          simp only [if_true, hk, hg, Option.map_some]
          rfl
        · simp only [hi, if_false]
          cases hq : l[i]? with
          | none => rfl
          | some q =>
            simp only [Option.map_some, Option.some.injEq]
            refine grad_view_congr q (other (.gradient i) q.prop (by simpa using Ne.symm hi) ?_)
            simp only [HGrid.slot, HGrid.gradient, hl, Option.getD_some, hq, Option.map_some]
      rw [this]

theorem slot_view_congr {A B : List (NpArr K)} (h : HGrid K)
    (hr : ∀ a r, h.ref a = some r → arrayAt A r = arrayAt B r) (a : Slot) (p : HProp K)
    (ha : h.slot a = some p) : p.view A = p.view B := by
  refine prop_view_congr p (hr (a, false) _ ?_) fun r hm => hr (a, true) r ?_
  · simp only [HGrid.ref, ha, Option.map_some]
  · simp only [HGrid.ref, ha, Option.bind_some, hm]

/-- The view depends on the arrays of the grid only. -/
theorem view_congr {A B : List (NpArr K)} (h : HGrid K)
    (hr : ∀ a r, h.ref a = some r → arrayAt A r = arrayAt B r) : h.view A = h.view B := by
  rw [view_except h (.cube .diskRadius) h.diskRadius rfl
    (fun b q _ hb => slot_view_congr h hr b q hb)]
  rw [slot_view_congr h hr (.cube .diskRadius) h.diskRadius rfl]
  rfl

theorem arrayAt_append (A : List (NpArr K)) (a : NpArr K) {r : ℕ} (h : r < A.length) :
    arrayAt (A ++ [a]) r = arrayAt A r := arrayAt_alloc A a h

theorem arrayAt_last (A : List (NpArr K)) (a : NpArr K) : arrayAt (A ++ [a]) A.length = a := by
  simp [arrayAt]

open Spec

/-- Writing into the data of a slot changes this slot only. -/
theorem view_store {w : GWorld K} (hw : Apart w) {a : Slot} {p : HProp K}
    (ha : w.grid.slot a = some p) (d : List (XF K)) :
    w.grid.view (storeData w.arrays p.data d) =
      w.view.setSlot { p.view w.arrays with data := ⟨(arrayAt w.arrays p.data).shape, d⟩ } a := by
  have hd : w.grid.ref (a, false) = some p.data := by simp only [HGrid.ref, ha, Option.map_some]
  have hb := hw.bound _ _ hd
  have ne : ∀ b r, b ≠ (a, false) → w.grid.ref b = some r →
      arrayAt (storeData w.arrays p.data d) r = arrayAt w.arrays r := by
    intro b r hne hr
    rw [arrayAt_store, if_neg]
    rintro ⟨rfl, -⟩
    exact hne (hw.inj _ _ _ hr hd)
  rw [view_except (B := w.arrays) w.grid a p ha]
  · congr 1
    unfold HProp.view
    rw [arrayAt_store, if_pos ⟨rfl, hb⟩]
    congr 1
    cases hm : p.mask with
    | none => rfl
    | some r =>
      simp only [Option.map_some]
      rw [ne (a, true) r (by simp) (by simp only [HGrid.ref, ha, Option.bind_some, hm])]
  · intro b q hb hq
    refine prop_view_congr q (ne (b, false) _ (by simpa using hb) ?_)
      fun r hm => ne (b, true) r (by simp) ?_
    · simp only [HGrid.ref, hq, Option.map_some]
    · simp only [HGrid.ref, hq, Option.bind_some, hm]

end
end Beyonce
