import Verif.PropertyHeap
import Verif.Props.GridProperty

/-!
# Properties C84 and C85: arrays that are handed out, and arrays that are shared
-/

set_option linter.unusedSectionVars false

namespace Beyonce
open Spec
variable {K : Type} [Field K] [LinearOrder K] [IsStrictOrderedRing K]

/-- A session of a user who catches every exception. -/
def runSession (ops : List (SessionOp K)) (w : PWorld K) : PWorld K :=
  ops.foldl (fun w op => op.exec w) w

theorem runSession_append (a b : List (SessionOp K)) (w : PWorld K) :
    runSession (a ++ b) w = runSession b (runSession a w) := by
  simp [runSession]

/-! ## Helper lemmas -/

theorem arrayAt_store (arrays : List (NpArr K)) (r r' : ℕ) (d : List (XF K)) :
    arrayAt (storeData arrays r d) r' =
      if r' = r ∧ r < arrays.length then ⟨(arrayAt arrays r).dtype, (arrayAt arrays r).shape, d⟩
      else arrayAt arrays r' := by
  unfold arrayAt storeData
  simp only [List.getD_eq_getElem?_getD, List.getElem?_set]
  by_cases h : r = r'
  · subst h
    by_cases hr : r < arrays.length
    · simp [hr, arrayAt]
    · simp [hr]
  · simp [h, Ne.symm h]

theorem store_length (arrays : List (NpArr K)) (r : ℕ) (d : List (XF K)) :
    (storeData arrays r d).length = arrays.length := by
  simp [storeData]

theorem arrayAt_alloc (arrays : List (NpArr K)) (a : NpArr K) {r : ℕ} (h : r < arrays.length) :
    arrayAt (arrays ++ [a]) r = arrayAt arrays r := by
  simp [arrayAt, List.getElem?_append_left h]

theorem arrayAt_dtype_store (arrays : List (NpArr K)) (r r' : ℕ) (d : List (XF K)) :
    (arrayAt (storeData arrays r d) r').dtype = (arrayAt arrays r').dtype ∧
      (arrayAt (storeData arrays r d) r').shape = (arrayAt arrays r').shape := by
  rw [arrayAt_store]
  by_cases h : r' = r ∧ r < arrays.length
  · rw [if_pos h, h.1]
    exact ⟨rfl, rfl⟩
  · rw [if_neg h]
    exact ⟨rfl, rfl⟩

theorem getData_masked (p : GProp K) (m : Mask) (hm : p.mask = some m) (hs : m.shape = p.data.shape) :
    GProp.getData (.bool true) p = (.ok ⟨p.data.shape, putWhere .nan m.data p.data.data⟩,
      { p with data := ⟨p.data.shape, putWhere .nan m.data p.data.data⟩ }) := by
  unfold GProp.getData
  simp only [show boolean (K := K) (.bool true) = .ok true from rfl, Meth.lift_ok_bind,
    Meth.get_bind, hm]
  rw [if_pos hs, Meth.modify_bind, Meth.get_bind, ← hm]
  rfl

/-- What `set_mask` does to the session. -/
theorem heap_setMask (i r : ℕ) (w : PWorld K) :
    (∃ p, w.props[i]? = some p ∧ (arrayAt w.arrays r).dtype = "bool" ∧
      (arrayAt w.arrays r).shape = (arrayAt w.arrays p.data).shape ∧
      PWorld.setMask i r w = (.ok (), { w with props := w.props.set i { p with mask := some r } })) ∨
    ((∃ e, PWorld.setMask i r w = (.error e, w)) ∧ ∀ p, w.props[i]? = some p →
      ¬ ((arrayAt w.arrays r).dtype = "bool" ∧
        (arrayAt w.arrays r).shape = (arrayAt w.arrays p.data).shape)) := by
  unfold PWorld.setMask
  simp only [Meth.get_bind]
  cases hp : w.props[i]? with
  | none => exact Or.inr ⟨⟨_, rfl⟩, by simp⟩
  | some p =>
    simp only
    cases h1 : array (.arr (arrayAt w.arrays r)) (dtype := .str "bool") with
    | error e =>
      right
      rw [Meth.lift_error_bind]
      refine ⟨⟨_, rfl⟩, ?_⟩
      rintro p' - ⟨h2, -⟩
      rw [(array_bool_ok _ _).2 ⟨rfl, h2⟩] at h1
      cases h1
    | ok a =>
      rw [Meth.lift_ok_bind]
      obtain ⟨ha, hd⟩ := (array_bool_ok _ _).1 h1
      obtain rfl : arrayAt w.arrays r = a := by simpa using ha
      cases h3 : sameShapeArrays [PyVal.arr (arrayAt w.arrays r), .arr (arrayAt w.arrays p.data)] 2 with
      | error e =>
        right
        rw [Meth.lift_error_bind]
        refine ⟨⟨_, rfl⟩, ?_⟩
        rintro p' hp' ⟨-, h4⟩
        cases hp'
        rw [(sameShape2_ok _ _).2 h4] at h3
        cases h3
      | ok u =>
        left
        exact ⟨p, rfl, hd, (sameShape2_ok _ _).1 h3, by rw [Meth.lift_ok_bind, Meth.modify_apply]⟩

/-- What `get_data` does to the session. -/
theorem heap_getData (i : ℕ) (v : PyVal K) (w : PWorld K) :
    (∃ p m, w.props[i]? = some p ∧ v = .bool true ∧ p.mask = some m ∧
      (arrayAt w.arrays m).shape = (arrayAt w.arrays p.data).shape ∧
      PWorld.getData i v w = (.ok p.data, ⟨storeData w.arrays p.data
        (putWhere .nan (arrayAt w.arrays m).toMask.data (arrayAt w.arrays p.data).data), w.props⟩)) ∨
    ((PWorld.getData i v w).2 = w ∧ (∀ r, (PWorld.getData i v w).1 = .ok r →
        ∃ p, w.props[i]? = some p ∧ r = p.data) ∧
      ∀ p, w.props[i]? = some p → (GProp.getData v (p.view w.arrays)).2 = p.view w.arrays) := by
  unfold PWorld.getData
  simp only [Meth.get_bind]
  cases hp : w.props[i]? with
  | none => exact Or.inr ⟨rfl, (by intro r h; cases h), by simp⟩
  | some p =>
    simp only
    unfold GProp.getData
    cases hb : boolean v with
    | error e =>
      refine Or.inr ⟨rfl, (by intro r h; cases h), ?_⟩
      rintro p' -
      rfl
    | ok b =>
      have hv : v = .bool b := by
        cases v <;> simp_all [boolean, classObject, isinstance, bind, Except.bind]
      simp only [Meth.lift_ok_bind, Meth.get_bind]
      cases b with
      | false => exact Or.inr ⟨rfl, (by intro r h; cases h; exact ⟨p, rfl, rfl⟩), by rintro p' -; rfl⟩
      | true =>
        cases hm : p.mask with
        | none =>
          refine Or.inr ⟨rfl, (by intro r h; cases h; exact ⟨p, rfl, rfl⟩), ?_⟩
          intro p' hp'
          cases hp'
          simp only [HProp.view, hm, Option.map_none]
          rfl
        | some m =>
          simp only
          by_cases hs : (arrayAt w.arrays m).shape = (arrayAt w.arrays p.data).shape
          · rw [if_pos hs]
            exact Or.inl ⟨p, m, rfl, hv, hm, hs, rfl⟩
          · rw [if_neg hs]
            refine Or.inr ⟨rfl, (by intro r h; cases h), ?_⟩
            intro p' hp'
            cases hp'
            simp only [HProp.view, hm, Option.map_some]
            rw [if_neg (by exact hs)]
            rfl

/-! ## C85 -/

/-- No two properties keep the same array; data are float arrays and masks Boolean ones. -/
structure Spec.Separate (w : PWorld K) : Prop where
  data : ∀ p ∈ w.props, p.data < w.arrays.length ∧ (arrayAt w.arrays p.data).dtype = "float64"
  mask : ∀ p ∈ w.props, ∀ r, p.mask = some r → r < w.arrays.length ∧
    (arrayAt w.arrays r).dtype = "bool"
  apart : ∀ (i j : ℕ) (p q : HProp K), w.props[i]? = some p → w.props[j]? = some q → p.data = q.data →
    i = j

/-- The caller does not write into an array that a property keeps, and makes no second property of an
array. -/
def Spec.Careful (w : PWorld K) : SessionOp K → Prop
  | .poke r _ _ => ∀ p ∈ w.props, r ≠ p.data ∧ p.mask ≠ some r
  | .make _ _ r _ => ∀ p ∈ w.props, r ≠ p.data
  | _ => True

/-- All operations of a session are careful. -/
def Spec.CarefulRun (w : PWorld K) : List (SessionOp K) → Prop
  | [] => True
  | op :: ops => Careful w op ∧ CarefulRun (op.exec w) ops

/-- The calls of methods of property `j` in a session, with their arguments by value. -/
def Spec.callOn (j : ℕ) (w : PWorld K) : SessionOp K → List (PropOp K)
  | .setMask i r => if i = j then [.setMask (.arr (arrayAt w.arrays r))] else []
  | .read i v => if i = j then [.getData v] else []
  | .contrast i a b c d => if i = j then [.setContrast a b c d] else []
  | _ => []

def Spec.callsOn (j : ℕ) (w : PWorld K) : List (SessionOp K) → List (PropOp K)
  | [] => []
  | op :: ops => callOn j w op ++ callsOn j (op.exec w) ops

theorem mem_of_getElem?_some {α : Type} {l : List α} {i : ℕ} {x : α} (h : l[i]? = some x) : x ∈ l :=
  List.mem_of_getElem? h

/-- One operation changes property `j` as its own method does by value, and not at all if it is not a
call on `j`; the properties stay separate. -/
theorem careful_step (w : PWorld K) (hw : Separate w) (op : SessionOp K) (hop : Careful w op) :
    Separate (op.exec w) ∧ ∀ j p, w.props[j]? = some p → ∃ p', (op.exec w).props[j]? = some p' ∧
      p'.view (op.exec w).arrays = runProp (callOn j w op) (p.view w.arrays) := by
  cases op with
  | alloc a =>
    refine ⟨⟨?_, ?_, hw.apart⟩, ?_⟩
    · intro p hp
      obtain ⟨h1, h2⟩ := hw.data p hp
      simp only [SessionOp.exec, List.length_append, List.length_singleton]
      rw [arrayAt_alloc _ _ h1]
      exact ⟨by omega, h2⟩
    · intro p hp r hr
      obtain ⟨h1, h2⟩ := hw.mask p hp r hr
      simp only [SessionOp.exec, List.length_append, List.length_singleton]
      rw [arrayAt_alloc _ _ h1]
      exact ⟨by omega, h2⟩
    · intro j p hj
      refine ⟨p, hj, ?_⟩
      have hp := List.mem_of_getElem? hj
      simp only [SessionOp.exec, callOn, runProp, List.foldl_nil, HProp.view]
      rw [arrayAt_alloc _ _ (hw.data p hp).1]
      cases hm : p.mask with
      | none => rfl
      | some r => simp only [Option.map_some, arrayAt_alloc _ _ (hw.mask p hp r hm).1]
  | poke r k x =>
    refine ⟨⟨?_, ?_, hw.apart⟩, ?_⟩
    · intro p hp
      simp only [SessionOp.exec, store_length, (arrayAt_dtype_store _ _ _ _).1]
      exact hw.data p hp
    · intro p hp r' hr
      simp only [SessionOp.exec, store_length, (arrayAt_dtype_store _ _ _ _).1]
      exact hw.mask p hp r' hr
    · intro j p hj
      refine ⟨p, hj, ?_⟩
      have hp := List.mem_of_getElem? hj
      obtain ⟨h1, h2⟩ := hop p hp
      simp only [SessionOp.exec, callOn, runProp, List.foldl_nil, HProp.view]
      rw [arrayAt_store, if_neg (fun h => h1 h.1.symm)]
      cases hm : p.mask with
      | none => rfl
      | some r' =>
        have : r' ≠ r := by
          rintro rfl
          exact h2 hm
        simp only [Option.map_some, arrayAt_store, if_neg (fun h => this (And.left h))]
  | make name unit r g =>
    have hcase : (∃ (p : GProp K), (arrayAt w.arrays r).dtype = "float64" ∧ r < w.arrays.length ∧
        (PWorld.make name unit r g w).2 = { w with props := w.props ++
          [⟨name, unit, g, r, none, p.vmin, p.vmax, p.colorMap, p.numColors⟩] }) ∨
        (PWorld.make name unit r g w).2 = w := by
      unfold PWorld.make
      simp only [Meth.get_bind]
      cases h : GProp.new name unit (.arr (arrayAt w.arrays r)) g with
      | error e => exact Or.inr rfl
      | ok p =>
        obtain ⟨a, h1, h2, h3, -⟩ := (prop_new_ok_iff _ _ _ _ _).1 h
        obtain rfl : arrayAt w.arrays r = a := by simpa using h1
        refine Or.inl ⟨p, h2, ?_, rfl⟩
        by_contra hr
        have : arrayAt w.arrays r = ⟨"float64", [], []⟩ := by
          simp [arrayAt, List.getElem?_eq_none (not_lt.1 hr)]
        rw [this] at h3
        cases h3
    simp only [SessionOp.exec]
    rcases hcase with ⟨p, h2, hr, h⟩ | h
    · rw [h]
      refine ⟨⟨?_, ?_, ?_⟩, ?_⟩
      · intro q hq
        rcases List.mem_append.1 hq with hq | hq
        · exact hw.data q hq
        · obtain rfl := List.mem_singleton.1 hq
          exact ⟨hr, h2⟩
      · intro q hq r' hr'
        rcases List.mem_append.1 hq with hq | hq
        · exact hw.mask q hq r' hr'
        · obtain rfl := List.mem_singleton.1 hq
          cases hr'
      · intro i j a b hi hj hab
        simp only [List.getElem?_append] at hi hj
        by_cases hi' : i < w.props.length
        · rw [if_pos hi'] at hi
          by_cases hj' : j < w.props.length
          · rw [if_pos hj'] at hj
            exact hw.apart i j a b hi hj hab
          · rw [if_neg hj'] at hj
            obtain rfl := List.mem_singleton.1 (List.mem_of_getElem? hj)
            exact absurd hab.symm (hop a (List.mem_of_getElem? hi))
        · rw [if_neg hi'] at hi
          have hi0 := (List.getElem?_eq_some_iff.1 hi).1
          by_cases hj' : j < w.props.length
          · rw [if_pos hj'] at hj
            obtain rfl := List.mem_singleton.1 (List.mem_of_getElem? hi)
            exact absurd hab (hop b (List.mem_of_getElem? hj))
          · rw [if_neg hj'] at hj
            have hj0 := (List.getElem?_eq_some_iff.1 hj).1
            simp only [List.length_singleton] at hi0 hj0
            omega
      · intro j q hj
        refine ⟨q, ?_, rfl⟩
        rw [List.getElem?_append_left (List.getElem?_eq_some_iff.1 hj).1]
        exact hj
    · rw [h]
      exact ⟨hw, fun j p hj => ⟨p, hj, rfl⟩⟩
  | setMask i r =>
    simp only [SessionOp.exec]
    rcases heap_setMask i r w with ⟨p, hp, h1, h2, h⟩ | ⟨⟨e, h⟩, h'⟩
    · rw [h]
      have hi := (List.getElem?_eq_some_iff.1 hp).1
      have hrl : r < w.arrays.length := by
        by_contra hr
        have : arrayAt w.arrays r = ⟨"float64", [], []⟩ := by
          simp [arrayAt, List.getElem?_eq_none (not_lt.1 hr)]
        rw [this] at h1
        simp at h1
      refine ⟨⟨?_, ?_, ?_⟩, ?_⟩
      · intro q hq
        rcases List.mem_or_eq_of_mem_set hq with hq | rfl
        · exact hw.data q hq
        · exact hw.data p (List.mem_of_getElem? hp)
      · intro q hq r' hr'
        rcases List.mem_or_eq_of_mem_set hq with hq | rfl
        · exact hw.mask q hq r' hr'
        · cases hr'
          exact ⟨hrl, h1⟩
      · have key : ∀ (a : ℕ) x, (w.props.set i { p with mask := some r })[a]? = some x →
            ∃ y, w.props[a]? = some y ∧ x.data = y.data := by
          intro a x ha
          rw [List.getElem?_set] at ha
          by_cases hia : i = a
          · subst hia
            rw [if_pos rfl, if_pos hi] at ha
            cases ha
            exact ⟨p, hp, rfl⟩
          · rw [if_neg hia] at ha
            exact ⟨x, ha, rfl⟩
        intro a b x y ha hb hxy
        obtain ⟨x', hx, ex⟩ := key a x ha
        obtain ⟨y', hy, ey⟩ := key b y hb
        exact hw.apart a b x' y' hx hy (by rw [← ex, ← ey, hxy])
      · intro j q hj
        by_cases hij : i = j
        · subst hij
          rw [hp] at hj
          cases hj
          refine ⟨{ p with mask := some r }, by simp [hi], ?_⟩
          simp only [callOn, if_true, runProp, List.foldl_cons, List.foldl_nil, PropOp.exec]
          rcases setMask_cases (.arr (arrayAt w.arrays r)) (p.view w.arrays) with
            ⟨a, ha, -, -, hs⟩ | ⟨-, hs⟩
          · rw [hs]
            obtain rfl : arrayAt w.arrays r = a := by simpa using ha
            rfl
          · exact absurd ⟨_, rfl, h1, h2⟩ hs
        · refine ⟨q, by simp [hij, hj], ?_⟩
          simp only [callOn, if_neg hij]
          rfl
    · rw [h]
      refine ⟨hw, fun j p hj => ⟨p, hj, ?_⟩⟩
      by_cases hij : i = j
      · subst hij
        simp only [callOn, if_true, runProp, List.foldl_cons, List.foldl_nil, PropOp.exec]
        rcases setMask_cases (.arr (arrayAt w.arrays r)) (p.view w.arrays) with
          ⟨a, ha, h1, h2, -⟩ | ⟨⟨e', hs⟩, -⟩
        · obtain rfl : arrayAt w.arrays r = a := by simpa using ha
          exact absurd ⟨h1, h2⟩ (h' p hj)
        · rw [hs]
      · simp only [callOn, if_neg hij]
        rfl
  | read i v =>
    simp only [SessionOp.exec]
    rcases heap_getData i v w with ⟨p, m, hp, hv, hm, hs, h⟩ | ⟨h, -, h'⟩
    · rw [h]
      have hpm := List.mem_of_getElem? hp
      obtain ⟨d1, d2⟩ := hw.data p hpm
      refine ⟨⟨?_, ?_, hw.apart⟩, ?_⟩
      · intro q hq
        simp only [store_length, (arrayAt_dtype_store _ _ _ _).1]
        exact hw.data q hq
      · intro q hq r' hr
        simp only [store_length, (arrayAt_dtype_store _ _ _ _).1]
        exact hw.mask q hq r' hr
      · have hmask : ∀ q ∈ w.props, ∀ r, q.mask = some r → ∀ d,
            arrayAt (storeData w.arrays p.data d) r = arrayAt w.arrays r := by
          intro q hq r hr d
          rw [arrayAt_store, if_neg]
          rintro ⟨e, -⟩
          have := (hw.mask q hq r hr).2
          rw [e, d2] at this
          simp at this
        intro j q hj
        refine ⟨q, hj, ?_⟩
        have hq := List.mem_of_getElem? hj
        have hmm : ∀ d, q.mask.map (fun r => (arrayAt (storeData w.arrays p.data d) r).toMask) =
            q.mask.map fun r => (arrayAt w.arrays r).toMask := by
          intro d
          cases hqm : q.mask with
          | none => rfl
          | some r => simp only [Option.map_some, hmask q hq r hqm]
        by_cases hij : i = j
        · subst hij
          rw [hp] at hj
          cases hj
          simp only [callOn, if_true, runProp, List.foldl_cons, List.foldl_nil, PropOp.exec]
          subst hv
          rw [getData_masked (p.view w.arrays) (arrayAt w.arrays m).toMask (by simp [HProp.view, hm]) hs]
          simp only [HProp.view, hmm]
          rw [arrayAt_store, if_pos (And.intro (Eq.refl p.data) d1)]
        · simp only [callOn, if_neg hij]
          have hne : ¬ (q.data = p.data ∧ p.data < w.arrays.length) := fun e =>
            hij (hw.apart i j p q hp hj e.1.symm)
          simp only [HProp.view, hmm]
          rw [arrayAt_store, if_neg hne]
          rfl
    · rw [h]
      refine ⟨hw, fun j p hj => ⟨p, hj, ?_⟩⟩
      by_cases hij : i = j
      · subst hij
        simp only [callOn, if_true, runProp, List.foldl_cons, List.foldl_nil, PropOp.exec]
        exact (h' p hj).symm
      · simp only [callOn, if_neg hij]
        rfl
  | contrast i a b c d =>
    simp only [SessionOp.exec, PWorld.setContrast]
    cases hp : w.props[i]? with
    | none =>
      simp only
      refine ⟨hw, fun j p hj => ⟨p, hj, ?_⟩⟩
      have hij : i ≠ j := by
        rintro rfl
        rw [hp] at hj
        cases hj
      simp only [callOn, if_neg hij]
      rfl
    | some p =>
      simp only
      have hi := (List.getElem?_eq_some_iff.1 hp).1
      have hpm := List.mem_of_getElem? hp
      obtain ⟨p', hp'⟩ : ∃ p', p' = ({ p with
          vmin := (GProp.setContrast a b c d (p.view w.arrays)).2.vmin
          vmax := (GProp.setContrast a b c d (p.view w.arrays)).2.vmax
          colorMap := (GProp.setContrast a b c d (p.view w.arrays)).2.colorMap
          numColors := (GProp.setContrast a b c d (p.view w.arrays)).2.numColors } : HProp K) := ⟨_, rfl⟩
      rw [← hp']
      have e1 : p'.data = p.data := by rw [hp']
      have e2 : p'.mask = p.mask := by rw [hp']
      refine ⟨⟨?_, ?_, ?_⟩, ?_⟩
      · intro q hq
        rcases List.mem_or_eq_of_mem_set hq with hq | rfl
        · exact hw.data q hq
        · rw [e1]; exact hw.data p hpm
      · intro q hq r' hr'
        rcases List.mem_or_eq_of_mem_set hq with hq | rfl
        · exact hw.mask q hq r' hr'
        · rw [e2] at hr'; exact hw.mask p hpm r' hr'
      · have key : ∀ (a : ℕ) x, (w.props.set i p')[a]? = some x →
            ∃ y, w.props[a]? = some y ∧ x.data = y.data := by
          intro a x ha
          rw [List.getElem?_set] at ha
          by_cases hia : i = a
          · subst hia
            rw [if_pos rfl, if_pos hi] at ha
            cases ha
            exact ⟨p, hp, e1⟩
          · rw [if_neg hia] at ha
            exact ⟨x, ha, rfl⟩
        intro a b x y ha hb hxy
        obtain ⟨x', hx, ex⟩ := key a x ha
        obtain ⟨y', hy, ey⟩ := key b y hb
        exact hw.apart a b x' y' hx hy (by rw [← ex, ← ey, hxy])
      · intro j q hj
        by_cases hij : i = j
        · subst hij
          rw [hp] at hj
          cases hj
          refine ⟨p', by simp [hi], ?_⟩
          simp only [callOn, if_true, runProp, List.foldl_cons, List.foldl_nil, PropOp.exec]
          obtain ⟨f1, f2, f3, f4, f5⟩ := setContrast_frame a b c d (p.view w.arrays)
          obtain ⟨o, ho⟩ : ∃ o, o = (GProp.setContrast a b c d (p.view w.arrays)).2 := ⟨_, rfl⟩
          rw [← ho] at f1 f2 f3 f4 f5 hp' ⊢
          obtain ⟨o1, o2, o3, o4, o5, o6, o7, o8, o9⟩ := o
          simp only at f1 f2 f3 f4 f5
          subst f1 f2 f3 f4 f5 hp'
          rfl
        · refine ⟨q, by simp [hij, hj], ?_⟩
          simp only [callOn, if_neg hij]
          rfl

/-- **C85 (partial)** As long as the caller writes into no array that a property keeps and makes no two
properties of one array, every property goes through exactly the states that its own calls give by
value: other properties, other arrays and reads by anybody do not matter.  Missing for the full claim:
other sessions, for which it is false (`C85_false_shared`, `C85_false_data`, `C85_false_mask`). -/
theorem C85_independent_partial (ops : List (SessionOp K)) (w : PWorld K) (hw : Separate w)
    (hops : CarefulRun w ops) (j : ℕ) (p : HProp K) (hj : w.props[j]? = some p) :
    ∃ p', (runSession ops w).props[j]? = some p' ∧
      p'.view (runSession ops w).arrays = runProp (callsOn j w ops) (p.view w.arrays) := by
  induction ops generalizing w p with
  | nil => exact ⟨p, hj, rfl⟩
  | cons op ops ih =>
    obtain ⟨h1, h2⟩ := careful_step w hw op hops.1
    obtain ⟨p1, e1, v1⟩ := h2 j p hj
    obtain ⟨p2, e2, v2⟩ := ih (op.exec w) h1 hops.2 p1 e1
    refine ⟨p2, e2, ?_⟩
    show p2.view (runSession ops (op.exec w)).arrays = _
    rw [v2, v1]
    simp [callsOn, runProp, List.foldl_append]

/-- **C85, a new property** A property that is made in a session has the value that the constructor
gives for the value of the array. -/
theorem C85_make (name : PropName) (unit : PropUnit) (r : ℕ) (g : GridParams K) (w w' : PWorld K)
    (h : PWorld.make name unit r g w = (.ok (), w')) :
    ∃ p q, w'.props = w.props ++ [p] ∧ w'.arrays = w.arrays ∧ p.data = r ∧
      GProp.new name unit (.arr (arrayAt w.arrays r)) g = .ok q ∧ p.view w'.arrays = q := by
  unfold PWorld.make at h
  simp only [Meth.get_bind] at h
  cases hn : GProp.new name unit (.arr (arrayAt w.arrays r)) g with
  | error e => rw [hn, Meth.lift_error_bind] at h; cases h
  | ok q =>
    rw [hn, Meth.lift_ok_bind, Meth.modify_apply] at h
    cases h
    refine ⟨_, q, rfl, rfl, rfl, rfl, ?_⟩
    obtain ⟨a, ha, -, -, rfl⟩ := (prop_new_ok_iff _ _ _ _ _).1 hn
    obtain rfl : arrayAt w.arrays r = a := by simpa using ha
    rfl

/-- **C85 is false for shared arrays**: a masked read of one property writes into every other property
made of the same array. -/
theorem C85_false_shared (w : PWorld K) (i j m k : ℕ) (p q : HProp K) (hi : w.props[i]? = some p)
    (hj : w.props[j]? = some q) (hpq : p.data = q.data) (hm : p.mask = some m)
    (hs : (arrayAt w.arrays m).shape = (arrayAt w.arrays p.data).shape)
    (hd : p.data < w.arrays.length) (hk : (arrayAt w.arrays m).toMask.data[k]? = some true)
    (hx : k < (arrayAt w.arrays p.data).data.length) :
    ∃ w', PWorld.getData i (.bool true) w = (.ok p.data, w') ∧ w'.props[j]? = some q ∧
      (q.view w'.arrays).data.data[k]? = some .nan := by
  unfold PWorld.getData
  simp only [Meth.get_bind, hi, show boolean (K := K) (.bool true) = .ok true from rfl,
    Meth.lift_ok_bind, hm]
  rw [if_pos hs]
  refine ⟨_, rfl, hj, ?_⟩
  simp only [HProp.view, ← hpq]
  rw [arrayAt_store, if_pos ⟨rfl, hd⟩]
  exact (putWhere_get _ _ _ _).1 hk hx

/-- **C85 is false for arrays the caller writes into**: the array passed to the constructor and the one
`get_data` returned are the data of the property. -/
theorem C85_false_data (w : PWorld K) (j k : ℕ) (x : XF K) (p : HProp K)
    (hd : p.data < w.arrays.length) (hk : k < (arrayAt w.arrays p.data).data.length)
    (hj : w.props[j]? = some p) :
    (((SessionOp.poke p.data k x).exec w).props[j]? = some p) ∧
      (p.view ((SessionOp.poke p.data k x).exec w).arrays).data.data[k]? = some x := by
  refine ⟨hj, ?_⟩
  simp only [SessionOp.exec, HProp.view]
  rw [arrayAt_store, if_pos ⟨rfl, hd⟩]
  simp [hk]

/-- **C85 is false for masks the caller writes into**: so is the array passed to `set_mask`. -/
theorem C85_false_mask (w : PWorld K) (j k r : ℕ) (p : HProp K) (hr : p.mask = some r)
    (hd : r < w.arrays.length) (hk : k < (arrayAt w.arrays r).data.length)
    (hj : w.props[j]? = some p) :
    (((SessionOp.poke r k (.fin 1)).exec w).props[j]? = some p) ∧
      ∃ m, (p.view ((SessionOp.poke r k (.fin 1)).exec w).arrays).mask = some m ∧
        m.data[k]? = some true := by
  refine ⟨hj, ?_⟩
  simp only [SessionOp.exec, HProp.view, hr, Option.map_some]
  refine ⟨_, rfl, ?_⟩
  rw [arrayAt_store, if_pos ⟨rfl, hd⟩]
  simp [NpArr.toMask, hk]

/-! ## C84 -/

/-- The caller writes into no array. -/
def Spec.HandsOff : SessionOp K → Prop
  | .poke _ _ _ => False
  | _ => True

/-- A property that keeps array `r` has a mask that marks element `k`. -/
def Spec.UnderMask (w : PWorld K) (r k : ℕ) : Prop :=
  ∃ p ∈ w.props, p.data = r ∧ ∃ m, p.mask = some m ∧ (arrayAt w.arrays m).toMask.data[k]? = some true

theorem handsOff_step (w : PWorld K) (op : SessionOp K) (hop : HandsOff op) (r : ℕ)
    (hr : r < w.arrays.length) :
    r < (op.exec w).arrays.length ∧
    (arrayAt (op.exec w).arrays r).dtype = (arrayAt w.arrays r).dtype ∧
    (arrayAt (op.exec w).arrays r).shape = (arrayAt w.arrays r).shape ∧
    ∀ k : ℕ, (arrayAt (op.exec w).arrays r).data[k]? = (arrayAt w.arrays r).data[k]? ∨
      ((arrayAt (op.exec w).arrays r).data[k]? = some .nan ∧ UnderMask w r k) := by
  have same : ∀ w' : PWorld K, w'.arrays = w.arrays → r < w'.arrays.length ∧
      (arrayAt w'.arrays r).dtype = (arrayAt w.arrays r).dtype ∧
      (arrayAt w'.arrays r).shape = (arrayAt w.arrays r).shape ∧
      ∀ k : ℕ, (arrayAt w'.arrays r).data[k]? = (arrayAt w.arrays r).data[k]? ∨
        ((arrayAt w'.arrays r).data[k]? = some .nan ∧ UnderMask w r k) := by
    intro w' e
    rw [e]
    exact ⟨hr, rfl, rfl, fun k => Or.inl rfl⟩
  cases op with
  | alloc a =>
    simp only [SessionOp.exec, List.length_append, List.length_singleton]
    rw [arrayAt_alloc _ _ hr]
    exact ⟨by omega, rfl, rfl, fun k => Or.inl rfl⟩
  | poke r k x => exact hop.elim
  | make name unit r' g =>
    apply same
    simp only [SessionOp.exec, PWorld.make, Meth.get_bind]
    cases GProp.new name unit (.arr (arrayAt w.arrays r')) g <;> rfl
  | setMask i r' =>
    apply same
    simp only [SessionOp.exec]
    rcases heap_setMask i r' w with ⟨p, -, -, -, h⟩ | ⟨⟨e, h⟩, -⟩ <;> rw [h]
  | contrast i a b c d =>
    apply same
    simp only [SessionOp.exec, PWorld.setContrast]
    cases w.props[i]? <;> rfl
  | read i v =>
    simp only [SessionOp.exec]
    rcases heap_getData i v w with ⟨p, m, hp, -, hm, -, h⟩ | ⟨h, -, -⟩
    · rw [h]
      refine ⟨by rw [store_length]; exact hr, (arrayAt_dtype_store _ _ _ _).1,
        (arrayAt_dtype_store _ _ _ _).2, fun k => ?_⟩
      rw [arrayAt_store]
      by_cases e : r = p.data ∧ p.data < w.arrays.length
      · rw [if_pos e]
        obtain ⟨rfl, -⟩ := e
        obtain ⟨g1, g2⟩ := putWhere_get XF.nan (arrayAt w.arrays m).toMask.data
          (arrayAt w.arrays p.data).data k
        by_cases hk : (arrayAt w.arrays m).toMask.data[k]? = some true
        · by_cases hl : k < (arrayAt w.arrays p.data).data.length
          · exact Or.inr ⟨g1 hk hl, p, List.mem_of_getElem? hp, rfl, m, hm, hk⟩
          · left
            rw [List.getElem?_eq_none (not_lt.1 hl),
              List.getElem?_eq_none (by rw [putWhere_length]; exact not_lt.1 hl)]
        · exact Or.inl (g2 hk)
      · rw [if_neg e]
        exact Or.inl rfl
    · exact same _ (by rw [h])

/-- **C84 (partial)** In a session whose caller writes into no array, an array, also one that was handed
out or passed in, keeps its dtype, shape and every element, except that an element becomes NaN which, at
that time, a mask of a property marks that keeps the array.  Missing for the full claim: that nothing
changes, which is false (`C84_false`). -/
theorem C84_arrays_partial (ops : List (SessionOp K)) (hops : ∀ op ∈ ops, HandsOff op) (w : PWorld K)
    (r : ℕ) (hr : r < w.arrays.length) :
    (arrayAt (runSession ops w).arrays r).dtype = (arrayAt w.arrays r).dtype ∧
    (arrayAt (runSession ops w).arrays r).shape = (arrayAt w.arrays r).shape ∧
    ∀ k : ℕ, (arrayAt (runSession ops w).arrays r).data[k]? = (arrayAt w.arrays r).data[k]? ∨
      ((arrayAt (runSession ops w).arrays r).data[k]? = some .nan ∧
        ∃ n, n < ops.length ∧ UnderMask (runSession (ops.take n) w) r k) := by
  induction ops generalizing w with
  | nil => exact ⟨rfl, rfl, fun k => Or.inl rfl⟩
  | cons op ops ih =>
    obtain ⟨s0, s1, s2, s3⟩ := handsOff_step w op (hops op (by simp)) r hr
    obtain ⟨t1, t2, t3⟩ := ih (fun o ho => hops o (by simp [ho])) (op.exec w) s0
    refine ⟨t1.trans s1, t2.trans s2, fun k => ?_⟩
    rcases t3 k with h | ⟨h, n, hn, hu⟩
    · rcases s3 k with h' | ⟨h', hu⟩
      · exact Or.inl (h.trans h')
      · exact Or.inr ⟨h.trans h', 0, by simp, hu⟩
    · exact Or.inr ⟨h, n + 1, by simpa using hn, hu⟩

/-- **C84, arrays that nothing masks** In particular an array that no property keeps as its data, as
for instance a mask, is never changed. -/
theorem C84_kept (ops : List (SessionOp K)) (hops : ∀ op ∈ ops, HandsOff op) (w : PWorld K)
    (r : ℕ) (hr : r < w.arrays.length)
    (h : ∀ n, n < ops.length → ∀ p ∈ (runSession (ops.take n) w).props, p.data ≠ r) :
    arrayAt (runSession ops w).arrays r = arrayAt w.arrays r := by
  obtain ⟨h1, h2, h3⟩ := C84_arrays_partial ops hops w r hr
  have h4 : (arrayAt (runSession ops w).arrays r).data = (arrayAt w.arrays r).data := by
    refine List.ext_getElem? fun k => ?_
    rcases h3 k with e | ⟨-, n, hn, p, hp, e, -⟩
    · exact e
    · exact absurd e (h n hn p hp)
  cases e1 : arrayAt (runSession ops w).arrays r
  cases e2 : arrayAt w.arrays r
  rw [e1, e2] at h1 h2 h4
  simp only at h1 h2 h4
  rw [h1, h2, h4]

/-- **C84, identity** Every read of a property returns the same array, masked or not. -/
theorem C84_same_array (i : ℕ) (v : PyVal K) (w w' : PWorld K) (r : ℕ)
    (h : PWorld.getData i v w = (.ok r, w')) :
    ∃ p, w.props[i]? = some p ∧ r = p.data ∧ w'.props = w.props := by
  rcases heap_getData i v w with ⟨p, m, hp, -, -, -, h'⟩ | ⟨h1, h2, -⟩
  · rw [h] at h'
    cases h'
    exact ⟨p, hp, rfl, rfl⟩
  · rw [h] at h1 h2
    obtain ⟨p, hp, e⟩ := h2 r rfl
    simp only at h1
    exact ⟨p, hp, e, by rw [h1]⟩

/-- **C84 is false**: the array that an unmasked read returned gets NaN in it by a later masked read,
wherever the mask marks it. -/
theorem C84_false (w : PWorld K) (i m k : ℕ) (p : HProp K) (x : XF K) (hi : w.props[i]? = some p)
    (hm : p.mask = some m) (hs : (arrayAt w.arrays m).shape = (arrayAt w.arrays p.data).shape)
    (hd : p.data < w.arrays.length) (hk : (arrayAt w.arrays m).toMask.data[k]? = some true)
    (hx : (arrayAt w.arrays p.data).data[k]? = some x) :
    ∃ r w', PWorld.getData i (.bool false) w = (.ok r, w) ∧ (arrayAt w.arrays r).data[k]? = some x ∧
      PWorld.getData i (.bool true) w = (.ok r, w') ∧ (arrayAt w'.arrays r).data[k]? = some .nan := by
  obtain ⟨w', h1, -, h2⟩ := C85_false_shared w i i m k p p hi hi rfl hm hs hd hk
    (List.getElem?_eq_some_iff.1 hx).1
  refine ⟨p.data, w', ?_, hx, h1, h2⟩
  unfold PWorld.getData
  simp only [Meth.get_bind, hi, show boolean (K := K) (.bool false) = .ok false from rfl,
    Meth.lift_ok_bind]
  rfl

/-! ## A concrete session -/

/-- Two properties of one array, a mask on the first, and a masked read of it. -/
def Spec.session : List (SessionOp ℚ) :=
  [.alloc ⟨"float64", [1, 2, 3], [.fin 1, .fin 2, .nan, .fin 4, .fin 5, .fin 6]⟩,
   .make .tilt .degree 0 (gridOf (.fin 0) (.fin 1) 2 (.fin 0) (.fin 1) 1 (.fin 2) 2),
   .make .inclination .degree 0 (gridOf (.fin 0) (.fin 1) 2 (.fin 0) (.fin 1) 1 (.fin 2) 2),
   .alloc ⟨"bool", [1, 2, 3], [.fin 1, .fin 0, .fin 0, .fin 0, .fin 1, .fin 0]⟩,
   .setMask 0 1, .read 0 (.bool true)]

/-- The second property, which has no mask, has lost two values; the caller's array has, too. -/
example : ((runSession session ⟨[], []⟩).props.map
      fun p => (p.view (runSession session ⟨[], []⟩).arrays).data.data) =
    [[.nan, .fin 2, .nan, .fin 4, .nan, .fin 6], [.nan, .fin 2, .nan, .fin 4, .nan, .fin 6]] ∧
    (arrayAt (runSession session ⟨[], []⟩).arrays 0).data =
      [.nan, .fin 2, .nan, .fin 4, .nan, .fin 6] := by
  decide +kernel

/-- Non-vacuity of `C85_independent_partial`: a careful session in which two properties of two arrays
share a mask. -/
example : CarefulRun (⟨[], []⟩ : PWorld ℚ)
    [.alloc ⟨"float64", [1, 2, 3], [.fin 1, .fin 2, .nan, .fin 4, .fin 5, .fin 6]⟩,
     .make .tilt .degree 0 (gridOf (.fin 0) (.fin 1) 2 (.fin 0) (.fin 1) 1 (.fin 2) 2),
     .alloc ⟨"float64", [1, 2, 3], [.fin 1, .fin 2, .nan, .fin 4, .fin 5, .fin 6]⟩,
     .make .inclination .degree 1 (gridOf (.fin 0) (.fin 1) 2 (.fin 0) (.fin 1) 1 (.fin 2) 2),
     .alloc ⟨"bool", [1, 2, 3], [.fin 1, .fin 0, .fin 0, .fin 0, .fin 1, .fin 0]⟩,
     .setMask 0 2, .setMask 1 2, .read 0 (.bool true)] := by
  have h : ((runSession [.alloc ⟨"float64", [1, 2, 3], [.fin 1, .fin 2, .nan, .fin 4, .fin 5, .fin 6]⟩,
     .make .tilt .degree 0 (gridOf (.fin 0) (.fin 1) 2 (.fin 0) (.fin 1) 1 (.fin 2) 2),
     .alloc ⟨"float64", [1, 2, 3], [.fin 1, .fin 2, .nan, .fin 4, .fin 5, .fin 6]⟩]
     (⟨[], []⟩ : PWorld ℚ)).props.map (·.data)) = [0] := by decide +kernel
  refine ⟨trivial, by simp [Careful, SessionOp.exec], trivial, ?_, trivial, trivial, trivial, trivial,
    trivial⟩
  intro p hp e
  have : p.data ∈ [0] := by
    rw [← h]
    exact List.mem_map_of_mem hp
  rw [← e] at this
  simp at this

example : Separate (⟨[], []⟩ : PWorld ℚ) := ⟨by simp, by simp, by simp⟩

end Beyonce
