import Verif.Props.GridHeap

/-!
# The methods by reference against the methods by value
-/

set_option linter.unusedSectionVars false

namespace Beyonce
open Spec

section
variable {K : Type} [Field K] [LinearOrder K] [IsStrictOrderedRing K]

/-! ## Later -/

theorem nan_refl (l : List (XF K)) : List.Forall₂ (fun x y => y = x ∨ y = .nan) l l := by
  induction l with
  | nil => exact .nil
  | cons x l ih => exact .cons (.inl rfl) ih

theorem nan_trans {a b c : List (XF K)} (h1 : List.Forall₂ (fun x y => y = x ∨ y = .nan) a b)
    (h2 : List.Forall₂ (fun x y => y = x ∨ y = .nan) b c) :
    List.Forall₂ (fun x y => y = x ∨ y = .nan) a c := by
  induction h1 generalizing c with
  | nil => cases h2; exact .nil
  | cons h _ ih =>
    cases h2 with
    | cons h' h2 =>
      refine .cons ?_ (ih h2)
      rcases h' with h' | h'
      · rw [h']; exact h
      · exact .inr h'

theorem nan_putWhere (m : List Bool) (l : List (XF K)) :
    List.Forall₂ (fun x y => y = x ∨ y = .nan) l (putWhere .nan m l) := by
  induction l generalizing m with
  | nil => cases m <;> exact .nil
  | cons x l ih =>
    cases m with
    | nil => exact nan_refl _
    | cons b m =>
      refine .cons ?_ (ih m)
      cases b
      · exact .inl rfl
      · exact .inr rfl

theorem nan_set (i : ℕ) (l : List (XF K)) :
    List.Forall₂ (fun x y => y = x ∨ y = .nan) l (l.set i .nan) := by
  induction l generalizing i with
  | nil => exact .nil
  | cons x l ih =>
    cases i with
    | zero => exact .cons (.inr rfl) (nan_refl _)
    | succ i => exact .cons (.inl rfl) (ih i)

theorem later_pre : Pre (Later (K := K)) where
  refl w := ⟨le_rfl, fun _ _ _ => rfl, fun _ _ => ⟨rfl, rfl, nan_refl _⟩,
    fun a r h => .inr ⟨a, h⟩, fun _ _ _ => rfl⟩
  trans {u v w} h1 h2 := by
    refine ⟨h1.size.trans h2.size, ?_, ?_, ?_, ?_⟩
    · intro r hr hn
      rw [h2.kept r (hr.trans_le h1.size), h1.kept r hr hn]
      intro a ha
      rcases h1.fresh a r ha with h | ⟨b, hb⟩
      · exact absurd hr (not_lt.2 h)
      · exact hn b hb
    · intro r hr
      obtain ⟨a1, a2, a3⟩ := h1.nan r hr
      obtain ⟨b1, b2, b3⟩ := h2.nan r (hr.trans_le h1.size)
      exact ⟨b1.trans a1, b2.trans a2, nan_trans a3 b3⟩
    · intro a r ha
      rcases h2.fresh a r ha with h | ⟨b, hb⟩
      · exact .inl (h1.size.trans h)
      · exact h1.fresh b r hb
    · intro c h h'
      rw [h2.cubes c h h', h1.cubes c h h']

/-! ## Refinement -/

/-- Both results are errors of the same type, or both are values in a relation. -/
inductive Same {α β : Type} (R : α → β → Prop) : Except Err α → Except Err β → Prop
  | ok {x y} : R x y → Same R (.ok x) (.ok y)
  | error (e) : Same R (.error e) (.error e)

/-- From this world on, the method by reference does what the method by value does. -/
structure Refines {α β : Type} (P : GWorld K → GWorld K → Prop) (R : GWorld K → α → β → Prop)
    (mh : Meth (GWorld K) α) (mv : Meth (Shallot K) β) (w : GWorld K) : Prop where
  apart : Apart (mh w).2
  view : (mh w).2.view = (mv w.view).2
  later : P w (mh w).2
  result : Same (R (mh w).2) (mh w).1 (mv w.view).1

variable {α β γ δ : Type} {P : GWorld K → GWorld K → Prop} {R : GWorld K → α → β → Prop}
  {S : GWorld K → γ → δ → Prop}

theorem Refines.bind (hP : Pre P) {mh : Meth (GWorld K) α} {mv : Meth (Shallot K) β} {w : GWorld K}
    {fh : α → Meth (GWorld K) γ} {fv : β → Meth (Shallot K) δ} (h1 : Refines P R mh mv w)
    (h2 : ∀ x y w', Apart w' → P w w' → R w' x y → Refines P S (fh x) (fv y) w') :
    Refines P S (mh >>= fh) (mv >>= fv) w := by
  obtain ⟨a1, a2, a3, a4⟩ := h1
  have e1 := Meth.bind_apply mh fh w
  have e2 := Meth.bind_apply mv fv w.view
  generalize mh w = p at *
  generalize mv w.view = q at *
  obtain ⟨x, w'⟩ := p
  obtain ⟨y, s'⟩ := q
  simp only at a1 a2 a3 a4
  subst a2
  cases a4 with
  | error e =>
    refine ⟨?_, ?_, ?_, ?_⟩
    · rw [e1]; exact a1
    · rw [e1, e2]
    · rw [e1]; exact a3
    · rw [e1, e2]; exact .error e
  | ok h =>
    obtain ⟨b1, b2, b3, b4⟩ := h2 _ _ w' a1 a3 h
    refine ⟨?_, ?_, ?_, ?_⟩
    · rw [e1]; exact b1
    · rw [e1, e2]; exact b2
    · rw [e1]; exact hP.trans a3 b3
    · rw [e1, e2]; exact b4

theorem Refines.mono {Q : GWorld K → GWorld K → Prop} {R' : GWorld K → α → β → Prop}
    {mh : Meth (GWorld K) α} {mv : Meth (Shallot K) β} {w : GWorld K} (h : Refines P R mh mv w)
    (hQ : ∀ w', P w w' → Q w w') (hR : ∀ w' x y, P w w' → R w' x y → R' w' x y) :
    Refines Q R' mh mv w := by
  obtain ⟨a1, a2, a3, a4⟩ := h
  refine ⟨a1, a2, hQ _ a3, ?_⟩
  generalize (mh w).1 = x at a4
  generalize (mv w.view).1 = y at a4
  cases a4 with
  | ok h => exact .ok (hR _ _ _ a3 h)
  | error e => exact .error e

theorem Refines.then_pure {R' : GWorld K → γ → β → Prop} {mh : Meth (GWorld K) α}
    {mv : Meth (Shallot K) β} {w : GWorld K} {x : γ} (h : Refines P R mh mv w)
    (hR : ∀ w' y z, R w' z y → R' w' x y) : Refines P R' (mh >>= fun _ => pure x) mv w := by
  obtain ⟨a1, a2, a3, a4⟩ := h
  have e1 := Meth.bind_apply mh (fun _ => (Pure.pure x : Meth (GWorld K) γ)) w
  generalize mh w = p at *
  obtain ⟨u, w'⟩ := p
  simp only at a1 a2 a3 a4
  cases hu : u with
  | error e =>
    subst hu
    refine ⟨by rw [e1]; exact a1, by rw [e1]; exact a2, by rw [e1]; exact a3, ?_⟩
    rw [e1]
    generalize (mv w.view).1 = y at a4
    cases a4
    exact .error e
  | ok v =>
    subst hu
    refine ⟨by rw [e1]; exact a1, by rw [e1]; exact a2, by rw [e1]; exact a3, ?_⟩
    rw [e1]
    generalize (mv w.view).1 = y at a4
    cases a4 with
    | ok h => exact .ok (hR _ _ _ h)

theorem Refines.pure (hP : Pre P) {w : GWorld K} (hw : Apart w) (x : α) (y : β) (h : R w x y) :
    Refines P R (pure x) (pure y) w := ⟨hw, rfl, hP.refl w, .ok h⟩

theorem Refines.throw (hP : Pre P) {w : GWorld K} (hw : Apart w) (e : Err) :
    Refines P R (Meth.throw e) (Meth.throw e) w := ⟨hw, rfl, hP.refl w, .error e⟩

theorem Refines.lift (hP : Pre P) {w : GWorld K} (hw : Apart w) (e : Except Err α)
    (R : GWorld K → α → α → Prop) (h : ∀ x, e = .ok x → R w x x) :
    Refines P R (Meth.lift e) (Meth.lift e) w := by
  refine ⟨hw, rfl, hP.refl w, ?_⟩
  show Same _ e e
  cases e with
  | ok x => exact .ok (h x rfl)
  | error e => exact .error e

theorem Refines.lift_bind (hP : Pre P) {w : GWorld K} (hw : Apart w) (e : Except Err α)
    {fh : α → Meth (GWorld K) γ} {fv : α → Meth (Shallot K) δ}
    (h : ∀ x, e = .ok x → Refines P S (fh x) (fv x) w) :
    Refines P S (Meth.lift e >>= fh) (Meth.lift e >>= fv) w := by
  cases e with
  | ok x => exact h x rfl
  | error e => exact ⟨hw, rfl, hP.refl w, .error e⟩

theorem Refines.self_bind {w : GWorld K} {fh : Shallot K → Meth (GWorld K) γ}
    {fv : Shallot K → Meth (Shallot K) δ} (h : Refines P S (fh w.view) (fv w.view) w) :
    Refines P S (GWorld.self >>= fh) (Meth.get >>= fv) w := ⟨h.apart, h.view, h.later, h.result⟩

theorem Refines.get_bind {w : GWorld K} {fh : GWorld K → Meth (GWorld K) γ}
    {mv : Meth (Shallot K) δ} (h : Refines P S (fh w) mv w) :
    Refines P S (Meth.get >>= fh) mv w := ⟨h.apart, h.view, h.later, h.result⟩

theorem Refines.read_bind {w : GWorld K} {r : ℕ} {fh : Nd K → Meth (GWorld K) γ}
    {mv : Meth (Shallot K) δ} (h : Refines P S (fh (ndAt w.arrays r)) mv w) :
    Refines P S (GWorld.read r >>= fh) mv w := ⟨h.apart, h.view, h.later, h.result⟩

/-! ## Writing into the data of a slot -/

theorem store_apart {w : GWorld K} (hw : Apart w) (r : ℕ) (d : List (XF K)) :
    Apart { w with arrays := storeData w.arrays r d } := by
  refine ⟨fun a r' h => ?_, hw.inj⟩
  show r' < (storeData w.arrays r d).length
  rw [store_length]
  exact hw.bound a r' h

theorem store_later {w : GWorld K} {a : Slot} {p : HProp K} (ha : w.grid.slot a = some p)
    (d : List (XF K))
    (hd : List.Forall₂ (fun x y => y = x ∨ y = .nan) (arrayAt w.arrays p.data).data d) :
    Later w { w with arrays := storeData w.arrays p.data d } := by
  have href : w.grid.ref (a, false) = some p.data := by simp only [HGrid.ref, ha, Option.map_some]
  refine ⟨(store_length _ _ _).ge, ?_, ?_, fun a r h => .inr ⟨a, h⟩, fun _ _ _ => rfl⟩
  · intro r _ hn
    rw [arrayAt_store, if_neg]
    rintro ⟨rfl, -⟩
    exact hn a href
  · intro r _
    obtain ⟨h1, h2⟩ := arrayAt_dtype_store w.arrays p.data r d
    refine ⟨h1, h2, ?_⟩
    simp only [arrayAt_store]
    split_ifs with h
    · rw [h.1]; exact hd
    · exact nan_refl _

/-- What a read of the slot `a` gives and leaves: the reference of its data, and changes only there. -/
structure Reads (w : GWorld K) (a : Slot) (w' : GWorld K) (r : ℕ) (d : Nd K) : Prop where
  grid : w'.grid = w.grid
  others : ∀ r', r' ≠ r → arrayAt w'.arrays r' = arrayAt w.arrays r'
  size : w'.arrays.length = w.arrays.length
  slot : ∃ p, w.grid.slot a = some p ∧ p.data = r
  value : ndAt w'.arrays r = d

theorem ndAt_store {w : GWorld K} (hw : Apart w) {a : Slot} {p : HProp K}
    (ha : w.grid.slot a = some p) (d : List (XF K)) :
    ndAt (storeData w.arrays p.data d) p.data = ⟨(arrayAt w.arrays p.data).shape, d⟩ := by
  have hb := hw.bound (a, false) p.data (by simp only [HGrid.ref, ha, Option.map_some])
  unfold ndAt
  rw [arrayAt_store, if_pos ⟨rfl, hb⟩]

theorem reads_store {w : GWorld K} (hw : Apart w) {a : Slot} {p : HProp K}
    (ha : w.grid.slot a = some p) (d : List (XF K)) :
    Reads w a { w with arrays := storeData w.arrays p.data d } p.data
      ⟨(arrayAt w.arrays p.data).shape, d⟩ := by
  refine ⟨rfl, ?_, store_length _ _ _, ⟨p, ha, rfl⟩, ndAt_store hw ha d⟩
  intro r' hr
  rw [arrayAt_store, if_neg]
  rintro ⟨h, -⟩
  exact hr h

theorem reads_refl {w : GWorld K} {a : Slot} {p : HProp K} (ha : w.grid.slot a = some p) :
    Reads w a w p.data (ndAt w.arrays p.data) :=
  ⟨rfl, fun _ _ => rfl, rfl, ⟨p, ha, rfl⟩, rfl⟩

theorem world_slot {w : GWorld K} {a : Slot} {p : HProp K} (ha : w.grid.slot a = some p) :
    w.view.slot a = some (p.view w.arrays) := by
  unfold GWorld.view
  rw [view_slot, ha, Option.map_some]

/-- A method by reference that writes `d` into a slot refines one by value that does so. -/
theorem store_refines {w : GWorld K} (hw : Apart w) {a : Slot} {p : HProp K}
    (ha : w.grid.slot a = some p) (d : List (XF K))
    (hd : List.Forall₂ (fun x y => y = x ∨ y = .nan) (arrayAt w.arrays p.data).data d)
    {mh : Meth (GWorld K) α} {m : Meth (GProp K) β} {x : α} {y : β}
    (hmh : mh w = (.ok x, { w with arrays := storeData w.arrays p.data d }))
    (hm : m (p.view w.arrays) =
      (.ok y, { p.view w.arrays with data := ⟨(arrayAt w.arrays p.data).shape, d⟩ }))
    (hR : R { w with arrays := storeData w.arrays p.data d } x y) :
    Refines Later R mh (Shallot.onSlot m a) w := by
  have hv : Shallot.onSlot m a w.view = (.ok y, w.grid.view (storeData w.arrays p.data d)) := by
    rw [onSlot_some m a _ _ (world_slot ha), hm, ← view_store hw ha]
  refine ⟨?_, ?_, ?_, ?_⟩
  · rw [hmh]; exact store_apart hw _ _
  · rw [hmh, hv]; rfl
  · rw [hmh]; exact store_later ha d hd
  · rw [hmh, hv]; exact .ok hR

/-- Nothing happens to the grid. -/
theorem idle_refines (hP : Pre P) {w : GWorld K} (hw : Apart w) {a : Slot} {p : HProp K}
    (ha : w.grid.slot a = some p) {mh : Meth (GWorld K) α} {m : Meth (GProp K) β}
    {x : Except Err α} {y : Except Err β}
    (hmh : mh w = (x, w)) (hm : m (p.view w.arrays) = (y, p.view w.arrays)) (hR : Same (R w) x y) :
    Refines P R mh (Shallot.onSlot m a) w := by
  have hv : Shallot.onSlot m a w.view = (y, w.view) := by
    rw [onSlot_some m a _ _ (world_slot ha), hm, setSlot_self a _ _ (world_slot ha)]
  refine ⟨?_, ?_, ?_, ?_⟩
  · rw [hmh]; exact hw
  · rw [hmh, hv]
  · rw [hmh]; exact hP.refl w
  · rw [hmh, hv]; exact hR

/-- `a[m] = np.nan` on the array of a slot. -/
theorem putNan_refines {w : GWorld K} (hw : Apart w) {a : Slot} {p : HProp K}
    (ha : w.grid.slot a = some p) (m : Mask) :
    Refines Later (fun w' _ d => Reads w a w' p.data d) (GWorld.putNan p.data m)
      (Shallot.onSlot (Shallot.nanWhere m) a) w := by
  by_cases hs : m.shape = (arrayAt w.arrays p.data).shape
  · refine store_refines hw ha (putWhere .nan m.data (arrayAt w.arrays p.data).data)
      (nan_putWhere _ _) (x := ()) (y := ⟨(arrayAt w.arrays p.data).shape,
        putWhere .nan m.data (arrayAt w.arrays p.data).data⟩) ?_ ?_ (reads_store hw ha _)
    · unfold GWorld.putNan
      rw [if_pos hs]
    · unfold Shallot.nanWhere
      rw [Meth.get_bind]
      rw [if_pos (show m.shape = (p.view w.arrays).data.shape from hs)]
      rfl
  · refine idle_refines later_pre hw ha (x := .error .indexError) (y := .error .indexError) ?_ ?_
      (.error _)
    · unfold GWorld.putNan
      rw [if_neg hs]
    · unfold Shallot.nanWhere
      rw [Meth.get_bind, if_neg (show ¬ m.shape = (p.view w.arrays).data.shape from hs)]
      rfl

/-- `get_data` of the property in a slot. -/
theorem getData_refines {w : GWorld K} (hw : Apart w) {a : Slot} {p : HProp K}
    (ha : w.grid.slot a = some p) (masked : PyVal K) :
    Refines Later (fun w' r d => Reads w a w' r d) (GWorld.getData p masked)
      (Shallot.onSlot (GProp.getData masked) a) w := by
  cases hb : boolean masked with
  | error e =>
    refine idle_refines later_pre hw ha (x := .error e) (y := .error e) ?_ ?_ (.error _)
    · unfold GWorld.getData; rw [hb]; rfl
    · unfold GProp.getData; rw [hb]; rfl
  | ok b =>
    cases b with
    | false =>
      refine idle_refines later_pre hw ha (x := .ok p.data) (y := .ok (ndAt w.arrays p.data)) ?_ ?_
        (.ok (reads_refl ha))
      · unfold GWorld.getData; rw [hb]; rfl
      · unfold GProp.getData; rw [hb]; rfl
    | true =>
      cases hm : p.mask with
      | none =>
        have hm' : (p.view w.arrays).mask = none := by unfold HProp.view; rw [hm]; rfl
        refine idle_refines later_pre hw ha (x := .ok p.data) (y := .ok (ndAt w.arrays p.data)) ?_ ?_
          (.ok (reads_refl ha))
        · unfold GWorld.getData
          simp only [hb, Meth.lift_ok_bind, Meth.get_bind, hm]
          rfl
        · unfold GProp.getData
          simp only [hb, Meth.lift_ok_bind, Meth.get_bind, hm']
          rfl
      | some r =>
        have hm' : (p.view w.arrays).mask = some (arrayAt w.arrays r).toMask := by
          unfold HProp.view; rw [hm]; rfl
        by_cases hs : (arrayAt w.arrays r).toMask.shape = (arrayAt w.arrays p.data).shape
        · refine store_refines hw ha
            (putWhere .nan (arrayAt w.arrays r).toMask.data (arrayAt w.arrays p.data).data)
            (nan_putWhere _ _) (x := p.data) (y := ⟨(arrayAt w.arrays p.data).shape, _⟩) ?_ ?_
            (reads_store hw ha _)
          · unfold GWorld.getData
            simp only [hb, Meth.lift_ok_bind, Meth.get_bind, hm]
            rw [Meth.bind_apply]
            unfold GWorld.putNan
            rw [if_pos hs]
            rfl
          · unfold GProp.getData
            simp only [hb, Meth.lift_ok_bind, Meth.get_bind, hm']
            rw [if_pos (show (arrayAt w.arrays r).toMask.shape = (p.view w.arrays).data.shape from hs)]
            simp only [Meth.modify_bind, Meth.get_bind, Meth.pure_apply, hm']
            rfl
        · refine idle_refines later_pre hw ha (x := .error .indexError) (y := .error .indexError) ?_
            ?_ (.error _)
          · unfold GWorld.getData
            simp only [hb, Meth.lift_ok_bind, Meth.get_bind, hm]
            rw [Meth.bind_apply]
            unfold GWorld.putNan
            rw [if_neg hs]
          · unfold GProp.getData
            simp only [hb, Meth.lift_ok_bind, Meth.get_bind, hm']
            rw [if_neg (show ¬ (arrayAt w.arrays r).toMask.shape = (p.view w.arrays).data.shape from hs)]
            rfl

theorem readCube_refines {w : GWorld K} (hw : Apart w) (c : Cube) (masked : PyVal K) :
    Refines Later (fun w' r d => Reads w (.cube c) w' r d) (GWorld.readCube c masked)
      (Shallot.onProp c (GProp.getData masked)) w := by
  unfold GWorld.readCube
  refine Refines.get_bind ?_
  cases hp : w.grid.prop c with
  | none =>
    have hv : w.view.prop c = none := by
      have := view_slot w.arrays w.grid (.cube c)
      simp only [HGrid.slot, hp, Option.map_none] at this
      exact this
    refine ⟨hw, ?_, later_pre.refl w, ?_⟩
    · unfold Shallot.onProp; rw [hv]; rfl
    · unfold Shallot.onProp; rw [hv]; exact .error _
  | some p => exact getData_refines hw (a := .cube c) hp masked

theorem view_gradient (w : GWorld K) (k : ℕ) :
    (w.view.gradients.getD [])[k]? = (w.grid.gradient k).map (HGrad.view w.arrays) := by
  simp only [GWorld.view, HGrid.view, HGrid.gradient]
  cases w.grid.gradients with
  | none => rfl
  | some l => simp only [Option.map_some, Option.getD_some, List.getElem?_map]

theorem readGradient_refines {w : GWorld K} (hw : Apart w) (k : ℕ) (masked : PyVal K) :
    Refines Later (fun w' r d => Reads w (.gradient k) w' r d) (GWorld.readGradient k masked)
      (Shallot.onGradient k (Shallot.gradientValues.onGradData masked)) w := by
  unfold GWorld.readGradient
  refine Refines.get_bind ?_
  cases hp : w.grid.gradient k with
  | none =>
    have hv := view_gradient w k
    rw [hp, Option.map_none] at hv
    refine ⟨hw, ?_, later_pre.refl w, ?_⟩
    · unfold Shallot.onGradient; rw [hv]; rfl
    · unfold Shallot.onGradient; rw [hv]; exact .error _
  | some g =>
    exact getData_refines hw (a := .gradient k) (p := g.prop)
      (by simp only [HGrid.slot, hp, Option.map_some]) masked

/-! ## Getters -/

theorem Reads.trans {u v w : GWorld K} {a : Slot} {r : ℕ} {d d' : Nd K} (h1 : Reads u a v r d)
    (h2 : Reads v a w r d') : Reads u a w r d' :=
  ⟨h2.grid.trans h1.grid, fun r' hr => (h2.others r' hr).trans (h1.others r' hr),
    h2.size.trans h1.size, h1.slot, h2.value⟩

theorem getCube_refines {w : GWorld K} (hw : Apart w) (c : Cube) (v u : PyVal K) :
    Refines Later (fun w' r d => Reads w (.cube c) w' r d) (GWorld.getCube c v u)
      (Shallot.getCube c v u) w := by
  unfold GWorld.getCube Shallot.getCube
  refine (readCube_refines hw c u).bind later_pre fun r d w' hw' _ hr => ?_
  refine Refines.lift_bind later_pre hw' _ fun b _ => ?_
  cases b with
  | false => exact Refines.pure later_pre hw' _ _ hr
  | true =>
    refine Refines.self_bind (Refines.lift_bind later_pre hw' _ fun m _ => ?_)
    obtain ⟨p, hp, rfl⟩ := hr.slot
    exact (putNan_refines hw' (a := .cube c) (p := p) (by rw [hr.grid]; exact hp) m).then_pure
      fun w2 d2 _ h => hr.trans h

/-! ## Attributes and new arrays -/

theorem setProp_slot (h : HGrid K) (p : HProp K) (c : Cube) (b : Slot) :
    (h.setProp p c).slot b = if b = .cube c then some p else h.slot b := by
  cases b with
  | cube d => cases c <;> cases d <;> rfl
  | gradient k =>
    simp only [reduceCtorEq, if_false]
    cases c <;> rfl

theorem setProp_view (A : List (NpArr K)) (h : HGrid K) (p : HProp K) (c : Cube) :
    (h.setProp p c).view A = (h.view A).setProp (p.view A) c := by
  cases c <;> rfl

theorem setGradient_slot (h : HGrid K) (k : ℕ) (g g0 : HGrad K) (hk : h.gradient k = some g0) (b : Slot) :
    (h.setGradient k g).slot b = if b = .gradient k then some g.prop else h.slot b := by
  cases b with
  | cube d => cases d <;> rfl
  | gradient i =>
    have hl : k < (h.gradients.getD []).length := (List.getElem?_eq_some_iff.1 hk).1
    simp only [HGrid.slot, HGrid.gradient, HGrid.setGradient, Option.getD_some, List.getElem?_set,
      Slot.gradient.injEq]
    by_cases hi : i = k
    · subst hi; simp [hl]
    · simp [hi, Ne.symm hi]

theorem setGradient_view (A : List (NpArr K)) (h : HGrid K) (k : ℕ) (g : HGrad K) :
    (h.setGradient k g).view A = { h.view A with
      gradients := some (((h.view A).gradients.getD []).set k (g.view A)) } := by
  unfold HGrid.view HGrid.setGradient
  cases h.gradients with
  | none => rfl
  | some l => simp only [Option.map_some, Option.getD_some, List.map_set]

/-- The arrays there were are still there. -/
def Grown (w : GWorld K) (A : List (NpArr K)) : Prop :=
  w.arrays.length ≤ A.length ∧ ∀ r < w.arrays.length, arrayAt A r = arrayAt w.arrays r

theorem grown_refl (w : GWorld K) : Grown w w.arrays := ⟨le_rfl, fun _ _ => rfl⟩

theorem grown_append (w : GWorld K) (a : NpArr K) : Grown w (w.arrays ++ [a]) :=
  ⟨by simp, fun _ h => arrayAt_append _ _ h⟩

theorem Grown.view {w : GWorld K} (hw : Apart w) {A : List (NpArr K)} (hA : Grown w A) :
    w.grid.view A = w.view :=
  view_congr _ fun a r h => hA.2 r (hw.bound a r h)

theorem grown_apart {w : GWorld K} (hw : Apart w) {A : List (NpArr K)} (hA : Grown w A) :
    Apart { w with arrays := A } := ⟨fun a r h => (hw.bound a r h).trans_le hA.1, hw.inj⟩

theorem grown_later {w : GWorld K} {A : List (NpArr K)} (hA : Grown w A) :
    Later w { w with arrays := A } :=
  ⟨hA.1, fun r h _ => hA.2 r h, fun r h => by
    show (arrayAt A r).dtype = _ ∧ (arrayAt A r).shape = _ ∧ List.Forall₂ _ _ (arrayAt A r).data
    rw [hA.2 r h]; exact ⟨rfl, rfl, nan_refl _⟩, fun a r h => .inr ⟨a, h⟩, fun _ _ _ => rfl⟩

/-- The references of the new property in slot `a` were its own, or are new. -/
structure Own (w : GWorld K) (A : List (NpArr K)) (a : Slot) (p : HProp K) : Prop where
  data : w.grid.ref (a, false) = some p.data ∨ w.arrays.length ≤ p.data
  dataBound : p.data < A.length
  mask : ∀ r, p.mask = some r → w.grid.ref (a, true) = some r ∨ w.arrays.length ≤ r
  maskBound : ∀ r, p.mask = some r → r < A.length
  apart : p.mask ≠ some p.data

theorem ref_data {h : HGrid K} {a : Slot} {p : HProp K} (ha : h.slot a = some p) :
    h.ref (a, false) = some p.data := by simp only [HGrid.ref, ha, Option.map_some]

theorem ref_mask {h : HGrid K} {a : Slot} {p : HProp K} (ha : h.slot a = some p) :
    h.ref (a, true) = p.mask := by simp only [HGrid.ref, ha, Option.bind_some]

theorem ref_congr {h h' : HGrid K} {a b : Slot} (hs : h.slot a = h'.slot b) (x : Bool) :
    h.ref (a, x) = h'.ref (b, x) := by
  cases x <;> simp only [HGrid.ref, hs]

theorem insert_apart {w : GWorld K} (hw : Apart w) {A : List (NpArr K)} (hA : Grown w A)
    {h' : HGrid K} {a : Slot} {p : HProp K}
    (hs : ∀ b, h'.slot b = if b = a then some p else w.grid.slot b) (ho : Own w A a p) :
    Apart ⟨A, h'⟩ := by
  have ha : h'.slot a = some p := by rw [hs, if_pos rfl]
  have new : ∀ x r, h'.ref (a, x) = some r → w.grid.ref (a, x) = some r ∨ w.arrays.length ≤ r := by
    intro x r h
    cases x with
    | false =>
      rw [ref_data ha] at h
      cases h
      exact ho.data
    | true =>
      rw [ref_mask ha] at h
      exact ho.mask r h
  have old : ∀ b x, b ≠ a → h'.ref (b, x) = w.grid.ref (b, x) := by
    intro b x hb
    exact ref_congr (by rw [hs, if_neg hb]) x
  have cross : ∀ b x y r, b ≠ a → h'.ref (b, x) = some r → h'.ref (a, y) = some r → False := by
    intro b x y r hb h1 h2
    rw [old b x hb] at h1
    rcases new y r h2 with h | h
    · exact hb (congrArg Prod.fst (hw.inj _ _ _ h1 h))
    · exact absurd (hw.bound _ _ h1) (not_lt.2 h)
  refine ⟨?_, ?_⟩
  · rintro ⟨b, x⟩ r h
    by_cases hb : b = a
    · subst hb
      cases x with
      | false =>
        rw [ref_data ha] at h
        cases h
        exact ho.dataBound
      | true =>
        rw [ref_mask ha] at h
        exact ho.maskBound r h
    · rw [old b x hb] at h
      exact (hw.bound _ _ h).trans_le hA.1
  · rintro ⟨b, x⟩ ⟨b', x'⟩ r h h'
    by_cases hb : b = a
    · by_cases hb' : b' = a
      · subst hb
        subst hb'
        cases x <;> cases x'
        · rfl
        · rw [ref_data ha] at h
          rw [ref_mask ha] at h'
          cases h
          exact absurd h' ho.apart
        · rw [ref_data ha] at h'
          rw [ref_mask ha] at h
          cases h'
          exact absurd h ho.apart
        · rfl
      · subst hb
        exact (cross b' x' x r hb' h' h).elim
    · by_cases hb' : b' = a
      · subst hb'
        exact (cross b x x' r hb h h').elim
      · rw [old b x hb] at h
        rw [old b' x' hb'] at h'
        exact hw.inj _ _ _ h h'

theorem insert_later {w : GWorld K} {A : List (NpArr K)} (hA : Grown w A)
    {h' : HGrid K} {a : Slot} {p : HProp K}
    (hs : ∀ b, h'.slot b = if b = a then some p else w.grid.slot b) (ho : Own w A a p)
    (hc : ∀ c, a = .cube c → c = .diagnosticMap ∨ c = .gradientFit ∨
      w.grid.ref (.cube c, false) = some p.data) : Later w ⟨A, h'⟩ := by
  have ha : h'.slot a = some p := by rw [hs, if_pos rfl]
  have old : ∀ b x, b ≠ a → h'.ref (b, x) = w.grid.ref (b, x) := by
    intro b x hb
    exact ref_congr (by rw [hs, if_neg hb]) x
  obtain ⟨g1, g2, g3, -, -⟩ := grown_later hA
  refine ⟨g1, g2, g3, ?_, ?_⟩
  · intro b r h
    by_cases hb : b = a
    · subst hb
      rw [ref_data ha] at h
      cases h
      rcases ho.data with h | h
      · exact .inr ⟨_, h⟩
      · exact .inl h
    · rw [old b _ hb] at h
      exact .inr ⟨b, h⟩
  · intro c h1 h2
    show h'.ref _ = _
    by_cases hb : Slot.cube c = a
    · rcases hc c hb.symm with h | h | h
      · exact absurd h h1
      · exact absurd h h2
      · rw [h, hb, ref_data ha]
    · exact old _ _ hb

/-- Slots only go away or move. -/
theorem embed_apart {w : GWorld K} (hw : Apart w) {h' : HGrid K} (e : Slot → Slot)
    (he : ∀ a b, e a = e b → a = b)
    (hs : ∀ a p, h'.slot a = some p → w.grid.slot (e a) = some p) : Apart { w with grid := h' } := by
  have href : ∀ a x r, h'.ref (a, x) = some r → w.grid.ref (e a, x) = some r := by
    intro a x r h
    cases hp : h'.slot a with
    | none => cases x <;> simp [HGrid.ref, hp] at h
    | some p =>
      rw [← h]
      exact ref_congr (by rw [hs a p hp, hp]) x
  refine ⟨?_, ?_⟩
  · rintro ⟨a, x⟩ r h
    exact hw.bound _ _ (href a x r h)
  · rintro ⟨a, x⟩ ⟨b, y⟩ r h1 h2
    have := hw.inj _ _ _ (href a x r h1) (href b y r h2)
    simp only [Prod.mk.injEq] at this
    rw [he a b this.1, this.2]

theorem embed_later {w : GWorld K} {h' : HGrid K} (e : Slot → Slot)
    (hs : ∀ a p, h'.slot a = some p → w.grid.slot (e a) = some p)
    (hc : ∀ c, c ≠ .diagnosticMap → c ≠ .gradientFit → h'.prop c = w.grid.prop c) :
    Later w { w with grid := h' } := by
  refine ⟨le_rfl, fun _ _ _ => rfl, fun _ _ => ⟨rfl, rfl, nan_refl _⟩, ?_, ?_⟩
  · intro a r h
    right
    refine ⟨e a, ?_⟩
    have h : h'.ref (a, false) = some r := h
    cases hp : h'.slot a with
    | none => simp [HGrid.ref, hp] at h
    | some p => rw [← h]; exact ref_congr (by rw [hs a p hp, hp]) _
  · intro c h1 h2
    exact ref_congr (a := .cube c) (b := .cube c) (hc c h1 h2) false

theorem adjust_refines {w : GWorld K} (hw : Apart w) (f : HGrid K → HGrid K) (g : Shallot K → Shallot K)
    (e : Slot → Slot) (he : ∀ a b, e a = e b → a = b)
    (hs : ∀ a p, (f w.grid).slot a = some p → w.grid.slot (e a) = some p)
    (hc : ∀ c, c ≠ .diagnosticMap → c ≠ .gradientFit → (f w.grid).prop c = w.grid.prop c)
    (hv : (f w.grid).view w.arrays = g w.view) :
    Refines Later (fun _ _ _ => True) (GWorld.adjust f) (Meth.modify g) w :=
  ⟨embed_apart hw e he hs, hv, embed_later e hs hc, .ok trivial⟩

/-- Attributes that are not arrays. -/
theorem plain_refines {w : GWorld K} (hw : Apart w) (f : HGrid K → HGrid K) (g : Shallot K → Shallot K)
    (hs : ∀ a, (f w.grid).slot a = w.grid.slot a)
    (hv : (f w.grid).view w.arrays = g w.view) :
    Refines Later (fun _ _ _ => True) (GWorld.adjust f) (Meth.modify g) w :=
  adjust_refines hw f g id (fun _ _ h => h) (fun a p h => by rw [← h]; exact (hs a).symm)
    (fun c _ _ => hs (.cube c)) hv

theorem resetFit_refines {w : GWorld K} (hw : Apart w) :
    Refines Later (fun _ _ _ => True) GWorld.resetFit Shallot.resetFit w := by
  refine adjust_refines hw _ _ id (fun _ _ h => h) ?_ ?_ rfl
  · intro a p h
    cases a with
    | cube c =>
      cases c
      case gradientFit => simp [HGrid.slot, HGrid.prop] at h
      all_goals exact h
    | gradient k => exact h
  · intro c _ h
    cases c <;> first | rfl | exact absurd rfl h

theorem putNew_refines {w : GWorld K} (hw : Apart w) (c : Cube)
    (hc : c = .diagnosticMap ∨ c = .gradientFit) (name : PropName) (unit : PropUnit) (a : NpArr K)
    (g : GridParams K) :
    Refines Later (fun _ _ _ => True) (GWorld.putNew c name unit a g)
      (do
        let p ← Meth.lift (GProp.new name unit (.arr a) g)
        Meth.modify fun s => s.setProp p c) w := by
  have hA := grown_append w a
  cases hp : GProp.new name unit (.arr a) g with
  | error e =>
    have e1 : GWorld.putNew c name unit a g w = (.error e, { w with arrays := w.arrays ++ [a] }) := by
      unfold GWorld.putNew
      rw [hp]
      rfl
    refine ⟨?_, ?_, ?_, ?_⟩
    · rw [e1]; exact grown_apart hw hA
    · rw [e1]; exact hA.view hw
    · rw [e1]; exact grown_later hA
    · rw [e1]; exact .error e
  | ok q =>
    obtain ⟨b, hb, -, -, hq⟩ := (prop_new_ok_iff _ _ _ _ _).1 hp
    cases hb
    have e1 : GWorld.putNew c name unit a g w = (.ok (), ⟨w.arrays ++ [a], w.grid.setProp
        ⟨name, unit, g, w.arrays.length, none, q.vmin, q.vmax, q.colorMap, q.numColors⟩ c⟩) := by
      unfold GWorld.putNew
      rw [hp]
      rfl
    have ho : Own w (w.arrays ++ [a]) (.cube c)
        ⟨name, unit, g, w.arrays.length, none, q.vmin, q.vmax, q.colorMap, q.numColors⟩ :=
      ⟨.inr le_rfl, by simp, by simp, by simp, by simp⟩
    have hs := setProp_slot w.grid
      ⟨name, unit, g, w.arrays.length, none, q.vmin, q.vmax, q.colorMap, q.numColors⟩ c
    refine ⟨?_, ?_, ?_, ?_⟩
    · rw [e1]; exact insert_apart hw hA hs ho
    · rw [e1]
      show (w.grid.setProp _ c).view (w.arrays ++ [a]) = _
      rw [setProp_view, hA.view hw]
      show _ = w.view.setProp q c
      congr 1
      unfold HProp.view
      rw [arrayAt_last, hq]
      rfl
    · rw [e1]
      refine insert_later hA hs ho fun c' h => ?_
      cases h
      rcases hc with h | h
      · exact .inl h
      · exact .inr (.inl h)
    · rw [e1]; exact .ok trivial

end
end Beyonce
