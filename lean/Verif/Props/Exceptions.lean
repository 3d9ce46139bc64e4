import Verif.Props.Frame
import Verif.Props.Solutions
import Verif.Props.Points

/-!
# Property C133: which exceptions a call raises
-/

set_option linter.unusedSectionVars false

namespace Beyonce
open Spec

/-- On a state with the invariant the method raises only exceptions of these kinds. -/
def Fails {S α : Type} (I : S → Prop) (E : Err → Prop) (m : Meth S α) : Prop :=
  ∀ s, I s → ∀ e, (m s).1 = .error e → E e

section
variable {S α β : Type} {I : S → Prop} {E : Err → Prop}

theorem Fails.pure (a : α) : Fails I E (pure a : Meth S α) := fun _ _ _ h => by cases h

theorem Fails.lift {x : Except Err α} (h : ∀ e, x = .error e → E e) : Fails I E (Meth.lift x : Meth S α) :=
  fun _ _ e he => h e he

theorem Fails.throw {e : Err} (h : E e) : Fails I E (Meth.throw e : Meth S α) :=
  fun _ _ e' he => by cases he; exact h

theorem Fails.get : Fails I E (Meth.get : Meth S S) := fun _ _ _ h => by cases h

theorem Fails.modify (f : S → S) : Fails I E (Meth.modify f : Meth S Unit) := fun _ _ _ h => by cases h

theorem Fails.bind {m : Meth S α} {f : α → Meth S β} (hm : Fails I E m) (hI : Moves (Inv I) m)
    (hf : ∀ a, Fails I E (f a)) : Fails I E (m >>= f) := by
  intro s hs e he
  have h1 := hm s hs
  have h2 := hI s hs
  rw [Meth.bind_apply] at he
  generalize m s = p at he h1 h2
  obtain ⟨e' | a, s'⟩ := p
  · cases he; exact h1 _ rfl
  · exact hf a s' h2 e he

theorem bind_raises {m : Meth S α} {f : α → Meth S β} {s : S} {e : Err} (h : ((m >>= f) s).1 = .error e) :
    (m s).1 = .error e ∨ ∃ a s', m s = (.ok a, s') ∧ (f a s').1 = .error e := by
  rw [Meth.bind_apply] at h
  generalize m s = p at h
  obtain ⟨e' | a, s'⟩ := p
  · cases h; exact Or.inl rfl
  · exact Or.inr ⟨a, s', rfl, h⟩

theorem Fails.then_pure {m : Meth S α} {g : α → β} (hm : Fails I E m) :
    Fails I E (m >>= fun a => (Pure.pure (g a) : Meth S β)) := by
  intro s hs e he
  have h1 := hm s hs
  rw [Meth.bind_apply] at he
  generalize m s = p at he h1
  obtain ⟨e' | a, s'⟩ := p
  · cases he; exact h1 _ rfl
  · cases he

theorem Fails.lift_bind {x : Except Err α} {f : α → Meth S β} (h : ∀ e, x = .error e → E e)
    (hf : ∀ a, x = .ok a → Fails I E (f a)) : Fails I E (Meth.lift x >>= f) := by
  cases x with
  | error e' => intro s hs e he; cases he; exact h _ rfl
  | ok a => exact hf a rfl

theorem Fails.get_bind {f : S → Meth S β} (hf : ∀ s, I s → ∀ e, (f s s).1 = .error e → E e) :
    Fails I E (Meth.get >>= f) := hf

theorem Fails.mono {E' : Err → Prop} {m : Meth S α} (h : Fails I E m) (hE : ∀ e, E e → E' e) : Fails I E' m :=
  fun s hs e he => hE e (h s hs e he)

end

section
variable {K : Type} [Field K] [LinearOrder K] [IsStrictOrderedRing K]

/-! ## The validators -/

theorem classObject_kinds {v : PyVal K} {t : PyType} {e : Err} (h : classObject v t = .error e) : e = .typeError := by
  unfold classObject at h
  split_ifs at h
  cases h
  rfl

theorem boolean_kinds {v : PyVal K} {e : Err} (h : boolean v = .error e) : e = .typeError := by
  cases v <;> cases h <;> rfl

theorem string_kinds {v : PyVal K} {e : Err} (h : string v = .error e) : e = .typeError := by
  cases v <;> cases h <;> rfl

theorem anyType_kinds {v : PyVal K} {l : List PyType} {e : Err} (h : anyType v l = .error e) : e = .typeError := by
  induction l with
  | nil => cases h; rfl
  | cons t l ih =>
    unfold anyType at h
    cases hc : classObject v t with
    | ok w => rw [hc] at h; cases h
    | error e' => rw [hc] at h; exact ih h

theorem numberType_kinds {v w : PyVal K} {e : Err} (h : numberType v w = .error e) : e = .typeError := by
  unfold numberType at h
  cases hb : boolean w with
  | error e' => rw [hb] at h; cases h; exact boolean_kinds hb
  | ok b =>
    rw [hb] at h
    cases b with
    | true => exact anyType_kinds h
    | false =>
      replace h : (if !(integerType v).isOk && !(floatType v).isOk then Except.error Err.typeError else Except.ok v) =
          Except.error e := h
      split_ifs at h
      cases h; rfl

theorem number_kinds {v c lo hi x : PyVal K} {e : Err} (h : number v c lo hi x = .error e) :
    e = .typeError ∨ e = .valueError := by
  unfold number at h
  cases h1 : numberType v c with
  | error e' => rw [h1] at h; cases h; exact Or.inl (numberType_kinds h1)
  | ok w =>
    rw [h1] at h
    replace h : numberBounds w lo hi x = .error e := h
    unfold numberBounds at h
    cases h2 : numberType lo with
    | error e' => rw [h2] at h; cases h; exact Or.inl (numberType_kinds h2)
    | ok _ =>
      cases h3 : numberType hi with
      | error e' => rw [h2, h3] at h; cases h; exact Or.inl (numberType_kinds h3)
      | ok _ =>
        cases h4 : boolean x with
        | error e' => rw [h2, h3, h4] at h; cases h; exact Or.inl (boolean_kinds h4)
        | ok _ =>
          rw [h2, h3, h4] at h
          simp only [bind, Except.bind] at h
          split_ifs at h
          all_goals (cases h; exact Or.inr rfl)

theorem number_returns {v lo hi x w : PyVal K} (h : number v (.bool false) lo hi x = .ok w) : w = v := by
  unfold number at h
  cases h1 : numberType v (.bool false) with
  | error e' => rw [h1] at h; cases h
  | ok u =>
    have hu : u = v := by
      replace h1 : (if !(integerType v).isOk && !(floatType v).isOk then Except.error Err.typeError else Except.ok v) =
          Except.ok u := h1
      split_ifs at h1
      cases h1; rfl
    rw [h1] at h
    replace h : numberBounds u lo hi x = .ok w := h
    unfold numberBounds at h
    cases h2 : numberType lo with
    | error e' => rw [h2] at h; cases h
    | ok _ =>
      cases h3 : numberType hi with
      | error e' => rw [h2, h3] at h; cases h
      | ok _ =>
        cases h4 : boolean x with
        | error e' => rw [h2, h3, h4] at h; cases h
        | ok _ =>
          rw [h2, h3, h4] at h
          simp only [bind, Except.bind] at h
          split_ifs at h
          all_goals (cases h; exact hu)

theorem arrayLike_kinds {v : PyVal K} {e : Err} (h : arrayLike v = .error e) : e = .typeError := by
  cases v <;> cases h <;> rfl

theorem arrayBounds_kinds {a : NpArr K} {lo hi x : PyVal K} {e : Err} (h : arrayBounds a lo hi x = .error e) :
    e = .typeError ∨ e = .valueError := by
  unfold arrayBounds at h
  cases h2 : numberType lo with
  | error e' => rw [h2] at h; cases h; exact Or.inl (numberType_kinds h2)
  | ok _ =>
    cases h3 : numberType hi with
    | error e' => rw [h2, h3] at h; cases h; exact Or.inl (numberType_kinds h3)
    | ok _ =>
      cases h4 : boolean x with
      | error e' => rw [h2, h3, h4] at h; cases h; exact Or.inl (boolean_kinds h4)
      | ok _ =>
        rw [h2, h3, h4] at h
        simp only [bind, Except.bind] at h
        split_ifs at h
        all_goals (cases h; exact Or.inr rfl)

theorem arrayDimensions_kinds {a : NpArr K} {n : PyVal K} {e : Err} (h : arrayDimensions a n = .error e) :
    e = .typeError ∨ e = .invalidDimensionsError := by
  unfold arrayDimensions at h
  cases h2 : numberType n (.bool true) with
  | error e' => rw [h2] at h; cases h; exact Or.inl (numberType_kinds h2)
  | ok _ =>
    rw [h2] at h
    simp only [bind, Except.bind] at h
    split_ifs at h
    cases h; exact Or.inr rfl

theorem arrayType_kinds {a : NpArr K} {d : PyVal K} {e : Err} (h : arrayType a d = .error e) : e = .typeError := by
  unfold arrayType at h
  cases h2 : string d with
  | error e' => rw [h2] at h; cases h; exact string_kinds h2
  | ok _ =>
    rw [h2] at h
    simp only [bind, Except.bind] at h
    split_ifs at h
    cases h; rfl

theorem array_kinds {v lo hi x d n : PyVal K} {e : Err} (h : array v lo hi x d n = .error e) :
    e = .typeError ∨ e = .valueError ∨ e = .invalidDimensionsError := by
  unfold array at h
  cases h1 : arrayLike v with
  | error e' => rw [h1] at h; cases h; exact Or.inl (arrayLike_kinds h1)
  | ok a =>
    rw [h1] at h
    simp only [bind, Except.bind] at h
    cases h2 : arrayBounds a (if lo = .none then .float .ninf else lo) (if hi = .none then .float .pinf else hi) x with
    | error e2 =>
      rw [h2] at h
      cases h3 : arrayDimensions a n with
      | error e3 =>
        cases h4 : arrayType a d with
        | error e4 =>
          rw [h3, h4] at h
          split_ifs at h <;> cases h <;> first
            | (rcases arrayBounds_kinds h2 with k | k <;> simp [k])
            | (rcases arrayDimensions_kinds h3 with k | k <;> simp [k])
            | (have k := arrayType_kinds h4; simp [k])
        | ok _ =>
          rw [h3, h4] at h
          split_ifs at h <;> cases h <;> first
            | (rcases arrayBounds_kinds h2 with k | k <;> simp [k])
            | (rcases arrayDimensions_kinds h3 with k | k <;> simp [k])
      | ok _ =>
        cases h4 : arrayType a d with
        | error e4 =>
          rw [h3, h4] at h
          split_ifs at h <;> cases h <;> first
            | (rcases arrayBounds_kinds h2 with k | k <;> simp [k])
            | (have k := arrayType_kinds h4; simp [k])
        | ok _ =>
          rw [h3, h4] at h
          split_ifs at h <;> cases h <;>
            (rcases arrayBounds_kinds h2 with k | k <;> simp [k])
    | ok _ =>
      rw [h2] at h
      cases h3 : arrayDimensions a n with
      | error e3 =>
        cases h4 : arrayType a d with
        | error e4 =>
          rw [h3, h4] at h
          split_ifs at h <;> cases h <;> first
            | (rcases arrayDimensions_kinds h3 with k | k <;> simp [k])
            | (have k := arrayType_kinds h4; simp [k])
        | ok _ =>
          rw [h3, h4] at h
          split_ifs at h <;> cases h <;>
            (rcases arrayDimensions_kinds h3 with k | k <;> simp [k])
      | ok _ =>
        cases h4 : arrayType a d with
        | error e4 =>
          rw [h3, h4] at h
          split_ifs at h <;> cases h <;>
            (have k := arrayType_kinds h4; simp [k])
        | ok _ =>
          rw [h3, h4] at h
          split_ifs at h

theorem sameShapeLoop_arr (sh : List ℕ) : ∀ (l : List (NpArr K)) (b : Bool),
    ∃ b', sameShapeLoop sh (l.map PyVal.arr) b = .ok b'
  | [], b => ⟨b, rfl⟩
  | a :: l, b => sameShapeLoop_arr sh l (b || decide (a.shape ≠ sh))

theorem sameShape_kinds {l : List (NpArr K)} (hl : 2 ≤ l.length) {e : Err}
    (h : sameShapeArrays (l.map PyVal.arr) l.length = .error e) : e = .invalidShapeError := by
  match l, hl with
  | a :: b :: l, _ =>
    unfold sameShapeArrays at h
    rw [if_neg (by simp), if_neg (by simp)] at h
    obtain ⟨b', hb⟩ := sameShapeLoop_arr a.shape (a :: b :: l) false
    simp only [List.map_cons] at h hb
    have : (PyVal.arr a).shape = .ok a.shape := rfl
    simp only [this, bind, Except.bind, hb] at h
    split_ifs at h
    cases h
    rfl

end

section
variable {K : Type} [Field K] [LinearOrder K] [IsStrictOrderedRing K] [RealFns K] [FloorRing K]

/-! ## Gradients -/

/-- A Python number that is zero: dividing by it raises. -/
def Spec.PyZero (v : PyVal K) : Prop := v = .bool false ∨ v = .int 0 ∨ v = .float (.fin 0)

theorem oneOver_kinds {v : PyVal K} {e : Err} (h : oneOver v = .error e) : e = .zeroDivisionError ∧ PyZero v := by
  unfold oneOver at h
  cases v with
  | bool b =>
    simp only at h
    split_ifs at h with hz
    cases h
    cases b
    · exact ⟨rfl, Or.inl rfl⟩
    · simp [PyVal.num, XF.eqb] at hz
  | int n =>
    simp only at h
    split_ifs at h with hz
    cases h
    simp only [PyVal.num, XF.eqb, decide_eq_true_eq, Int.cast_eq_zero] at hz
    exact ⟨rfl, Or.inr (Or.inl (by rw [hz]))⟩
  | float x =>
    simp only at h
    split_ifs at h with hz
    cases h
    cases x <;> simp [PyVal.num, XF.eqb] at hz
    exact ⟨rfl, Or.inr (Or.inr (by rw [hz]))⟩
  | _ => cases h

theorem needNumber_kinds {v : Option (PyVal K)} {e : Err} (h : needNumber v = .error e) : e = .typeError := by
  cases v <;> cases h; rfl

theorem scaled_kinds {g : GGrad K} {e : Err} (h : g.scaled = .error e) : e = .typeError ∨ e = .valueError ∨
    (e = .zeroDivisionError ∧ ∃ t, g.transmission = some t ∧ PyZero t) := by
  unfold GGrad.scaled at h
  cases hm : g.measured with
  | none => rw [hm] at h; cases h
  | some m =>
    cases ht : g.transmission with
    | none => rw [hm, ht] at h; cases h; exact Or.inl rfl
    | some t =>
      rw [hm, ht] at h
      simp only [needNumber, bind, Except.bind] at h
      cases ho : oneOver t with
      | error e' =>
        rw [ho] at h; cases h
        exact Or.inr (Or.inr ⟨(oneOver_kinds ho).1, t, rfl, (oneOver_kinds ho).2⟩)
      | ok q =>
        rw [ho] at h
        cases hb : g.orbital with
        | none => rw [hb] at h; cases h; exact Or.inl rfl
        | some o =>
          rw [hb] at h
          simp only at h
          split_ifs at h
          cases h
          exact Or.inr (Or.inl rfl)

theorem operand_kinds {v : Option (PyVal K)} {e : Err} (h : Shallot.operand v = .error e) : e = .typeError := by
  cases v with
  | none => cases h; rfl
  | some v =>
    simp only [Shallot.operand, needNumber, bind, Except.bind] at h
    split_ifs at h
    cases h; rfl

theorem orbital_kinds {s : Shallot K} {e : Err} (h : s.orbital = .error e) :
    e = .typeError ∨ e = .zeroDivisionError := by
  unfold Shallot.orbital at h
  cases hu : Shallot.operand s.limb with
  | error e' => rw [hu] at h; cases h; exact Or.inl (operand_kinds hu)
  | ok u =>
    rw [hu] at h
    simp only [bind, Except.bind] at h
    split_ifs at h
    · cases h; exact Or.inr rfl
    · cases hv : Shallot.operand s.velocity with
      | error e' => rw [hv] at h; cases h; exact Or.inl (operand_kinds hv)
      | ok v =>
        rw [hv] at h
        simp only at h
        split_ifs at h
        all_goals (cases h; exact Or.inr rfl)

theorem determineMask_kinds {vm vo vt ve : PyVal K} {g : GGrad K} {e : Err}
    (h : (GGrad.determineMask vm vo vt ve g).1 = .error e) :
    e = .typeError ∨ e = .valueError ∨ (e = .zeroDivisionError ∧ PyZero vt) := by
  have tv : ∀ {e : Err}, e = .typeError ∨ e = .valueError →
      e = .typeError ∨ e = .valueError ∨ (e = .zeroDivisionError ∧ PyZero vt) := fun h => h.imp id Or.inl
  unfold GGrad.determineMask at h
  cases h1 : number vm (.bool false) (.int 0) with
  | error e' => rw [h1] at h; cases h; exact tv (number_kinds h1)
  | ok m =>
    rw [h1, Meth.lift_ok_bind, Meth.modify_bind] at h
    cases h2 : number vo (.bool false) (.int 0) with
    | error e' => rw [h2] at h; cases h; exact tv (number_kinds h2)
    | ok o =>
      rw [h2, Meth.lift_ok_bind, Meth.modify_bind] at h
      cases h3 : number (if vt = .none then .int 1 else vt) (.bool false) (.int 0) (.int 1) with
      | error e' => rw [h3] at h; cases h; exact tv (number_kinds h3)
      | ok t =>
        rw [h3, Meth.lift_ok_bind, Meth.modify_bind] at h
        cases h4 : number (if ve = .none then .int 1 else ve) (.bool false) (.float (.fin 0)) with
        | error e' => rw [h4] at h; cases h; exact tv (number_kinds h4)
        | ok er =>
          rw [h4, Meth.lift_ok_bind, Meth.modify_bind, Meth.get_bind] at h
          generalize hg : (⟨g.prop, g.position, some m, some er, some o, some t⟩ : GGrad K) = g' at h
          have ht : g'.transmission = some t := by rw [← hg]
          have hme : g'.measured = some m := by rw [← hg]
          cases h5 : g'.scaled with
          | error e' =>
            rw [h5] at h; cases h
            rcases scaled_kinds h5 with k | k | ⟨k, t', k1, k2⟩
            · exact Or.inl k
            · exact Or.inr (Or.inl k)
            · refine Or.inr (Or.inr ⟨k, ?_⟩)
              rw [ht] at k1
              cases k1
              rw [number_returns h3] at k2
              split_ifs at k2 with hn
              · rcases k2 with k2 | k2 | k2 <;> simp at k2
              · exact k2
          | ok r =>
            rw [h5, Meth.lift_ok_bind] at h
            cases r with
            | none => cases h; exact Or.inl rfl
            | some r => cases h

/-! ## The methods -/

/-- All arrays have the shape of the grid, there is a diagnostic map and, if `f`, a fit. -/
def Stands (f : Prop) (s : Shallot K) : Prop :=
  Sound s ∧ s.diagnosticMap ≠ none ∧ (f → s.gradientFit ≠ none)

theorem stands_of {α : Type} {f : Prop} {m : Meth (Shallot K) α} (h1 : Moves (Inv Sound) m)
    (h2 : Moves (SamePart (.mask .diagnosticMap)) m) (h3 : Moves (SamePart (.mask .gradientFit)) m) :
    Moves (Inv (Stands f)) m := by
  rintro s ⟨k1, k2, k3⟩
  have key : ∀ x y : Option (GProp K), y.map (·.mask) = x.map (·.mask) → x ≠ none → y ≠ none := by
    rintro (_ | x) (_ | y) h hx
    · exact hx
    · simp
    · cases h
    · simp
  exact ⟨h1 s k1, key _ _ (h2 s) k2, fun hf => key _ _ (h3 s) (k3 hf)⟩

theorem onProp_fails {α : Type} {I : Shallot K → Prop} {E : Err → Prop} (c : Cube) (m : Meth (GProp K) α)
    (h1 : ∀ s, I s → s.prop c = none → E .attributeError)
    (h2 : ∀ s, I s → ∀ p, s.prop c = some p → ∀ e, (m p).1 = .error e → E e) : Fails I E (Shallot.onProp c m) := by
  intro s hs e he
  unfold Shallot.onProp at he
  cases h : s.prop c with
  | none => rw [h] at he; cases he; exact h1 s hs h
  | some p => rw [h] at he; exact h2 s hs p h e he

theorem getData_kinds {a b c : ℕ} {p : GProp K} (hp : InShape a b c p) {w : PyVal K} {e : Err}
    (h : (GProp.getData w p).1 = .error e) : e = .typeError := by
  cases hb : boolean w with
  | error e' =>
    unfold GProp.getData at h
    rw [hb] at h
    cases h
    exact boolean_kinds hb
  | ok b =>
    obtain rfl : w = .bool b := by
      cases w <;> simp_all [boolean, classObject, isinstance, bind, Except.bind]
    cases b with
    | true =>
      obtain ⟨d, h1, -⟩ := getData_true p hp
      rw [h1] at h
      cases h
    | false =>
      rw [C30_unmasked_read p false (Or.inl rfl)] at h
      cases h

theorem prop_none {f : Prop} {s : Shallot K} (hs : Stands f s) {c : Cube} (h : s.prop c = none) :
    c = .gradientFit ∧ ¬ f := by
  cases c with
  | diagnosticMap => exact absurd h hs.2.1
  | gradientFit => exact ⟨rfl, fun hf => hs.2.2 hf h⟩
  | _ => cases h

theorem getCube_stands (f : Prop) (c : Cube) (v w : PyVal K) : Moves (Inv (Stands f)) (Shallot.getCube c v w) :=
  stands_of (getCube_sound c v w) (same_getCube _ c v w (fun k => by cases k))
    (same_getCube _ c v w (fun k => by cases k))

theorem getCube_fails (f : Prop) (c : Cube) (v w : PyVal K) : Fails (Stands f)
    (fun e => e = .typeError ∨ (e = .attributeError ∧ c = .gradientFit ∧ ¬ f)) (Shallot.getCube c v w) := by
  unfold Shallot.getCube
  refine Fails.bind (onProp_fails c _ (fun s hs h => Or.inr ⟨rfl, prop_none hs h⟩)
    fun s hs p hp e he => Or.inl (getData_kinds (hs.1.props c p hp) he)) ?_ fun d => ?_
  · exact stands_of (onProp_sound c _ (getData_shape w))
      (same_onProp _ c _ (fun k => by cases k) (fun _ p => (getData_parts w p).2.1) (fun k => by cases k))
      (same_onProp _ c _ (fun k => by cases k) (fun _ p => (getData_parts w p).2.1) (fun k => by cases k))
  · refine Fails.lift_bind (fun e he => Or.inl (boolean_kinds he)) fun b _ => ?_
    cases b with
    | false => exact Fails.pure _
    | true =>
      refine Fails.get_bind fun s hs e he => ?_
      obtain ⟨m, hm, hsh, -⟩ := C38_union s hs.1
      rw [hm, Meth.lift_ok_bind] at he
      unfold Shallot.onProp at he
      cases hp : s.prop c with
      | none => rw [hp] at he; cases he; exact Or.inr ⟨rfl, prop_none hs hp⟩
      | some p =>
        rw [hp] at he
        simp only [Shallot.nanWhere, Meth.get_bind] at he
        rw [if_pos (by rw [hsh, (hs.1.props c p hp).data.1])] at he
        cases he

theorem gridIndex_kinds {v : PyVal K} {n : ℕ} {e : Err} (h : Shallot.gridIndex v n = .error e) :
    e = .typeError ∨ e = .valueError := by
  unfold Shallot.gridIndex at h
  cases h1 : number v (.bool true) (.int 0) (.int n) with
  | error e' => rw [h1] at h; cases h; exact number_kinds h1
  | ok i =>
    rw [h1] at h
    cases i <;> cases h
    exact Or.inl rfl

theorem get3_kinds {d : Nd K} {y x r : ℤ} {e : Err} (h : d.get3 y x r = .error e) : e = .indexError := by
  unfold Nd.get3 at h
  split at h
  · split_ifs at h
    cases h; rfl
  · cases h; rfl

theorem vectorAt_kinds {l : List (XF K)} {i : ℤ} {e : Err} (h : Shallot.vectorAt l i = .error e) : e = .indexError := by
  unfold Shallot.vectorAt at h
  cases h1 : l[i.toNat]? with
  | none => rw [h1] at h; cases h; rfl
  | some x => rw [h1] at h; cases h

theorem onGradData_stands (f : Prop) (k : ℕ) (v : PyVal K) :
    Moves (Inv (Stands f)) (Shallot.onGradient k (Shallot.gradientValues.onGradData v)) := by
  refine stands_of (onGradient_sound k _ fun a b c g hg => getData_shape v a b c g.prop hg) ?_ ?_
  · exact same_onGradient (.mask .diagnosticMap) k _ (by simp) (by simp) (by simp) (by simp) (by simp)
  · exact same_onGradient (.mask .gradientFit) k _ (by simp) (by simp) (by simp) (by simp) (by simp)

theorem gridPoint_fails (f : Prop) (y x r v : PyVal K) : Fails (Stands f)
    (fun e => e = .typeError ∨ e = .valueError ∨ e = .indexError) (Shallot.gridPoint y x r v) := by
  have look : ∀ c, c ≠ .gradientFit → ∀ i j k, Fails (Stands f)
      (fun e => e = .typeError ∨ e = .valueError ∨ e = .indexError) (Shallot.lookup c v i j k) := by
    intro c hc i j k
    unfold Shallot.lookup
    refine Fails.bind ((getCube_fails f c v _).mono ?_) (getCube_stands f c v _) fun d =>
      Fails.lift fun e he => Or.inr (Or.inr (get3_kinds he))
    rintro e (h | ⟨-, h, -⟩)
    · exact Or.inl h
    · exact absurd h hc
  have move : ∀ c i j k, Moves (Inv (Stands f)) (Shallot.lookup c v i j k) := by
    intro c i j k
    unfold Shallot.lookup
    exact Moves.bind (Inv.pre _) (getCube_stands f c v _) fun d => Moves.lift (Inv.pre _) _
  have loop : ∀ i j k n m, Fails (Stands f)
      (fun e => e = .typeError ∨ e = .valueError ∨ e = .indexError) (Shallot.gradientValues v i j k n m) := by
    intro i j k n
    induction n with
    | zero =>
      intro m
      unfold Shallot.gradientValues
      exact Fails.pure _
    | succ n ih =>
      intro m
      unfold Shallot.gradientValues
      refine Fails.bind Fails.get (Moves.get (Inv.pre _)) fun s => Fails.bind ?_ (onGradData_stands f m v) fun d =>
        Fails.lift_bind (fun e he => Or.inr (Or.inr (get3_kinds he))) fun x _ => Fails.then_pure (ih _)
      intro s hs e he
      unfold Shallot.onGradient at he
      cases hk : (s.gradients.getD [])[m]? with
      | none => rw [hk] at he; cases he; exact Or.inr (Or.inr rfl)
      | some g =>
        rw [hk] at he
        exact Or.inl (getData_kinds (sound_getD hs.1 g (List.mem_of_getElem? hk)) he)
  have I := Inv.pre (Stands (K := K) f)
  have tv : ∀ {v : PyVal K} {n : ℕ} (e : Err), Shallot.gridIndex v n = .error e →
      e = .typeError ∨ e = .valueError ∨ e = .indexError := fun e h => (gridIndex_kinds h).imp id Or.inl
  have va : ∀ {l : List (XF K)} {i : ℤ} (e : Err), Shallot.vectorAt l i = .error e →
      e = .typeError ∨ e = .valueError ∨ e = .indexError := fun e h => Or.inr (Or.inr (vectorAt_kinds h))
  unfold Shallot.gridPoint
  refine Fails.bind Fails.get (Moves.get I) fun s => Fails.lift_bind tv fun y _ => Fails.lift_bind tv fun x _ =>
    Fails.lift_bind tv fun r _ => Fails.bind (look _ (by decide) _ _ _) (move _ _ _ _) fun _ =>
    Fails.bind (look _ (by decide) _ _ _) (move _ _ _ _) fun _ =>
    Fails.bind (look _ (by decide) _ _ _) (move _ _ _ _) fun _ =>
    Fails.lift_bind va fun _ _ => Fails.lift_bind va fun _ _ => Fails.lift_bind va fun _ _ =>
    Fails.bind (look _ (by decide) _ _ _) (move _ _ _ _) fun _ =>
    Fails.bind (look _ (by decide) _ _ _) (move _ _ _ _) fun _ =>
    Fails.bind (look _ (by decide) _ _ _) (move _ _ _ _) fun _ => Fails.then_pure ?_
  unfold Shallot.gradientsAt
  refine Fails.bind Fails.get (Moves.get I) fun s => ?_
  cases s.gradients with
  | none => exact Fails.pure _
  | some l => exact Fails.then_pure (loop _ _ _ _ _)

theorem nanargmin_kinds {l : List (XF K)} {e : Err} (h : nanargmin l = .error e) : e = .valueError := by
  unfold nanargmin at h
  split_ifs at h
  cases h; rfl

theorem closestOf_kinds {g : GridParams K} {D : Nd K} {e : Err} (h : Shallot.closestOf g D = .error e) :
    e = .valueError := by
  unfold Shallot.closestOf at h
  cases hn : nanargmin D.data with
  | error e' => rw [hn] at h; cases h; exact nanargmin_kinds hn
  | ok i => rw [hn] at h; cases h

theorem closest_fails (f : Prop) (r i t b v : PyVal K) : Fails (Stands f)
    (fun e => e = .typeError ∨ e = .valueError) (Shallot.closestPoint r i t b v) := by
  have I := Inv.pre (Stands (K := K) f)
  have cube : ∀ c, c ≠ .gradientFit → ∀ v w : PyVal K, Fails (Stands f) (fun e => e = .typeError ∨ e = .valueError)
      (Shallot.getCube c v w) := by
    intro c hc v w
    refine (getCube_fails f c v w).mono ?_
    rintro e (h | ⟨-, h, -⟩)
    · exact Or.inl h
    · exact absurd h hc
  unfold Shallot.closestPoint
  refine Fails.lift_bind (fun e => number_kinds) fun _ _ => Fails.lift_bind (fun e => number_kinds) fun _ _ =>
    Fails.lift_bind (fun e => number_kinds) fun _ _ => Fails.lift_bind (fun e => number_kinds) fun _ _ =>
    Fails.lift_bind (fun e h => Or.inl (boolean_kinds h)) fun _ _ =>
    Fails.bind (cube _ (by decide) _ _) (getCube_stands f _ _ _) fun _ =>
    Fails.bind (cube _ (by decide) _ _) (getCube_stands f _ _ _) fun _ =>
    Fails.bind (cube _ (by decide) _ _) (getCube_stands f _ _ _) fun _ =>
    Fails.bind Fails.get (Moves.get I) fun s => Fails.lift fun e he => Or.inr (closestOf_kinds he)

theorem hill_fails (f : Prop) (v : PyVal K) : Fails (Stands f) (fun e => e = .typeError ∨ e = .valueError)
    (Shallot.hillMask v) := by
  unfold Shallot.hillMask
  refine Fails.lift_bind (fun e => number_kinds) fun h _ => Fails.get_bind fun s _ e he => ?_
  unfold Shallot.onProp at he
  simp only [Shallot.prop] at he
  rcases setMask_cases (.arr ⟨"bool", s.diskRadius.data.shape,
    s.diskRadius.data.data.map fun x => .fin (if Shallot.hillAt h.num x = true then 1 else 0)⟩)
    s.diskRadius with ⟨a, -, -, -, e2⟩ | ⟨-, hno⟩
  · rw [e2] at he; cases he
  · exact absurd ⟨_, rfl, rfl, rfl⟩ hno

theorem diagnose_fails : Fails (fun _ : Shallot K => True) (fun _ => False) (Shallot.diagnose (K := K)) := by
  unfold Shallot.diagnose
  refine Fails.get_bind fun s _ e he => ?_
  rw [(prop_new_ok_iff _ _ _ _ _).2 ⟨_, rfl, rfl, rfl, rfl⟩] at he
  cases he

/-- An exception of the validators. -/
def Spec.Validation (e : Err) : Prop :=
  e = .typeError ∨ e = .valueError ∨ e = .invalidDimensionsError ∨ e = .invalidShapeError

theorem array_valid {v lo hi x d n : PyVal K} (e : Err) (h : array v lo hi x d n = .error e) : Validation e := by
  rcases array_kinds h with h | h | h <;> simp [Validation, h]

theorem shapes_valid {l : List (PyVal K)} {n : ℕ} (as : List (NpArr K)) (hl : l = as.map PyVal.arr)
    (hn : n = as.length) (h2 : 2 ≤ as.length) (e : Err) (h : sameShapeArrays l n = .error e) : Validation e := by
  subst hl hn
  simp [Validation, sameShape_kinds h2 h]

theorem measureLoop_fails (scale : PyVal K) (ms : List (XF K × XF K × XF K)) : ∀ k,
    Fails (fun _ => True) (fun e => e = .typeError ∨ e = .valueError) (Shallot.measureLoop scale k ms) := by
  induction ms with
  | nil =>
    intro k
    unfold Shallot.measureLoop
    exact Fails.pure _
  | cons q ms ih =>
    intro k
    obtain ⟨m, e, t⟩ := q
    unfold Shallot.measureLoop
    refine Fails.get_bind fun s _ => ?_
    by_cases hk : k < (s.gradients.getD []).length
    · rw [if_pos hk]
      intro e' he
      rcases bind_raises he with h1 | ⟨-, s', -, h2⟩
      · unfold Shallot.onGradient at h1
        rw [List.getElem?_eq_getElem hk] at h1
        rcases determineMask_kinds h1 with h | h | ⟨-, h⟩
        · exact Or.inl h
        · exact Or.inr h
        · rcases h with h | h | h <;> cases h
      · exact ih _ s' trivial e' h2
    · rw [if_neg hk]
      intro e' he
      cases he

/-- The velocity is a Python zero, or the denominator of the limb darkening factor, `12 − 12 u + 3 π u`, is 0. -/
def Spec.NoOrbit (s : Shallot K) : Prop :=
  (∃ v, s.velocity = some v ∧ PyZero v) ∨
    ∃ u, s.limb = some u ∧ ((XF.fin 12).sub ((XF.fin 12).mul u.num)).add (((XF.fin 3).mul XF.pi).mul u.num) = .fin 0

theorem python_zero {v : PyVal K} (h1 : Shallot.isPython v = true) (h2 : XF.eqb v.num (.fin 0) = true) : PyZero v := by
  cases v with
  | bool b => cases b <;> simp_all [PyZero, PyVal.num, XF.eqb]
  | int n => simp_all [PyZero, PyVal.num, XF.eqb]
  | float x => cases x <;> simp_all [PyZero, PyVal.num, XF.eqb]
  | _ => cases h1

theorem operand_value {v : Option (PyVal K)} {w : PyVal K} (h : Shallot.operand v = .ok w) : v = some w := by
  cases v with
  | none => cases h
  | some v =>
    simp only [Shallot.operand, needNumber, bind, Except.bind] at h
    split_ifs at h
    cases h; rfl

theorem orbital_zero {s : Shallot K} (h : s.orbital = .error .zeroDivisionError) : NoOrbit s := by
  unfold Shallot.orbital at h
  cases hu : Shallot.operand s.limb with
  | error e' => rw [hu] at h; cases h; cases operand_kinds hu
  | ok u =>
    rw [hu] at h
    simp only [bind, Except.bind] at h
    by_cases hd : (Shallot.isPython u && XF.eqb (Shallot.limbDenominator u.num) (.fin 0)) = true
    · rw [Bool.and_eq_true] at hd
      refine Or.inr ⟨u, operand_value hu, ?_⟩
      have hd := hd.2
      unfold Shallot.limbDenominator at hd
      generalize ((XF.fin 12).sub ((XF.fin 12).mul u.num)).add (((XF.fin 3).mul XF.pi).mul u.num) = x at hd ⊢
      cases x <;> simp_all [XF.eqb]
    · rw [if_neg hd] at h
      cases hv : Shallot.operand s.velocity with
      | error e' => rw [hv] at h; cases h; cases operand_kinds hv
      | ok v =>
        rw [hv] at h
        simp only at h
        by_cases hz : (Shallot.isPython v && XF.eqb v.num (.fin 0)) = true
        · rw [Bool.and_eq_true] at hz
          exact Or.inl ⟨v, operand_value hv, python_zero hz.1 hz.2⟩
        · rw [if_neg hz] at h
          cases h

theorem orbital_fails {s : Shallot K} {e : Err} (h : s.orbital = .error e) :
    e = .typeError ∨ (e = .zeroDivisionError ∧ NoOrbit s) := by
  rcases orbital_kinds h with rfl | rfl
  · exact Or.inl rfl
  · exact Or.inr ⟨rfl, orbital_zero h⟩

theorem add_fails (z : Prop) (t l e r : PyVal K) : Fails (fun s => z → ¬ NoOrbit s)
    (fun x => Validation x ∨ (x = .zeroDivisionError ∧ ¬ z)) (Shallot.addGradients t l e r) := by
  unfold Shallot.addGradients
  refine Fails.get_bind fun s hs => ?_
  by_cases hr : s.ready = true
  swap
  · rw [if_neg hr]
    intro x hx
    cases hx
  rw [if_pos hr]
  refine (?_ : Fails (fun s => z → ¬ NoOrbit s) _ _) s hs
  refine Fails.lift_bind (fun e h => Or.inl (array_valid e h)) fun times _ =>
    Fails.lift_bind (fun e h => Or.inl (array_valid e h)) fun lc _ =>
    Fails.lift_bind (fun e h => Or.inl (shapes_valid [times, lc] rfl rfl (by simp) e h)) fun _ _ =>
    Fails.lift_bind (fun e h => Or.inl (Or.inl (needNumber_kinds h))) fun d _ =>
    Fails.bind ?_ ?_ fun _ => ?_
  · unfold Shallot.determineDiskGradients
    refine Fails.lift_bind (fun e h => Or.inl (array_valid e h)) fun a _ => ?_
    intro s _ e he
    rw [Meth.modify_bind, appendGradients_eq _ _ _ rfl] at he
    cases he
  · unfold Shallot.determineDiskGradients
    refine Moves.bind (Inv.pre _) (Moves.lift (Inv.pre _) _) fun a => ?_
    intro s hs
    rw [Meth.modify_bind, appendGradients_eq _ _ _ rfl]
    exact hs
  · unfold Shallot.setMeasured
    intro s hs x hx
    rcases bind_raises hx with hx | ⟨-, s', -, hx⟩
    swap
    · cases hx
    revert hx
    refine (Fails.lift_bind (fun e h => Or.inl (array_valid e h)) fun er _ =>
      Fails.lift_bind (fun e h => Or.inl (array_valid e h)) fun tr' _ =>
      Fails.lift_bind (fun e h => Or.inl (shapes_valid [lc, er, tr'] rfl rfl (by simp) e h)) fun _ _ =>
      Fails.get_bind fun s hs => ?_ : Fails (fun s => z → ¬ NoOrbit s)
        (fun x => Validation x ∨ (x = .zeroDivisionError ∧ ¬ z)) _) s hs x
    intro e he
    rcases bind_raises he with h | ⟨scale, s', -, h⟩
    · rcases orbital_fails h with h | ⟨h, h'⟩
      · exact Or.inl (Or.inl h)
      · exact Or.inr ⟨h, fun hz => hs hz h'⟩
    · exact Or.inl ((measureLoop_fails _ _ _ s' trivial e h).imp id Or.inl)

theorem remove_fails (v : PyVal K) : Fails (fun _ => True)
    (fun x => x = .typeError ∨ x = .valueError ∨ x = .invalidDimensionsError ∨ x = .indexError)
    (Shallot.removeGradients v) := by
  have tr : ∀ {α : Type} (m : Meth (Shallot K) α), Moves (Inv fun _ : Shallot K => True) m := fun m s _ => trivial
  have loop : ∀ is : List ℤ, Fails (fun _ : Shallot K => True)
      (fun x => x = .typeError ∨ x = .valueError ∨ x = .invalidDimensionsError ∨ x = .indexError)
      (Shallot.removeLoop is) := by
    intro is
    induction is with
    | nil =>
      unfold Shallot.removeLoop
      exact Fails.pure _
    | cons i is ih =>
      unfold Shallot.removeLoop
      refine Fails.get_bind fun s _ => ?_
      by_cases hb : 0 ≤ i ∧ i < ((s.gradients.getD []).length : ℤ)
      · rw [if_pos hb, bind_ok _ _ _ _ () (Meth.set_apply _ _)]
        exact ih _ trivial
      · rw [if_neg hb]
        intro e he
        cases he
        simp
  unfold Shallot.removeGradients
  refine Fails.bind Fails.get (tr _) fun s => ?_
  cases s.gradients with
  | none => exact Fails.pure _
  | some l =>
    refine Fails.lift_bind (fun e h => ?_) fun a _ => Fails.bind (loop _) (tr _) fun _ => Fails.modify _
    rcases array_kinds h with h | h | h <;> simp [h]

theorem eclipse_fails (d v u : PyVal K) : Fails (fun _ => True) (fun e => e = .typeError ∨ e = .valueError)
    (Shallot.setEclipseParameters d v u) := by
  have tr : ∀ {α : Type} (m : Meth (Shallot K) α), Moves (Inv fun _ : Shallot K => True) m := fun m s _ => trivial
  unfold Shallot.setEclipseParameters
  refine Fails.bind ?_ (tr _) fun _ => Fails.bind Fails.get (tr _) fun s => ?_
  · unfold Shallot.storeEclipse
    exact Fails.lift_bind (fun e => number_kinds) fun _ _ => Fails.bind (Fails.modify _) (tr _) fun _ =>
      Fails.lift_bind (fun e => number_kinds) fun _ _ => Fails.bind (Fails.modify _) (tr _) fun _ =>
      Fails.lift_bind (fun e => number_kinds) fun _ _ => Fails.modify _
  · cases s.gradients with
    | none => exact Fails.pure _
    | some l => exact Fails.bind (Fails.modify _) (tr _) fun _ => Fails.modify _

theorem update_fails (v u t : PyVal K) : Fails (fun _ => True)
    (fun x => Validation x ∨ x = .zeroDivisionError) (Shallot.updateScaling v u t) := by
  have tr : ∀ {α : Type} (m : Meth (Shallot K) α), Moves (Inv fun _ : Shallot K => True) m := fun m s _ => trivial
  have loop : ∀ (b : Bool) (ts : Option (List (XF K))) (n k : ℕ), Fails (fun _ : Shallot K => True)
      (fun x => Validation x ∨ x = .zeroDivisionError) (Shallot.rescaleLoop b ts n k) := by
    intro b ts n
    induction n with
    | zero =>
      intro k
      unfold Shallot.rescaleLoop
      exact Fails.pure _
    | succ n ih =>
      intro k
      unfold Shallot.rescaleLoop
      refine Fails.get_bind fun s _ => ?_
      cases hk : (s.gradients.getD [])[k]? with
      | none =>
        intro e he
        cases he
      | some g =>
        simp only
        cases hsc : (if b = true then s.orbital else .ok (Shallot.argOf g.orbital)) with
        | error e' =>
          intro e he
          cases he
          split_ifs at hsc
          exact (orbital_kinds hsc).imp (fun h => Or.inl h) id
        | ok scale =>
          rw [Meth.lift_ok_bind]
          intro e he
          rcases bind_raises he with h1 | ⟨-, s', -, h2⟩
          · unfold Shallot.onGradient at h1
            rw [hk] at h1
            rcases determineMask_kinds h1 with h | h | ⟨h, -⟩ <;> simp [Validation, h]
          · exact ih _ s' trivial e h2
  unfold Shallot.updateScaling
  refine Fails.bind (Fails.modify _) (tr _) fun _ => Fails.bind Fails.get (tr _) fun s =>
    Fails.lift_bind (fun e h => ?_) fun ts _ => ?_
  · unfold Shallot.newTransmissions at h
    split_ifs at h
    cases ha : array t (.int (-1)) (.int 1) (.bool false) (.str "float64") (.int 1) with
    | error e' => rw [ha] at h; cases h; exact Or.inl (array_valid _ ha)
    | ok a =>
      rw [ha] at h
      simp only [bind, Except.bind] at h
      cases hb : sameShapeArrays [.arr a, .arr ⟨"object", s.gradientsShape, []⟩] 2 with
      | error e' =>
        rw [hb] at h; cases h
        exact Or.inl (shapes_valid [a, ⟨"object", s.gradientsShape, []⟩] rfl rfl (by simp) _ hb)
      | ok _ => rw [hb] at h; cases h
  · split_ifs
    · exact Fails.pure _
    · cases s.gradients with
      | none => exact Fails.throw (Or.inl (Or.inl rfl))
      | some l => exact Fails.bind (loop _ _ _ _) (tr _) fun _ => Fails.modify _

/-- Some gradient has a transmission change that is a Python zero. -/
def Spec.ZeroChange (s : Shallot K) : Prop :=
  ∃ l g t, s.gradients = some l ∧ g ∈ l ∧ g.transmission = some t ∧ PyZero t

theorem fitLoop_kinds (w : Bool) : ∀ (gs : List (GGrad K)) (acc : List (XF K)) (e : Err),
    Shallot.fitLoop w gs acc = .error e → e = .typeError ∨ e = .valueError ∨
      (e = .zeroDivisionError ∧ ∃ g ∈ gs, ∃ t, g.transmission = some t ∧ PyZero t)
  | [], acc, e, h => by cases h
  | g :: gs, acc, e, h => by
    unfold Shallot.fitLoop at h
    cases h1 : Shallot.fitWeight w g with
    | error e' =>
      rw [h1] at h
      cases h
      unfold Shallot.fitWeight at h1
      split_ifs at h1
      cases h2 : needNumber g.error with
      | error e' => rw [h2] at h1; cases h1; exact Or.inl (needNumber_kinds h2)
      | ok _ => rw [h2] at h1; cases h1
    | ok x =>
      rw [h1] at h
      simp only [bind, Except.bind] at h
      cases h2 : Shallot.fitScaled g with
      | error e' =>
        rw [h2] at h
        cases h
        unfold Shallot.fitScaled at h2
        cases h3 : g.scaled with
        | error e' =>
          rw [h3] at h2; cases h2
          rcases scaled_kinds h3 with k | k | ⟨k, t, k1, k2⟩
          · exact Or.inl k
          · exact Or.inr (Or.inl k)
          · exact Or.inr (Or.inr ⟨k, g, by simp, t, k1, k2⟩)
        | ok r =>
          rw [h3] at h2
          cases r <;> cases h2
          exact Or.inl rfl
      | ok y =>
        rw [h2] at h
        rcases fitLoop_kinds w gs _ e h with k | k | ⟨k, g', k0, t, k1, k2⟩
        · exact Or.inl k
        · exact Or.inr (Or.inl k)
        · exact Or.inr (Or.inr ⟨k, g', by simp [k0], t, k1, k2⟩)

theorem fit_fails (w : Bool) (s : Shallot K) (e : Err) (h : (Shallot.determineFit w s).1 = .error e) :
    e = .typeError ∨ e = .valueError ∨ (e = .zeroDivisionError ∧ ZeroChange s) := by
  rcases determineFit_cases w s with ⟨-, k⟩ | ⟨gs, hg, ⟨e', k, k'⟩ | ⟨p, data, -, -, -, k⟩⟩
  · rw [k] at h; cases h
  · rw [k] at h
    cases h
    rcases fitLoop_kinds w gs _ _ k' with k | k | ⟨k, g', k0, t, k1, k2⟩
    · exact Or.inl k
    · exact Or.inr (Or.inl k)
    · exact Or.inr (Or.inr ⟨k, gs, g', t, hg, k0, k1, k2⟩)
  · rw [k] at h; cases h

/-- All arrays have the shape of the grid and, if `z`, no transmission change is a Python zero. -/
def Divides (z : Prop) (s : Shallot K) : Prop :=
  Sound s ∧ (z → ∀ g ∈ s.gradients.getD [], ∀ t, g.transmission = some t → ¬ PyZero t)

theorem onGradData_divides (z : Prop) (k : ℕ) (v : PyVal K) :
    Moves (Inv (Divides z)) (Shallot.onGradient k (Shallot.gradientValues.onGradData v)) := by
  rintro s ⟨h1, h2⟩
  refine ⟨onGradient_sound k _ (fun a b c g hg => getData_shape v a b c g.prop hg) s h1, fun hz g hg t ht => ?_⟩
  have h3 : SamePart .measurements s (Shallot.onGradient k (Shallot.gradientValues.onGradData v) s).2 :=
    same_onGradient .measurements k _ (by simp) (by simp) (by simp) (fun _ g => rfl) (by simp) s
  cases hl' : (Shallot.onGradient k (Shallot.gradientValues.onGradData v) s).2.gradients with
  | none => rw [hl'] at hg; cases hg
  | some l' =>
    simp only [SamePart, hl'] at h3
    cases hl : s.gradients with
    | none => rw [hl] at h3; cases h3
    | some l =>
      rw [hl', Option.getD_some] at hg
      rw [hl, Option.map_some, Option.map_some, Option.some.injEq] at h3
      have := List.mem_map_of_mem (f := fun g : GGrad K => (g.measured, g.error, g.orbital, g.transmission)) hg
      rw [h3] at this
      obtain ⟨g', hg', he⟩ := List.mem_map.1 this
      refine h2 hz g' (by rw [hl]; exact hg') t ?_
      have : g'.transmission = g.transmission := congrArg (fun q => q.2.2.2) he
      rw [this, ht]

theorem getGradients_fails (z : Prop) (v w : PyVal K) : Fails (Divides z)
    (fun e => e = .typeError ∨ e = .valueError ∨ (e = .zeroDivisionError ∧ ¬ z)) (Shallot.getGradients v w) := by
  have loop : ∀ m n k, Fails (Divides z) (fun e => e = .typeError ∨ e = .valueError ∨
      (e = .zeroDivisionError ∧ ¬ z)) (Shallot.gradientLoop (K := K) m w n k) := by
    intro m n
    induction n with
    | zero =>
      intro k
      unfold Shallot.gradientLoop
      exact Fails.pure _
    | succ n ih =>
      intro k
      unfold Shallot.gradientLoop
      refine Fails.get_bind fun s hs => ?_
      cases hk : (s.gradients.getD [])[k]? with
      | none =>
        intro e he
        cases he
      | some g =>
        intro e he
        rcases bind_raises he with he | ⟨x, t, ht, he⟩
        · rcases scaled_kinds he with h | h | ⟨h, t, h1, h2⟩
          · exact Or.inl h
          · exact Or.inr (Or.inl h)
          · exact Or.inr (Or.inr ⟨h, fun hz => hs.2 hz g (List.mem_of_getElem? hk) t h1 h2⟩)
        · obtain rfl : s = t := congrArg Prod.snd ht
          rcases bind_raises he with h | ⟨d, s', h, h2⟩
          · unfold Shallot.onGradient at h
            rw [hk] at h
            exact Or.inl (getData_kinds (sound_getD hs.1 g (List.mem_of_getElem? hk)) h)
          · have hs' : Divides z s' := by
              have := onGradData_divides z k w s hs
              rw [h] at this
              exact this
            exact Fails.then_pure (ih (k + 1)) s' hs' e h2
  unfold Shallot.getGradients
  refine Fails.get_bind fun s hs => ?_
  cases hg : s.gradients with
  | none =>
    intro e he
    cases he
    exact Or.inl rfl
  | some l =>
    refine (Fails.lift_bind (fun e he => Or.inl (boolean_kinds he)) fun b _ =>
      Fails.lift_bind (fun e he => ?_) fun m _ => loop m _ _ : Fails (Divides z) _ _) s hs
    unfold Shallot.maskOrNot at he
    split_ifs at he
    obtain ⟨m, hm, -⟩ := C38_union s hs.1
    rw [hm] at he
    cases he

theorem solution_fails (f : Prop) : Fails (Stands f) (fun e => e = .valueError ∨ (e = .attributeError ∧ ¬ f))
    (Shallot.solution (K := K)) := by
  unfold Shallot.solution
  refine Fails.get_bind fun s hs => ?_
  cases hf : s.gradientFit with
  | none =>
    intro e he
    cases he
    exact Or.inr ⟨rfl, fun h => hs.2.2 h hf⟩
  | some p =>
    simp only
    cases hi : nanargmin p.data.data with
    | error e' =>
      intro e he
      cases he
      exact Or.inl (nanargmin_kinds hi)
    | ok i =>
      rw [Meth.lift_ok_bind]
      have hlt : i < s.params.gridShape.1 * s.params.gridShape.2.1 * s.params.gridShape.2.2 := by
        rw [← (hs.1.props .gradientFit p hf).data.2]
        exact (nanargmin_ok _ _ hi).1
      obtain ⟨hy, hx, hr, -⟩ := unravel_spec hlt
      obtain ⟨pt, s', h1, -, h3, -⟩ := C74_point s hs.1 hs.2.1 false _ _ _ _ _ _ (.np .w64 _) (.np .w64 _) (.np .w64 _)
        hy hx hr
      intro e he
      simp only [bind_ok _ _ _ _ _ h1] at he
      rcases bind_raises he with h | ⟨-, s2, -, h⟩
      · unfold Shallot.onProp at h
        have : s'.prop .gradientFit = some p := h3.trans hf
        rw [this] at h
        cases h
      · cases h

theorem extract_fails (f : Prop) (n : PyVal K) : Fails (Stands f)
    (fun e => e = .typeError ∨ e = .valueError ∨ (e = .attributeError ∧ ¬ f)) (Shallot.extractSolutions n) := by
  have loop : ∀ n, Fails (Stands f) (fun e => e = .typeError ∨ e = .valueError ∨ (e = .attributeError ∧ ¬ f))
      (Shallot.solutionLoop (K := K) n) := by
    intro n
    induction n with
    | zero =>
      unfold Shallot.solutionLoop
      exact Fails.pure _
    | succ n ih =>
      unfold Shallot.solutionLoop
      refine Fails.bind ((solution_fails f).mono fun e h => Or.inr h) ?_ fun _ => Fails.then_pure ih
      exact stands_of solution_sound (same_solution _ (by simp)) (same_solution _ (by simp))
  unfold Shallot.extractSolutions
  refine Fails.get_bind fun s hs => ?_
  obtain ⟨m, hm, -⟩ := C38_union s hs.1
  rw [hm, Meth.lift_ok_bind]
  refine (Fails.lift_bind (fun e he => ?_) fun k _ => Fails.bind ?_ ?_ fun _ => loop k : Fails (Stands f) _ _) s hs
  · unfold Shallot.solutionCount at he
    dsimp only at he
    cases hn : number (if n = .none then PyVal.npInt .w64 ((m.data.filter fun b => !b).length : ℕ) else n) (.bool true)
      (.int 0) (.npInt .w64 ((m.data.filter fun b => !b).length : ℕ)) with
    | error e' =>
      rw [hn] at he; cases he
      exact (number_kinds hn).imp id Or.inl
    | ok _ => rw [hn] at he; cases he
  · unfold Shallot.getGradientFit
    refine Fails.bind Fails.get (Moves.get (Inv.pre _)) fun s => ?_
    split_ifs
    · exact Fails.pure _
    · refine Fails.then_pure ((getCube_fails f _ _ _).mono ?_)
      rintro e (h | ⟨h, -, h'⟩)
      · exact Or.inl h
      · exact Or.inr (Or.inr ⟨h, h'⟩)
  · unfold Shallot.getGradientFit
    refine Moves.bind (Inv.pre _) (Moves.get (Inv.pre _)) fun s => ?_
    split_ifs
    · exact Moves.pure (Inv.pre _) _
    · exact Moves.bind (Inv.pre _) (getCube_stands f _ _ _) fun _ => Moves.pure (Inv.pre _) _

/-! ## C133 -/

/-- The exception of a call. -/
def GridOp.raised : GridOp K → Shallot K → Option Err
  | .get c v w, s => failure (Shallot.getCube c v w s).1
  | .getFit v w, s => failure (Shallot.getGradientFit v w s).1
  | .getGradients v w, s => failure (Shallot.getGradients v w s).1
  | .point y x r v, s => failure (Shallot.gridPoint y x r v s).1
  | .closest a b c d v, s => failure (Shallot.closestPoint a b c d v s).1
  | .hill h, s => failure (Shallot.hillMask h s).1
  | .diagnose, s => failure (Shallot.diagnose s).1
  | .add a b c d, s => failure (Shallot.addGradients a b c d s).1
  | .remove v, s => failure (Shallot.removeGradients v s).1
  | .eclipse a b c, s => failure (Shallot.setEclipseParameters a b c s).1
  | .update a b c, s => failure (Shallot.updateScaling a b c s).1
  | .fit w, s => failure (Shallot.determineFit w s).1
  | .extract n, s => failure (Shallot.extractSolutions n s).1
where
  /-- The exception of an outcome, if it is one. -/
  failure {α : Type} : Except Err α → Option Err
    | .ok _ => none
    | .error e => some e

/-- What a call may raise, and when. -/
def Spec.CanRaise : GridOp K → Shallot K → Err → Prop
  | .get c _ _, s, e => e = .typeError ∨ (e = .attributeError ∧ c = .gradientFit ∧ s.gradientFit = none)
  | .getFit _ _, _, e => e = .typeError
  | .getGradients _ _, s, e => e = .typeError ∨ e = .valueError ∨ (e = .zeroDivisionError ∧ ZeroChange s)
  | .point _ _ _ _, _, e => e = .typeError ∨ e = .valueError ∨ e = .indexError
  | .closest _ _ _ _ _, _, e | .hill _, _, e | .eclipse _ _ _, _, e => e = .typeError ∨ e = .valueError
  | .diagnose, _, _ => False
  | .add _ _ _ _, s, e => Validation e ∨ (e = .zeroDivisionError ∧ NoOrbit s)
  | .update _ _ _, _, e => Validation e ∨ e = .zeroDivisionError
  | .remove _, _, e => e = .typeError ∨ e = .valueError ∨ e = .invalidDimensionsError ∨ e = .indexError
  | .fit _, s, e => e = .typeError ∨ e = .valueError ∨ (e = .zeroDivisionError ∧ ZeroChange s)
  | .extract _, s, e => e = .typeError ∨ e = .valueError ∨ (e = .attributeError ∧ s.gradientFit = none)

theorem failure_some {α : Type} {x : Except Err α} {e : Err} (h : GridOp.raised.failure x = some e) : x = .error e := by
  cases x <;> cases h; rfl

/-- **C133 (partial)** On a grid with all its arrays each call raises only what the table says. -/
theorem C133_kinds_partial (op : GridOp K) (s : Shallot K) (hs : Sound s) (hd : s.diagnosticMap ≠ none) (e : Err)
    (h : op.raised s = some e) : CanRaise op s e := by
  have st : Stands (s.gradientFit ≠ none) s := ⟨hs, hd, id⟩
  cases op with
  | get c v w =>
    rcases getCube_fails _ c v w s st e (failure_some h) with h | ⟨h, h1, h2⟩
    · exact Or.inl h
    · exact Or.inr ⟨h, h1, not_not.1 h2⟩
  | getFit v w =>
    have h := failure_some h
    unfold Shallot.getGradientFit at h
    rw [Meth.get_bind] at h
    by_cases hf : s.gradientFit = none
    · rw [if_pos hf] at h
      cases h
    · rw [if_neg hf] at h
      rcases bind_raises h with h | ⟨d, s', -, h⟩
      · rcases getCube_fails _ .gradientFit v w s st e h with h | ⟨-, -, h⟩
        · exact h
        · exact absurd hf h
      · cases h
  | getGradients v w =>
    have hz : Divides (¬ ZeroChange s) s := ⟨hs, fun hz g hg t ht hp => by
      cases hl : s.gradients with
      | none => rw [hl] at hg; cases hg
      | some l =>
        rw [hl] at hg
        exact hz ⟨l, g, t, hl, hg, ht, hp⟩⟩
    exact (getGradients_fails _ v w s hz e (failure_some h)).imp id (Or.imp id fun h => ⟨h.1, not_not.1 h.2⟩)
  | point y x r v => exact gridPoint_fails _ y x r v s st e (failure_some h)
  | closest a b c d v => exact closest_fails _ a b c d v s st e (failure_some h)
  | hill h' => exact hill_fails _ h' s st e (failure_some h)
  | diagnose => exact diagnose_fails s trivial e (failure_some h)
  | add a b c d =>
    exact (add_fails (¬ NoOrbit s) a b c d s id e (failure_some h)).imp id fun h => ⟨h.1, not_not.1 h.2⟩
  | remove v => exact remove_fails v s trivial e (failure_some h)
  | eclipse a b c => exact eclipse_fails a b c s trivial e (failure_some h)
  | update a b c => exact update_fails a b c s trivial e (failure_some h)
  | fit w => exact fit_fails w s e (failure_some h)
  | extract n =>
    exact (extract_fails _ n s st e (failure_some h)).imp id (Or.imp id fun h => ⟨h.1, not_not.1 h.2⟩)

/-- Neither hypothesis is ever lost: whatever is called in whatever order, each call of a history raises only what
the table says of the grid it finds. -/
theorem C133_history (ops : List (GridOp K)) (op : GridOp K) (s : Shallot K) (hs : Sound s)
    (hd : s.diagnosticMap ≠ none) (e : Err) (h : op.raised (runGrid ops s) = some e) :
    CanRaise op (runGrid ops s) e := by
  have key : ∀ (ops : List (GridOp K)) (s : Shallot K), s.diagnosticMap ≠ none →
      (runGrid ops s).diagnosticMap ≠ none := by
    intro ops
    induction ops with
    | nil => exact fun s h => h
    | cons o ops ih =>
      intro s h
      refine ih (o.exec s) ?_
      by_cases ho : o = .diagnose
      · subst ho
        show (Shallot.diagnose s).2.diagnosticMap ≠ none
        unfold Shallot.diagnose
        rw [Meth.get_bind, (prop_new_ok_iff _ _ _ _ _).2 ⟨_, rfl, rfl, rfl, rfl⟩]
        intro k
        cases k
      · have := C132_frame o s (.mask .diagnosticMap) (by cases o <;> simp_all [Touches, OfFit, OfGradients])
        simp only [SamePart, Shallot.prop] at this
        intro k
        rw [k] at this
        cases hm : s.diagnosticMap with
        | none => exact h hm
        | some p => rw [hm] at this; cases this
  exact C133_kinds_partial op _ (runGrid_sound ops s hs) (key ops s hd) e h

/-- So seven kinds of exception are all that a grid with its arrays ever raises. -/
theorem C133_seven (ops : List (GridOp K)) (op : GridOp K) (s : Shallot K) (hs : Sound s)
    (hd : s.diagnosticMap ≠ none) (e : Err) (h : op.raised (runGrid ops s) = some e) :
    Validation e ∨ e = .indexError ∨ e = .attributeError ∨ e = .zeroDivisionError := by
  have := C133_history ops op s hs hd e h
  cases op <;> simp only [CanRaise, Validation] at this ⊢ <;> tauto

/-- **C133, false in full.** With gradients, asking for a new velocity of 0 raises `ZeroDivisionError`: the new
velocity is stored without being looked at. -/
theorem C133_false_velocity (s : Shallot K) (g : GGrad K) (l : List (GGrad K)) (hg : s.gradients = some (g :: l)) :
    GridOp.raised (.update (.int 0) (.int 0) .none) s = some .zeroDivisionError := by
  obtain ⟨t, ht⟩ : ∃ t, t = Shallot.storeScaling (.int 0) (.int 0) s := ⟨_, rfl⟩
  have ho : t.orbital = .error .zeroDivisionError := by
    subst ht
    simp [Shallot.storeScaling, Shallot.orbital, Shallot.operand, needNumber, bind, Except.bind, Shallot.isNumeric,
      Shallot.isPython, Shallot.limbDenominator, PyVal.num, XF.eqb, XF.pi]
  have hg : t.gradients = some (g :: l) := by subst ht; exact hg
  have loop : Shallot.rescaleLoop true none (l.length + 1) 0 t = (.error .zeroDivisionError, t) := by
    unfold Shallot.rescaleLoop
    rw [Meth.get_bind]
    simp only [hg, Option.getD_some, List.getElem?_cons_zero, ho, if_true]
    rfl
  have : (Shallot.updateScaling (.int 0) (.int 0) .none s).1 = .error .zeroDivisionError := by
    unfold Shallot.updateScaling
    rw [Meth.modify_bind, ← ht, Meth.get_bind]
    simp only [Shallot.newTransmissions, if_true, Meth.lift_ok_bind, hg, reduceCtorEq,
      if_false, ne_eq, not_false_eq_true, true_or, decide_true, Bool.not_true, Bool.false_and, Bool.false_eq_true]
    rw [List.length_cons, bind_err _ _ _ _ _ loop]
  show GridOp.raised.failure (Shallot.updateScaling (.int 0) (.int 0) .none s).1 = _
  rw [this]
  rfl

end

/-- With a limb darkening that `set_eclipse_parameters` accepts, the only number without an orbital scale is a
velocity of 0: then `add_gradients` raises `ZeroDivisionError` only if the velocity is a Python zero. -/
theorem C133_velocity (s : Shallot ℝ) (u : PyVal ℝ) (hl : s.limb = some u) (hu : Fraction u) (hs : Sound s)
    (hd : s.diagnosticMap ≠ none) (a b c d : PyVal ℝ)
    (h : GridOp.raised (.add a b c d) s = some .zeroDivisionError) : ∃ v, s.velocity = some v ∧ PyZero v := by
  have key := C133_kinds_partial (.add a b c d) s hs hd _ h
  simp only [CanRaise, Validation, reduceCtorEq, false_or, or_self, true_and] at key
  rcases key with h | ⟨u', h1, h2⟩
  · exact h
  · rw [hl] at h1
    cases h1
    obtain ⟨x, hx, h3, h4⟩ := hu
    rw [isNumber_num hx] at h2
    cases x with
    | fin x =>
      rw [less_iff] at h3 h4
      simp only [XF.mul_fin, XF.sub_fin, XF.add_fin, XF.pi_eq, XF.fin.injEq] at h2
      have h3 : 0 ≤ x := by simpa using h3
      have h4 : x ≤ 1 := by simpa using h4
      have := Real.pi_gt_three
      nlinarith
    | nan => simp [XF.mul, XF.sub, XF.add, XF.neg] at h2
    | pinf => rw [less_iff] at h4; simp at h4
    | ninf => rw [less_iff] at h3; simp at h3

/-- The hypotheses of `C133_velocity` are met: `set_eclipse_parameters` accepts a velocity of 0, and the next
`add_gradients` raises `ZeroDivisionError`. -/
theorem C133_false_add : ∃ s s' : Shallot ℝ, Sound s ∧ s.diagnosticMap ≠ none ∧ s.gradients = none ∧
    Shallot.setEclipseParameters (.int 1) (.int 0) (.int 0) s = (.ok (), s') ∧
    GridOp.raised (.add (column [.fin 0]) (column [.fin 0]) .none .none) s' = some .zeroDivisionError := by
  obtain ⟨s, d, -, h2, -, p, hp, -⟩ := throwAway_disk
  have n0 : ∀ n : ℤ, 0 ≤ n → NotNegative (K := ℝ) (.int n) := fun n hn =>
    ⟨_, int_isNumber n, by rw [less_iff]; simpa using hn⟩
  have hf : Fraction (K := ℝ) (.int 0) := ⟨_, int_isNumber 0, by rw [less_iff]; simp, by rw [less_iff]; simp⟩
  have he := (C49_partial s (fun _ => h2.nothing.2.1) (.int 1) (.int 0) (.int 0)).1
    ⟨n0 1 (by norm_num), n0 0 le_rfl, hf⟩
  refine ⟨s, _, sound_complete h2, by rw [hp]; simp, h2.nothing.1, he, ?_⟩
  obtain ⟨t, ht⟩ : ∃ t : Shallot ℝ, t = { s with
        eclipseDuration := some (.int 1), velocity := some (.int 0), limb := some (.int 0)
        gradients := none, gradientFit := none } := ⟨_, rfl⟩
  rw [← ht]
  have e1 : t.ready = true := by subst ht; rfl
  have e2 : t.eclipseDuration = some (.int 1) := by subst ht; rfl
  have e3 : ∀ gs, ({ t with gradients := gs } : Shallot ℝ).orbital = .error .zeroDivisionError := by
    subst ht
    simp [Shallot.orbital, Shallot.operand, needNumber, bind, Except.bind, Shallot.isNumeric,
      Shallot.isPython, Shallot.limbDenominator, PyVal.num, XF.eqb, XF.pi]
  have fa : ∀ x : XF ℝ, Floats (column [x]) ⟨"float64", [1], [x]⟩ := fun x => column_floats [x]
  have a1 : ∀ x : XF ℝ, array (column [x]) (dtype := .str "float64") (numDimensions := .int 1) =
      .ok ⟨"float64", [1], [x]⟩ := fun x => (array1_ok _ _).2 ⟨rfl, rfl, rfl⟩
  have a2 : ∀ x : ℝ, 0 ≤ x → array (column [.fin x]) (lower := .float (.fin 0)) (dtype := .str "float64")
      (numDimensions := .int 1) = .ok ⟨"float64", [1], [.fin x]⟩ := fun x hx =>
    (lower_ok _ _ _ (.fin 0) (by simp) (Or.inr ⟨rfl, .float _⟩) (by rw [less_iff]; simp)).2
      ⟨fa _, by simpa [less_iff] using hx⟩
  have a3 : array (column [.fin (1 : ℝ)]) (lower := .int 0) (upper := .int 1) (dtype := .str "float64")
      (numDimensions := .int 1) = .ok ⟨"float64", [1], [.fin 1]⟩ :=
    (both_ok _ _ _ _ _ _ (by simp) (by simp) (int_isNumber 0) (int_isNumber 1) (by rw [less_iff]; simp)).2
      ⟨fa _, by simp [less_iff]⟩
  have o1 : Shallot.orOnes (.none : PyVal ℝ) ⟨"float64", [1], [.fin 0]⟩ = column [.fin 1] := rfl
  have p1 : PyVal.arr (Shallot.positionsOf (⟨"float64", [1], [.fin 0]⟩ : NpArr ℝ) (.int 1)) =
      column [(XF.fin 0).neg.div (PyVal.int 1 : PyVal ℝ).num] := rfl
  have : (Shallot.addGradients (column [.fin 0]) (column [.fin 0]) .none .none t).1 = .error .zeroDivisionError := by
    unfold Shallot.addGradients
    rw [Meth.get_bind, if_pos e1, a1, Meth.lift_ok_bind, a2 0 le_rfl, Meth.lift_ok_bind, (sameShape2_ok _ _).2 rfl,
      Meth.lift_ok_bind, e2]
    rw [show needNumber (some (PyVal.int 1 : PyVal ℝ)) = .ok (.int 1) from rfl, Meth.lift_ok_bind]
    have hdet : Shallot.determineDiskGradients (Shallot.positionsOf (⟨"float64", [1], [.fin 0]⟩ : NpArr ℝ) (.int 1)) t =
        (.ok (), { t with gradients := some (t.gradients.getD [] ++
          [blank t ((XF.fin 0).neg.div (PyVal.int 1 : PyVal ℝ).num)]) }) := by
      unfold Shallot.determineDiskGradients
      rw [p1, a1, Meth.lift_ok_bind, Meth.modify_bind, appendGradients_eq _ _ _ rfl]
      rfl
    rw [bind_ok _ _ _ _ _ hdet]
    have hset : ∀ gs, (Shallot.setMeasured (⟨"float64", [1], [.fin 0]⟩ : NpArr ℝ) .none .none
        { t with gradients := gs }).1 = .error .zeroDivisionError := by
      intro gs
      unfold Shallot.setMeasured
      rw [o1, a2 1 zero_le_one, Meth.lift_ok_bind, a3, Meth.lift_ok_bind, (sameShape3_ok ⟨"float64", [1], [.fin 0]⟩
        ⟨"float64", [1], [.fin 1]⟩ ⟨"float64", [1], [.fin 1]⟩).2 ⟨rfl, rfl⟩, Meth.lift_ok_bind, Meth.get_bind, e3]
      rfl
    have := hset (some (t.gradients.getD [] ++ [blank t ((XF.fin 0).neg.div (PyVal.int 1 : PyVal ℝ).num)]))
    rw [bind_err _ _ _ _ _ (Prod.ext this rfl)]
  show GridOp.raised.failure (Shallot.addGradients _ _ _ _ t).1 = _
  rw [this]
  rfl

/-- **C133, false in full.** On grids made by the code: an index equal to the length of its axis and a position
given twice raise `IndexError`, extracting solutions without a fit raises `AttributeError`, and a new velocity of 0
raises `ZeroDivisionError`. -/
theorem C133_false :
    (∃ s : Shallot ℝ, Sound s ∧ s.diagnosticMap ≠ none ∧
      GridOp.raised (.point (.int 3) (.int 0) (.int 0) (.bool true)) s = some .indexError ∧
      GridOp.raised (.extract (.int 1)) s = some .attributeError) ∧
    ∃ s : Shallot ℝ, Sound s ∧ GridOp.raised (.remove (positions [1, 1])) s = some .indexError ∧
      GridOp.raised (.update (.int 0) (.int 0) .none) s = some .zeroDivisionError := by
  constructor
  · obtain ⟨s, -, hs, hgs, ⟨m1, m2, m3⟩, ⟨hg, hf⟩, ⟨p, hp⟩, -⟩ := throwAway_sound
    refine ⟨s, hs, by rw [hp]; simp, ?_, ?_⟩
    · show GridOp.raised.failure (Shallot.gridPoint (.int 3) (.int 0) (.int 0) (.bool true) s).1 = _
      rw [C48_false s hs true _ _ _ 3 0 0 (.int 3) (.int 0) (.int 0) (by rw [hgs]) (by simp) (by simp)
        (Or.inl (by rw [hgs]))]
      rfl
    · have hu : 1 ≤ (unmasked s).card := by
        refine Finset.card_pos.2 ⟨0, ?_⟩
        rw [mem_unmasked]
        refine ⟨by simp [elements, hgs], ?_⟩
        rintro (⟨m, h, -⟩ | ⟨m, h, -⟩ | ⟨m, h, -⟩ | ⟨l, h, -⟩)
        · rw [m1] at h; cases h
        · rw [m2] at h; cases h
        · rw [m3] at h; cases h
        · rw [hg] at h; cases h
      obtain ⟨m, c1, -, c3, c4⟩ := C38_union s hs
      have hget : Shallot.getGradientFit (.bool true) (.bool true) s = (.ok none, s) := by
        unfold Shallot.getGradientFit
        rw [Meth.get_bind, if_pos hf]
        rfl
      have hone : Shallot.solution s = (.error .attributeError, s) := by
        unfold Shallot.solution
        rw [Meth.get_bind, hf]
        rfl
      show GridOp.raised.failure (Shallot.extractSolutions (.int 1) s).1 = _
      unfold Shallot.extractSolutions
      rw [Meth.get_bind, c1, Meth.lift_ok_bind, solutionCount_ok s m (.int 1) 1 (count_unmasked s m c3 c4)
        (Or.inr (.int 1)) hu, Meth.lift_ok_bind, bind_ok _ _ _ _ _ hget]
      unfold Shallot.solutionLoop
      rw [bind_err _ _ _ _ _ hone]
      rfl
  · obtain ⟨-, s, -, -, -, hs, -, -, ⟨l, hl, hl2⟩, -⟩ := throwAway_fit
    refine ⟨s, hs, ?_, ?_⟩
    · show GridOp.raised.failure (Shallot.removeGradients (positions [1, 1]) s).1 = _
      rw [C40_false_last s l hl 1 (by omega)]
      rfl
    · match l, hl, hl2 with
      | g :: l, hl, _ => exact C133_false_velocity s g l hl

end Beyonce
