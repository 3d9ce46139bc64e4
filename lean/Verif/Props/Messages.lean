import Verif.Messages
import Verif.Props.Validate
import Verif.Props.Texts

/-!
# C106: a rejected argument is named together with what it should have been

`Spec.Condition` is what a number must be, `Spec.Demands` a message that lists exactly the conditions that are
broken.  The texts below are put together from whole parts; the code cuts letters off the end.
-/

namespace Beyonce

/-- The error without its message. -/
def forget {α : Type} : Except Raised α → Except Err α
  | .ok a => .ok a
  | .error e => .error e.1

/-- The parts with a separator between any two neighbours. -/
def Spec.joined (sep : String) : List String → String
  | [] => ""
  | [a] => a
  | a :: b :: l => a ++ sep ++ Spec.joined sep (b :: l)

/-- A bound that a number must respect: it must lie above or below, strictly or not. -/
structure Spec.Condition (K : Type) where
  above : Bool
  strict : Bool
  bound : XF K

section
set_option linter.unusedSectionVars false
variable {K : Type} [Field K] [LinearOrder K] [IsStrictOrderedRing K] [FloorRing K]
open Spec

/-- The condition in words, with four digits of the bound. -/
def Spec.Condition.text (c : Spec.Condition K) : String :=
  (if c.above then "greater" else "less") ++ (if c.strict then " than " else " than or equal to ") ++
    fixed 4 c.bound

/-- The number lies on the wrong side (NaN is on no side). -/
def Spec.Condition.Broken (c : Spec.Condition K) (x : XF K) : Prop :=
  match c.above, c.strict with
  | true, true => LessEq x c.bound
  | true, false => Less x c.bound
  | false, true => LessEq c.bound x
  | false, false => Less c.bound x

/-- The message begins with `start` and lists, of the two bounds, exactly those for which `broken`. -/
def Spec.Demands (start : String) (strict : Bool) (lower upper : XF K) (broken : Spec.Condition K → Prop)
    (message : String) : Prop :=
  ∃ cs : List (Spec.Condition K), cs.Sublist [⟨true, strict, lower⟩, ⟨false, strict, upper⟩] ∧
    (broken ⟨true, strict, lower⟩ ↔ ⟨true, strict, lower⟩ ∈ cs) ∧
    (broken ⟨false, strict, upper⟩ ↔ ⟨false, strict, upper⟩ ∈ cs) ∧
    message = start ++ joined " and " (cs.map Spec.Condition.text)

/-! ## Without messages -/

theorem forget_bind {α β : Type} (x : Except Raised α) (f : α → Except Raised β) :
    forget (x >>= f) = forget x >>= fun a => forget (f a) := by
  cases x <;> rfl

theorem forget_ite {α : Type} (p : Prop) [Decidable p] (x y : Except Raised α) :
    forget (if p then x else y) = if p then forget x else forget y := by
  split <;> rfl

theorem forget_isOk {α : Type} (x : Except Raised α) : (forget x).isOk = x.isOk := by cases x <;> rfl

theorem forget_classObject (v : PyVal K) (name c : String) (t : PyType) :
    forget (Said.classObject v name t c) = classObject v t := by
  unfold Said.classObject classObject
  split <;> rfl

theorem forget_boolean (v : PyVal K) (name : String) : forget (Said.boolean v name) = boolean v := by
  unfold Said.boolean boolean
  rw [forget_bind, forget_classObject]
  congr 1
  funext w
  cases w <;> rfl

theorem forget_string (v : PyVal K) (name : String) : forget (Said.string v name) = string v := by
  unfold Said.string string
  rw [forget_bind, forget_classObject]
  congr 1
  funext w
  cases w <;> rfl

theorem forget_anyType (v : PyVal K) (name m : String) (ts : List (PyType × String)) :
    forget (Said.anyType v name m ts) = anyType v (ts.map Prod.fst) := by
  induction ts with
  | nil => rfl
  | cons t ts ih =>
    unfold Said.anyType anyType
    simp only [List.map_cons]
    rw [← forget_classObject v name t.2 t.1]
    cases Said.classObject v name t.1 t.2 with
    | ok w => rfl
    | error e => exact ih

theorem forget_integerType (v : PyVal K) (name : String) : forget (Said.integerType v name) = integerType v :=
  forget_anyType v name _ _

theorem forget_floatType (v : PyVal K) (name : String) : forget (Said.floatType v name) = floatType v :=
  forget_anyType v name _ _

theorem forget_numberType (v ci : PyVal K) (name : String) :
    forget (Said.numberType v name ci) = numberType v ci := by
  unfold Said.numberType numberType
  rw [forget_bind, forget_boolean]
  congr 1
  funext b
  rw [forget_ite, forget_integerType]
  simp only [forget_ite, ← forget_integerType v name, ← forget_floatType v name, forget_isOk]
  rfl

theorem forget_numberBounds (v lo hi ex : PyVal K) (name : String) :
    forget (Said.numberBounds v name lo hi ex) = numberBounds v lo hi ex := by
  unfold Said.numberBounds numberBounds
  simp only [forget_bind, forget_numberType, forget_boolean, forget_ite]
  rfl

/-- **C106** Without its message a call of `validate.number` is the call of the model of C01. -/
theorem C106_same_number (v ci lo hi ex : PyVal K) (name : String) :
    forget (Said.number v name ci lo hi ex) = number v ci lo hi ex := by
  unfold Said.number number
  simp only [forget_bind, forget_numberType, forget_numberBounds]

theorem forget_arrayLike (v : PyVal K) (name : String) : forget (Said.arrayLike v name) = arrayLike v := by
  unfold Said.arrayLike arrayLike
  rw [forget_bind, forget_classObject]
  congr 1
  funext w
  cases w <;> rfl

theorem forget_arrayBounds (a : NpArr K) (lo hi ex : PyVal K) (name : String) :
    forget (Said.arrayBounds a name lo hi ex) = arrayBounds a lo hi ex := by
  unfold Said.arrayBounds arrayBounds
  simp only [forget_bind, forget_numberType, forget_boolean, forget_ite]
  rfl

theorem forget_arrayDimensions (a : NpArr K) (d : PyVal K) (name : String) :
    forget (Said.arrayDimensions a name d) = arrayDimensions a d := by
  unfold Said.arrayDimensions arrayDimensions
  simp only [forget_bind, forget_numberType, forget_ite]
  rfl

theorem forget_arrayType (a : NpArr K) (d : PyVal K) (name : String) :
    forget (Said.arrayType a name d) = arrayType a d := by
  unfold Said.arrayType arrayType
  simp only [forget_bind, forget_string, forget_ite]
  rfl

/-- **C106** Without its message a call of `validate.array` is the call of the model of C03. -/
theorem C106_same_array (v lo hi ex dtype d : PyVal K) (name : String) :
    forget (Said.array v name lo hi ex dtype d) = array v lo hi ex dtype d := by
  unfold Said.array array
  simp only [forget_bind, forget_arrayLike, forget_ite, forget_arrayBounds, forget_arrayDimensions,
    forget_arrayType]
  rfl

theorem forget_sameShapeLoop (s : List ℕ) (vs : List (PyVal K)) (names : List String) (e : Bool)
    (h : vs.length = names.length) : forget (Said.sameShapeLoop s (vs.zip names) e) = sameShapeLoop s vs e := by
  induction vs generalizing names e with
  | nil => rfl
  | cons v vs ih =>
    cases names with
    | nil => simp at h
    | cons n names =>
      simp only [List.zip_cons_cons, Said.sameShapeLoop, sameShapeLoop, forget_bind, forget_arrayLike]
      congr 1
      funext a
      exact ih names _ (by simpa using h)

/-- **C106** Without its message a call of `validate.same_shape_arrays` is the call of the model of C04. -/
theorem C106_same_shapes (vs : List (PyVal K)) (names : List String) :
    forget (Said.sameShapeArrays vs names) = sameShapeArrays vs names.length := by
  unfold Said.sameShapeArrays sameShapeArrays
  split_ifs with h1 h2
  · rfl
  · rfl
  · cases vs with
    | nil => rfl
    | cons v vs =>
      simp only [forget_bind]
      have hs : forget (Said.shape v) = v.shape := by cases v <;> rfl
      rw [hs]
      congr 1
      funext s
      rw [forget_sameShapeLoop _ _ _ _ (by simpa using h2)]
      congr 1
      funext e
      cases e <;> rfl

/-! ## Numbers -/

open Classical in
theorem said_numberType (v : PyVal K) (name : String) (ci : Bool) :
    Said.numberType v name (.bool ci) = if ∃ x, IsNumber ci v x then .ok v else
      .error (.typeError, name ++ " is not of type " ++ if ci then "integer" else "'number'") := by
  have hf := forget_numberType v (.bool ci) name
  have hex : (∃ x, IsNumber ci v x) ↔ IsNumber ci v v.num :=
    ⟨fun ⟨x, hx⟩ => by rw [isNumber_num hx]; exact hx, fun hx => ⟨_, hx⟩⟩
  have hm : ∀ e, Said.numberType v name (.bool ci) = .error e →
      e = (.typeError, name ++ " is not of type " ++ if ci then "integer" else "'number'") := by
    intro e he
    have hb : Said.boolean (.bool ci : PyVal K) "check_integer" = .ok ci := rfl
    unfold Said.numberType at he
    rw [hb] at he
    simp only [bind, Except.bind] at he
    cases ci with
    | false =>
      simp only [Bool.false_eq_true, if_false] at he ⊢
      split at he
      · cases he
        rw [String.append_assoc, show " is not of type " ++ "'number'" = " is not of type 'number'" by decide]
      · cases he
    | true =>
      simp only [if_true] at he ⊢
      have hany : ∀ (ts : List (PyType × String)) (m : String), Said.anyType v name m ts = .error e →
          e = (.typeError, m) := by
        intro ts m h
        induction ts with
        | nil => cases h; rfl
        | cons t ts ih =>
          unfold Said.anyType at h
          cases hc : Said.classObject v name t.1 t.2 with
          | ok w => rw [hc] at h; cases h
          | error e' => rw [hc] at h; exact ih h
      rw [hany _ _ he, String.append_assoc,
        show " is not of type " ++ "integer" = " is not of type integer" by decide]
  rw [hex]
  by_cases hn : IsNumber ci v v.num
  · rw [if_pos hn]
    rw [(numberType_ok v v ci).2 ⟨rfl, hn⟩] at hf
    cases hs : Said.numberType v name (.bool ci) with
    | ok w => rw [hs] at hf; cases hf; rfl
    | error e => rw [hs] at hf; cases hf
  · rw [if_neg hn]
    rw [(numberType_error v ci).2 hn] at hf
    cases hs : Said.numberType v name (.bool ci) with
    | ok w => rw [hs] at hf; cases hf
    | error e => rw [hm e hs]

theorem broken_low (ex : Bool) (l x : XF K) : (⟨true, ex, l⟩ : Spec.Condition K).Broken x ↔
    (if ex then XF.le x l else XF.lt x l) = true := by
  cases ex <;> simp [Spec.Condition.Broken, less_iff, lessEq_iff]

theorem broken_high (ex : Bool) (u x : XF K) : (⟨false, ex, u⟩ : Spec.Condition K).Broken x ↔
    (if ex then XF.le u x else XF.lt u x) = true := by
  cases ex <;> simp [Spec.Condition.Broken, less_iff, lessEq_iff]

theorem text_low (ex : Bool) (l : XF K) : "greater " ++ (if ex then "than" else "than or equal to") ++ " " ++ fixed 4 l
    = (⟨true, ex, l⟩ : Spec.Condition K).text := by
  unfold Spec.Condition.text
  dsimp only
  cases ex
  · exact congrArg (· ++ fixed 4 l)
      (show "greater " ++ "than or equal to" ++ " " = "greater" ++ " than or equal to " by decide)
  · exact congrArg (· ++ fixed 4 l) (show "greater " ++ "than" ++ " " = "greater" ++ " than " by decide)

theorem text_high (ex : Bool) (u : XF K) : "less " ++ (if ex then "than" else "than or equal to") ++ " " ++ fixed 4 u
    = (⟨false, ex, u⟩ : Spec.Condition K).text := by
  unfold Spec.Condition.text
  dsimp only
  cases ex
  · exact congrArg (· ++ fixed 4 u)
      (show "less " ++ "than or equal to" ++ " " = "less" ++ " than or equal to " by decide)
  · exact congrArg (· ++ fixed 4 u) (show "less " ++ "than" ++ " " = "less" ++ " than " by decide)

theorem place_inj {a b : XF K} (h : place a = place b) : a = b := by
  cases a <;> cases b <;> simp_all [place]

/-- Everything that a call of `validate.number` can complain about. -/
inductive Spec.NumberComplaint (name : String) (ci ex : Bool) (v lo hi : PyVal K) : Err → String → Prop
  /-- the value has the wrong type -/
  | value : (¬ ∃ x, IsNumber ci v x) → NumberComplaint name ci ex v lo hi .typeError
      (name ++ " is not of type " ++ if ci then "integer" else "'number'")
  /-- the value is fine, the lower bound is no number -/
  | lower : (∃ x, IsNumber ci v x) → (¬ ∃ x, IsNumber false lo x) →
      NumberComplaint name ci ex v lo hi .typeError "lower_bound is not of type 'number'"
  /-- the upper bound is no number -/
  | upper : (∃ x, IsNumber ci v x) → (∃ x, IsNumber false lo x) → (¬ ∃ x, IsNumber false hi x) →
      NumberComplaint name ci ex v lo hi .typeError "upper_bound is not of type 'number'"
  /-- the bounds are in the wrong order -/
  | crossed (x l u : XF K) : IsNumber ci v x → IsNumber false lo l → IsNumber false hi u → Less u l →
      NumberComplaint name ci ex v lo hi .valueError ("The upper_bound argument (" ++ fixed 4 u ++
        ") must be greater than the lower_bound (" ++ fixed 4 l ++ ") argument.")
  /-- the value is out of bounds: the message lists the bounds that it does not respect -/
  | bounds (x l u : XF K) (m : String) : IsNumber ci v x → IsNumber false lo l → IsNumber false hi u →
      ¬ Less u l → Violates ex l u x →
      Spec.Demands ("The " ++ name ++ " argument must be ") ex l u (fun c => c.Broken x) m →
      NumberComplaint name ci ex v lo hi .valueError m

/-- What is said about the bounds, with both parts. -/
theorem said_numberBounds (v lo hi : PyVal K) (name : String) (ex : Bool) (l u : XF K)
    (hl : IsNumber false lo l) (hu : IsNumber false hi u) (hlu : ¬ Less u l) :
    Said.numberBounds v name lo hi (.bool ex) =
      (let low := if ex then XF.le v.num l else XF.lt v.num l
       let high := if ex then XF.le u v.num else XF.lt u v.num
       if low || high then .error (.valueError, "The " ++ name ++ " argument must be " ++
          ((if low then (⟨true, ex, l⟩ : Spec.Condition K).text else "") ++
            if high then (⟨false, ex, u⟩ : Spec.Condition K).text else "")) else .ok v) := by
  have hb : Said.boolean (.bool ex : PyVal K) "exclusive" = .ok ex := rfl
  unfold Said.numberBounds
  rw [said_numberType, said_numberType, if_pos ⟨l, hl⟩, if_pos ⟨u, hu⟩, hb]
  simp only [bind, Except.bind, isNumber_num hl, isNumber_num hu]
  rw [if_neg (by rw [← less_iff]; exact hlu)]
  rw [text_low, text_high]
  generalize (if ex then XF.le v.num l else XF.lt v.num l) = A
  generalize (if ex then XF.le u v.num else XF.lt u v.num) = B
  cases A <;> cases B <;> simp [String.append_assoc]

/-- **C106 (partial)** If `validate.number` raises then its message says what is wrong with the call: it
names the argument and lists exactly the bounds that the value does not respect.  Missing for the full claim:
a value equal to both of two exclusive bounds, for which the two parts run together (`C106_false_both`). -/
theorem C106_number_partial (ci ex : Bool) (v lo hi : PyVal K) (name : String) (e : Err) (m : String)
    (hne : ¬ (ex = true ∧ ∃ x, IsNumber ci v x ∧ IsNumber false lo x ∧ IsNumber false hi x))
    (h : Said.number v name (.bool ci) lo hi (.bool ex) = .error (e, m)) :
    Spec.NumberComplaint name ci ex v lo hi e m := by
  unfold Said.number at h
  rw [said_numberType] at h
  by_cases h1 : ∃ x, IsNumber ci v x
  case neg =>
    rw [if_neg h1] at h
    cases h
    exact .value h1
  rw [if_pos h1] at h
  simp only [bind, Except.bind] at h
  by_cases h2 : ∃ x, IsNumber false lo x
  case neg =>
    unfold Said.numberBounds at h
    rw [said_numberType, if_neg h2] at h
    cases h
    exact .lower h1 h2
  by_cases h3 : ∃ x, IsNumber false hi x
  case neg =>
    unfold Said.numberBounds at h
    rw [said_numberType, said_numberType, if_pos h2, if_neg h3] at h
    cases h
    exact .upper h1 h2 h3
  obtain ⟨x, hx⟩ := h1
  obtain ⟨l, hl⟩ := h2
  obtain ⟨u, hu⟩ := h3
  by_cases h4 : Less u l
  · have hb : Said.boolean (.bool ex : PyVal K) "exclusive" = .ok ex := rfl
    unfold Said.numberBounds at h
    rw [said_numberType, said_numberType, if_pos ⟨l, hl⟩, if_pos ⟨u, hu⟩, hb] at h
    simp only [bind, Except.bind, isNumber_num hl, isNumber_num hu] at h
    rw [if_pos ((less_iff _ _).1 h4)] at h
    cases h
    have := Spec.NumberComplaint.crossed (name := name) (ex := ex) x l u hx hl hu h4
    unfold Said.crossed
    rw [isNumber_num hl, isNumber_num hu]
    exact this
  · rw [said_numberBounds v lo hi name ex l u hl hu h4] at h
    have hv := isNumber_num hx
    rw [hv] at h
    simp only at h
    have low := broken_low ex l x
    have high := broken_high ex u x
    have viol := not_violates_iff ex l u x
    have both : ¬ ((if ex then XF.le x l else XF.lt x l) = true ∧ (if ex then XF.le u x else XF.lt u x) = true) := by
      rintro ⟨ha, hb⟩
      rw [less_iff] at h4
      cases ex with
      | false =>
        rw [if_neg (by simp), ← less_iff] at ha hb
        apply h4
        rw [← less_iff]
        obtain ⟨p, q, hp, hq, hpq⟩ := ha
        obtain ⟨p', q', hp', hq', hpq'⟩ := hb
        rw [hp] at hq'
        cases hq'
        exact ⟨p', q, hp', hq, hpq'.trans hpq⟩
      | true =>
        rw [if_pos rfl, ← lessEq_iff] at ha hb
        apply hne
        refine ⟨rfl, x, hx, ?_, ?_⟩
        all_goals
          obtain ⟨p, q, hp, hq, hpq⟩ := ha
          obtain ⟨p', q', hp', hq', hpq'⟩ := hb
          rw [hp] at hq'
          cases hq'
          have h5 : ¬ p' < q := fun hlt => h4 ((less_iff _ _).1 ⟨p', q, hp', hq, hlt⟩)
          have e1 : p = q := le_antisymm hpq ((not_lt.1 h5).trans hpq')
          have e2 : p' = p := le_antisymm hpq' (e1 ▸ not_lt.1 h5)
        · rw [place_inj (hp.trans (by rw [hq, e1]))]; exact hl
        · rw [place_inj (hp.trans (by rw [hp', e2]))]; exact hu
    revert h
    generalize hA : (if ex then XF.le x l else XF.lt x l) = A at *
    generalize hB : (if ex then XF.le u x else XF.lt u x) = B at *
    intro h
    cases A <;> cases B
    · cases h
    · cases h
      refine .bounds x l u _ hx hl hu h4 (viol.2 rfl) ⟨[⟨false, ex, u⟩], ?_, ?_, ?_, ?_⟩
      · exact List.Sublist.cons _ (List.Sublist.refl _)
      · refine low.trans ?_; simp
      · refine high.trans ?_; simp
      · simp [joined]
    · cases h
      refine .bounds x l u _ hx hl hu h4 (viol.2 rfl) ⟨[⟨true, ex, l⟩], ?_, ?_, ?_, ?_⟩
      · exact List.Sublist.cons_cons _ (by simp)
      · refine low.trans ?_; simp
      · refine high.trans ?_; simp
      · simp [joined]
    · exact absurd ⟨rfl, rfl⟩ both

/-- A value that is both exclusive bounds: both parts of the message, with nothing between them. -/
theorem C106_number_both (ci : Bool) (v lo hi : PyVal K) (name : String) (x : XF K) (hn : x ≠ .nan)
    (hv : IsNumber ci v x) (hl : IsNumber false lo x) (hu : IsNumber false hi x) :
    Said.number v name (.bool ci) lo hi (.bool true) = .error (.valueError,
      "The " ++ name ++ " argument must be greater than " ++ fixed 4 x ++ "less than " ++ fixed 4 x) := by
  have hle : XF.le x x = true := by rw [← lessEq_iff]; cases x <;> first | exact absurd rfl hn | simp [LessEq, place]
  have hlt : ¬ Less x x := by
    rintro ⟨p, q, hp, hq, h⟩
    rw [hp] at hq
    cases hq
    exact lt_irrefl _ h
  unfold Said.number
  rw [said_numberType, if_pos ⟨x, hv⟩]
  simp only [bind, Except.bind]
  rw [said_numberBounds v lo hi name true x x hl hu hlt, isNumber_num hv]
  simp only [if_true, hle, Bool.or_self, Spec.Condition.text, Bool.false_eq_true, if_false]
  rw [show "greater" ++ " than " = "greater than " by decide, show "less" ++ " than " = "less than " by decide,
    show " argument must be greater than " = " argument must be " ++ "greater than " by decide]
  simp only [String.append_assoc]

/-- **C106 is false** of the code: 1 is neither greater nor less than 1, and the message runs the two parts
together, so that it is not a list of the broken bounds. -/
theorem C106_false_both : ∃ m, Said.number (.int 1 : PyVal ℚ) "x" (.bool false) (.int 1) (.int 1) (.bool true)
      = .error (.valueError, m) ∧ m = "The x argument must be greater than 1.0000less than 1.0000" ∧
    ¬ Spec.NumberComplaint (K := ℚ) "x" false true (.int 1) (.int 1) (.int 1) .valueError m := by
  have h1 : IsNumber (K := ℚ) false (.int 1) (.fin ((1 : ℤ) : ℚ)) := Or.inl ⟨1, .int 1, rfl⟩
  have hm := C106_number_both (K := ℚ) false (.int 1) (.int 1) (.int 1) "x" _ (by simp) h1 h1 h1
  have he : "The " ++ "x" ++ " argument must be greater than " ++ fixed 4 (.fin ((1 : ℤ) : ℚ)) ++ "less than " ++
      fixed 4 (.fin ((1 : ℤ) : ℚ)) = "The x argument must be greater than 1.0000less than 1.0000" := by
    decide +kernel
  rw [he] at hm
  refine ⟨_, hm, rfl, ?_⟩
  have hu : ∀ y, IsNumber (K := ℚ) false (.int 1) y → y = .fin 1 := by
    intro y hy
    rw [← isNumber_num hy]
    simp
  intro h
  generalize hM : "The x argument must be greater than 1.0000less than 1.0000" = M at h
  cases h with
  | crossed x l u hx hl hu' hlt =>
    rw [hu l hl, hu u hu'] at hlt
    obtain ⟨p, q, hp, hq, h⟩ := hlt
    rw [hp] at hq
    cases hq
    exact lt_irrefl _ h
  | bounds x l u m hx hl hu' hlt hv hd =>
    rw [hu l hl, hu u hu', hu x hx] at hd
    obtain ⟨cs, hsub, hlow, hhigh, hme⟩ := hd
    have hb : LessEq (XF.fin (1 : ℚ)) (.fin 1) := ⟨_, _, rfl, rfl, le_refl _⟩
    have b1 := hlow.1 hb
    have b2 := hhigh.1 hb
    have : cs = [⟨true, true, .fin 1⟩, ⟨false, true, .fin 1⟩] := by
      rcases cs with _ | ⟨a, _ | ⟨b, _ | ⟨c, cs⟩⟩⟩
      · simp at b1
      · simp only [List.mem_singleton] at b1 b2
        rw [← b1] at b2
        simp at b2
      · exact hsub.eq_of_length (by simp)
      · have := hsub.length_le
        simp at this
    rw [this, ← hM] at hme
    revert hme
    decide +kernel

/-- Non-vacuity: two messages, one of a type and one of a bound. -/
example : Said.number (.float (.fin 2) : PyVal ℚ) "tilt" (.bool false) (.int 0) (.int 1)
    = .error (.valueError, "The tilt argument must be less than or equal to 1.0000") := by decide +kernel
example : Said.number (.float (.fin 2) : PyVal ℚ) "index" (.bool true)
    = .error (.typeError, "index is not of type integer") := by decide +kernel

/-! ## Arrays -/

theorem cutEnd_append (n : ℕ) (s t : String) (h : t.toList.length = n) : cutEnd n (s ++ t) = s := by
  unfold cutEnd
  rw [String.toList_append, List.length_append, h, Nat.add_sub_cancel, List.take_left, String.ofList_toList]

/-- Everything that a call of `validate.array` can complain about; what is not given is not looked at. -/
inductive Spec.ArrayComplaint (name : String) (ex : Bool) (v : PyVal K) (lo hi : Option (PyVal K))
    (dtype : Option String) (ndim : Option (PyVal K)) : Err → String → Prop
  /-- no array -/
  | array : (¬ ∃ a, v = .arr a) →
      ArrayComplaint name ex v lo hi dtype ndim .typeError (name ++ " is not of type np.ndarray")
  /-- the lower bound is no number -/
  | lower (a : NpArr K) (b : PyVal K) : v = .arr a → lo = some b → (¬ ∃ x, IsNumber false b x) →
      ArrayComplaint name ex v lo hi dtype ndim .typeError "lower_bound is not of type 'number'"
  /-- the upper bound is no number -/
  | upper (a : NpArr K) (b : PyVal K) : v = .arr a → hi = some b → (¬ ∃ x, IsNumber false b x) →
      (∀ b, lo = some b → ∃ x, IsNumber false b x) →
      ArrayComplaint name ex v lo hi dtype ndim .typeError "upper_bound is not of type 'number'"
  /-- the bounds are in the wrong order -/
  | crossed (a : NpArr K) (l u : XF K) : v = .arr a → IsNumber false (lo.getD (.float .ninf)) l →
      IsNumber false (hi.getD (.float .pinf)) u → Less u l →
      ArrayComplaint name ex v lo hi dtype ndim .valueError ("The upper_bound argument (" ++ fixed 4 u ++
        ") must be greater than the lower_bound (" ++ fixed 4 l ++ ") argument.")
  /-- elements out of bounds: the message lists the bounds that some element does not respect -/
  | bounds (a : NpArr K) (l u : XF K) (m : String) : v = .arr a → IsNumber false (lo.getD (.float .ninf)) l →
      IsNumber false (hi.getD (.float .pinf)) u → ¬ Less u l → (∃ x ∈ a.data, Violates ex l u x) →
      Spec.Demands ("The " ++ name ++ " argument must contain solely values ") ex l u
        (fun c => ∃ x ∈ a.data, c.Broken x) m → ArrayComplaint name ex v lo hi dtype ndim .valueError m
  /-- the wanted number of dimensions is no integer -/
  | noDimensions (a : NpArr K) (d : PyVal K) : v = .arr a → ndim = some d → (¬ ∃ n, IsInteger d n) →
      ArrayComplaint name ex v lo hi dtype ndim .typeError "num_dimensions is not of type integer"
  /-- the wrong number of dimensions; an integer that is a `bool` is written as one -/
  | dimensions (a : NpArr K) (d : PyVal K) (n : ℤ) : v = .arr a → ndim = some d → IsInteger d n →
      (a.shape.length : ℤ) ≠ n → ArrayComplaint name ex v lo hi dtype ndim .invalidDimensionsError
        ("The " ++ name ++ " (" ++ toString a.shape.length ++ " dimensions) should have " ++
          (if d = .bool true then "True" else if d = .bool false then "False" else toString n) ++ " dimensions")
  /-- the wrong dtype -/
  | dtype (a : NpArr K) (d : String) : v = .arr a → dtype = some d → a.dtype ≠ d →
      ArrayComplaint name ex v lo hi dtype ndim .typeError
        (name ++ " (" ++ a.dtype ++ ") is not of type " ++ d)

/-- What is said about the bounds of an array. -/
theorem said_arrayBounds (a : NpArr K) (lo hi : PyVal K) (name : String) (ex : Bool) (l u : XF K)
    (hl : IsNumber false lo l) (hu : IsNumber false hi u) (hlu : ¬ Less u l) (e : Err) (m : String)
    (h : Said.arrayBounds a name lo hi (.bool ex) = .error (e, m)) : e = .valueError ∧
      (∃ x ∈ a.data, Violates ex l u x) ∧
      Spec.Demands ("The " ++ name ++ " argument must contain solely values ") ex l u
        (fun c => ∃ x ∈ a.data, c.Broken x) m := by
  have hb : Said.boolean (.bool ex : PyVal K) "exclusive" = .ok ex := rfl
  unfold Said.arrayBounds at h
  rw [said_numberType, said_numberType, if_pos ⟨l, hl⟩, if_pos ⟨u, hu⟩, hb] at h
  simp only [bind, Except.bind, isNumber_num hl, isNumber_num hu] at h
  rw [if_neg (by rw [← less_iff]; exact hlu), text_low, text_high] at h
  have low : (∃ x ∈ a.data, (⟨true, ex, l⟩ : Spec.Condition K).Broken x) ↔
      (a.data.any fun x => if ex then XF.le x l else XF.lt x l) = true := by
    simp only [List.any_eq_true, broken_low]
  have high : (∃ x ∈ a.data, (⟨false, ex, u⟩ : Spec.Condition K).Broken x) ↔
      (a.data.any fun x => if ex then XF.le u x else XF.lt u x) = true := by
    simp only [List.any_eq_true, broken_high]
  have viol : (∃ x ∈ a.data, Violates ex l u x) ↔ ((a.data.any fun x => if ex then XF.le x l else XF.lt x l) ||
      (a.data.any fun x => if ex then XF.le u x else XF.lt u x)) = true := by
    rw [Bool.or_eq_true, ← low, ← high]
    simp only [not_violates_iff, Bool.or_eq_true, broken_low, broken_high]
    constructor
    · rintro ⟨x, hx, h | h⟩
      · exact Or.inl ⟨x, hx, h⟩
      · exact Or.inr ⟨x, hx, h⟩
    · rintro (⟨x, hx, h⟩ | ⟨x, hx, h⟩)
      · exact ⟨x, hx, Or.inl h⟩
      · exact ⟨x, hx, Or.inr h⟩
  rw [viol]
  unfold Spec.Demands
  dsimp only
  rw [low, high]
  generalize (a.data.any fun x => if ex then XF.le x l else XF.lt x l) = A at *
  generalize (a.data.any fun x => if ex then XF.le u x else XF.lt u x) = B at *
  cases A <;> cases B
  · cases h
  · simp only [Bool.false_eq_true, if_false, if_true, Bool.or_true, Except.error.injEq, Prod.mk.injEq] at h
    rw [← String.append_assoc, cutEnd_append _ _ _ (by decide)] at h
    refine ⟨h.1.symm, rfl, [⟨false, ex, u⟩], List.Sublist.cons _ (List.Sublist.refl _), by simp, by simp, ?_⟩
    rw [← h.2]
    simp [joined]
  · simp only [Bool.false_eq_true, if_false, if_true, Bool.or_false, Except.error.injEq, Prod.mk.injEq] at h
    rw [← String.append_assoc, cutEnd_append _ _ _ (by decide)] at h
    refine ⟨h.1.symm, rfl, [⟨true, ex, l⟩], List.Sublist.cons_cons _ (by simp), by simp, by simp, ?_⟩
    rw [← h.2]
    simp [joined]
  · simp only [if_true, Bool.or_true, Except.error.injEq, Prod.mk.injEq] at h
    rw [← String.append_assoc (s₁ := _ ++ (_ ++ _)) (s₃ := " and "), cutEnd_append _ _ _ (by decide)] at h
    refine ⟨h.1.symm, rfl, [⟨true, ex, l⟩, ⟨false, ex, u⟩], List.Sublist.refl _, by simp, by simp, ?_⟩
    rw [← h.2]
    simp [joined, String.append_assoc]

/-- **C106** If `validate.array` raises then its message says what is wrong with the call: it names the
argument, and of the bounds it lists exactly those that some element does not respect. -/
theorem C106_array (ex : Bool) (v : PyVal K) (lo hi ndim : Option (PyVal K)) (dtype : Option String)
    (name : String) (e : Err) (m : String) (hlo : lo ≠ some .none) (hhi : hi ≠ some .none)
    (hnd : ndim ≠ some .none)
    (h : Said.array v name (optArg lo) (optArg hi) (.bool ex) (optArg (dtype.map .str)) (optArg ndim)
      = .error (e, m)) : Spec.ArrayComplaint name ex v lo hi dtype ndim e m := by
  by_cases hv : ∃ a, v = .arr a
  case neg =>
    have hal : Said.arrayLike v name = .error (.typeError, name ++ " is not of type np.ndarray") := by
      cases v <;> first | exact absurd ⟨_, rfl⟩ hv | (
        unfold Said.arrayLike Said.classObject
        simp only [isinstance, Bool.false_eq_true, if_false, bind, Except.bind, String.append_assoc]
        rw [show " is not of type " ++ "np.ndarray" = " is not of type np.ndarray" by decide])
    unfold Said.array at h
    rw [hal] at h
    cases h
    exact .array hv
  obtain ⟨a, rfl⟩ := hv
  have hal : Said.arrayLike (.arr a) name = .ok a := rfl
  have hlo2 : (if optArg lo = .none then PyVal.float .ninf else optArg lo) = lo.getD (.float .ninf) := by
    cases lo with
    | none => simp [optArg]
    | some x => rw [optArg, if_neg (fun h => hlo (by rw [h]))]; rfl
  have hhi2 : (if optArg hi = .none then PyVal.float .pinf else optArg hi) = hi.getD (.float .pinf) := by
    cases hi with
    | none => simp [optArg]
    | some x => rw [optArg, if_neg (fun h => hhi (by rw [h]))]; rfl
  have stages : ((optArg lo ≠ .none ∨ optArg hi ≠ .none) ∧
        Said.arrayBounds a name (lo.getD (.float .ninf)) (hi.getD (.float .pinf)) (.bool ex) = .error (e, m)) ∨
      (optArg ndim ≠ .none ∧ Said.arrayDimensions a name (optArg ndim) = .error (e, m)) ∨
      (optArg (dtype.map (PyVal.str (K := K))) ≠ .none ∧
        Said.arrayType a name (optArg (dtype.map .str)) = .error (e, m)) := by
    unfold Said.array at h
    rw [hal, hlo2, hhi2] at h
    simp only [bind, Except.bind] at h
    revert h
    generalize Said.arrayBounds a name (lo.getD (.float .ninf)) (hi.getD (.float .pinf)) (.bool ex) = rb
    generalize Said.arrayDimensions a name (optArg ndim) = rd
    generalize Said.arrayType a name (optArg (dtype.map .str)) = rt
    intro h
    by_cases c1 : optArg lo ≠ .none ∨ optArg hi ≠ .none
    · rw [if_pos c1] at h
      cases rb with
      | error x => exact Or.inl ⟨c1, h⟩
      | ok _ =>
        by_cases c2 : optArg ndim ≠ .none
        · rw [if_pos c2] at h
          cases rd with
          | error x => exact Or.inr (Or.inl ⟨c2, h⟩)
          | ok _ =>
            by_cases c3 : optArg (dtype.map (PyVal.str (K := K))) ≠ .none
            · rw [if_pos c3] at h
              cases rt with
              | error x => exact Or.inr (Or.inr ⟨c3, h⟩)
              | ok _ => cases h
            · rw [if_neg c3] at h; cases h
        · rw [if_neg c2] at h
          by_cases c3 : optArg (dtype.map (PyVal.str (K := K))) ≠ .none
          · rw [if_pos c3] at h
            cases rt with
            | error x => exact Or.inr (Or.inr ⟨c3, h⟩)
            | ok _ => cases h
          · rw [if_neg c3] at h; cases h
    · rw [if_neg c1] at h
      by_cases c2 : optArg ndim ≠ .none
      · rw [if_pos c2] at h
        cases rd with
        | error x => exact Or.inr (Or.inl ⟨c2, h⟩)
        | ok _ =>
          by_cases c3 : optArg (dtype.map (PyVal.str (K := K))) ≠ .none
          · rw [if_pos c3] at h
            cases rt with
            | error x => exact Or.inr (Or.inr ⟨c3, h⟩)
            | ok _ => cases h
          · rw [if_neg c3] at h; cases h
      · rw [if_neg c2] at h
        by_cases c3 : optArg (dtype.map (PyVal.str (K := K))) ≠ .none
        · rw [if_pos c3] at h
          cases rt with
          | error x => exact Or.inr (Or.inr ⟨c3, h⟩)
          | ok _ => cases h
        · rw [if_neg c3] at h; cases h
  rcases stages with ⟨-, h⟩ | ⟨c, h⟩ | ⟨c, h⟩
  · by_cases h2 : ∃ x, IsNumber false (lo.getD (.float .ninf)) x
    case neg =>
      cases lo with
      | none => exact absurd ⟨.ninf, Or.inr ⟨rfl, .float _⟩⟩ h2
      | some b =>
        unfold Said.arrayBounds at h
        rw [said_numberType, if_neg h2] at h
        cases h
        exact .lower a b rfl rfl h2
    by_cases h3 : ∃ x, IsNumber false (hi.getD (.float .pinf)) x
    case neg =>
      cases hi with
      | none => exact absurd ⟨.pinf, Or.inr ⟨rfl, .float _⟩⟩ h3
      | some b =>
        unfold Said.arrayBounds at h
        rw [said_numberType, said_numberType, if_pos h2, if_neg h3] at h
        cases h
        refine .upper a b rfl rfl h3 ?_
        rintro b' rfl
        exact h2
    obtain ⟨l, hl⟩ := h2
    obtain ⟨u, hu⟩ := h3
    by_cases h4 : Less u l
    · have hb : Said.boolean (.bool ex : PyVal K) "exclusive" = .ok ex := rfl
      unfold Said.arrayBounds at h
      rw [said_numberType, said_numberType, if_pos ⟨l, hl⟩, if_pos ⟨u, hu⟩, hb] at h
      simp only [bind, Except.bind, isNumber_num hl, isNumber_num hu] at h
      rw [if_pos ((less_iff _ _).1 h4)] at h
      cases h
      have := Spec.ArrayComplaint.crossed (name := name) (ex := ex) (dtype := dtype) (ndim := ndim) a l u rfl hl hu h4
      unfold Said.crossed
      rw [isNumber_num hl, isNumber_num hu]
      exact this
    · obtain ⟨he, hx, hd⟩ := said_arrayBounds a _ _ name ex l u hl hu h4 e m h
      subst he
      exact .bounds a l u m rfl hl hu h4 hx hd
  · cases ndim with
    | none => exact absurd rfl c
    | some d =>
      simp only [optArg] at h
      unfold Said.arrayDimensions at h
      rw [said_numberType] at h
      by_cases hd : ∃ x, IsNumber true d x
      · rw [if_pos hd] at h
        simp only [bind, Except.bind] at h
        obtain ⟨x, ⟨n, hn, hx⟩ | ⟨hf, -⟩⟩ := hd
        · split at h
          · cases h
          · rename_i hne
            cases h
            rw [isInteger_num hn, XF.eqb_fin, decide_eq_true_eq] at hne
            have := Spec.ArrayComplaint.dimensions (name := name) (ex := ex) (lo := lo) (hi := hi) (dtype := dtype)
              a d n rfl (rfl : some d = some d) hn (fun h => hne (by rw [← h]; simp))
            unfold Said.dimensionsText
            have ht : d.intText = (if d = .bool true then "True" else if d = .bool false then "False" else toString n) := by
              cases hn <;> simp [PyVal.intText, PyVal.toInt]
            rw [ht]
            exact this
        · cases hf
      · rw [if_neg hd] at h
        cases h
        have := Spec.ArrayComplaint.noDimensions (name := name) (ex := ex) (lo := lo) (hi := hi) (dtype := dtype)
          a d rfl (rfl : some d = some d) (fun ⟨n, hn⟩ => hd ⟨_, Or.inl ⟨n, hn, rfl⟩⟩)
        rw [show "num_dimensions" ++ " is not of type " ++ (if true = true then "integer" else "'number'")
          = "num_dimensions is not of type integer" by decide]
        exact this
  · cases dtype with
    | none => exact absurd rfl c
    | some d =>
      have hs : Said.string (.str d : PyVal K) "dtype" = .ok d := rfl
      simp only [optArg, Option.map_some] at h
      unfold Said.arrayType at h
      rw [hs] at h
      simp only [bind, Except.bind] at h
      split at h
      · cases h
      · rename_i hne
        cases h
        exact .dtype a d rfl rfl hne

/-- Non-vacuity: both bounds are broken, by different elements. -/
example : Said.array (.arr ⟨"float64", [2], [.fin 0, .fin 3]⟩ : PyVal ℚ) "dx" (.int 1) (.int 2)
    = .error (.valueError, "The dx argument must contain solely values greater than or equal to 1.0000 and " ++
      "less than or equal to 2.0000") := by decide +kernel

/-! ## Shapes -/

theorem shapesLoop_arrays (names : List String) (as : List (NpArr K)) (m : String) :
    Said.shapesLoop (names.zip (as.map .arr)) m
      = m ++ (List.zipWith (fun n a => n ++ " " ++ shapeText a.shape) names as).foldr
          (fun p s => p ++ ", " ++ s) "" := by
  induction names generalizing as m with
  | nil => simp [Said.shapesLoop]
  | cons n names ih =>
    cases as with
    | nil => simp [Said.shapesLoop]
    | cons a as =>
      simp only [List.map_cons, List.zip_cons_cons, Said.shapesLoop, List.zipWith_cons_cons, List.foldr_cons]
      rw [ih as]
      simp only [String.append_assoc]

theorem foldr_joined (l : List String) (h : l ≠ []) :
    l.foldr (fun p s => p ++ ", " ++ s) "" = joined ", " l ++ ", " := by
  induction l with
  | nil => exact absurd rfl h
  | cons a l ih =>
    cases l with
    | nil => simp [joined]
    | cons b l => rw [List.foldr_cons, ih (by simp), joined]; simp only [String.append_assoc]

/-- **C106** If arrays have different shapes then the message gives the name and the shape of every one. -/
theorem C106_shapes (vs : List (PyVal K)) (names : List String) (m : String)
    (h : Said.sameShapeArrays vs names = .error (.invalidShapeError, m)) :
    ∃ as : List (NpArr K), vs = as.map .arr ∧ names.length = as.length ∧
      (∃ a ∈ as, ∃ b ∈ as, a.shape ≠ b.shape) ∧
      m = joined ", " (List.zipWith (fun n a => n ++ " " ++ shapeText a.shape) names as) ++
        " should all have the same shape." := by
  have hf := C106_same_shapes vs names
  rw [h] at hf
  unfold Said.sameShapeArrays at h
  split_ifs at h with h1 h2
  · cases h
  · cases h
  · push Not at h2
    cases vs with
    | nil => simp at h1
    | cons v vs =>
      simp only at h
      cases hs : Said.shape v with
      | error e =>
        exfalso
        rw [hs] at h
        simp only [bind, Except.bind, Except.error.injEq] at h
        subst h
        cases v <;> simp [Said.shape] at hs
      | ok shape =>
        rw [hs] at h
        simp only [bind, Except.bind] at h
        cases hl : Said.sameShapeLoop shape ((v :: vs).zip names) false with
        | error e =>
          exfalso
          rw [hl] at h
          simp only [Except.error.injEq] at h
          subst h
          have hall : ∀ (l : List (PyVal K × String)) (b : Bool) (e : Raised),
              Said.sameShapeLoop shape l b = .error e → e.1 = .typeError := by
            intro l
            induction l with
            | nil => intro b e h; cases h
            | cons p l ih =>
              intro b e h
              unfold Said.sameShapeLoop at h
              cases ha : Said.arrayLike p.1 p.2 with
              | ok a => rw [ha] at h; exact ih _ _ h
              | error e' =>
                rw [ha] at h
                cases h
                have := forget_arrayLike p.1 p.2
                rw [ha] at this
                revert this
                generalize p.1 = w
                intro this
                have err : ∀ e, .error e = arrayLike w → e = .typeError := by
                  intro e he
                  cases w <;> first | (cases he; rfl) | cases he
                exact err _ this
          have := hall _ _ _ hl
          cases this
        | ok b =>
          rw [hl] at h
          cases b with
          | false => simp at h
          | true =>
            simp only [if_true, Except.error.injEq, Prod.mk.injEq, true_and] at h
            have hl' := forget_sameShapeLoop shape (v :: vs) names false h2
            rw [hl] at hl'
            obtain ⟨as, has, hb⟩ := (sameShapeLoop_ok _ _ _ _).1 hl'.symm
            have hlen : names.length = as.length := by
              rw [← h2, has, List.length_map]
            refine ⟨as, has, hlen, ?_, ?_⟩
            · obtain ⟨a, ha, hne⟩ : ∃ a ∈ as, a.shape ≠ shape := by simpa using hb
              cases as with
              | nil => cases ha
              | cons a0 as =>
                simp only [List.map_cons, List.cons.injEq] at has
                rw [has.1] at hs
                cases hs
                exact ⟨a, ha, a0, by simp, hne⟩
            · rw [← h, has]
              unfold Said.shapesText
              have hne : List.zipWith (fun n (a : NpArr K) => n ++ " " ++ shapeText a.shape) names as ≠ [] := by
                cases as with
                | nil => simp at has
                | cons a as =>
                  cases names with
                  | nil => simp at hlen
                  | cons n names => simp
              rw [shapesLoop_arrays, foldr_joined _ hne, String.empty_append,
                cutEnd_append _ _ _ (by decide)]

/-- **C106** A value that is no array is named; the values before it are arrays. -/
theorem C106_shapes_type (vs : List (PyVal K)) (names : List String) (m : String)
    (h : Said.sameShapeArrays vs names = .error (.typeError, m)) :
    ∃ (before after : List (PyVal K)) (v : PyVal K) (name : String), vs = before ++ v :: after ∧
      names[before.length]? = some name ∧ (∀ w ∈ before, ∃ a, w = .arr a) ∧ (¬ ∃ a, v = .arr a) ∧
      m = name ++ " is not of type np.ndarray" := by
  have loop : ∀ (shape : List ℕ) (vs : List (PyVal K)) (names : List String) (b : Bool) (e : Raised),
      vs.length = names.length → Said.sameShapeLoop shape (vs.zip names) b = .error e →
      ∃ (before after : List (PyVal K)) (v : PyVal K) (name : String), vs = before ++ v :: after ∧
      names[before.length]? = some name ∧ (∀ w ∈ before, ∃ a, w = .arr a) ∧ (¬ ∃ a, v = .arr a) ∧
      e.2 = name ++ " is not of type np.ndarray" := by
    intro shape vs
    induction vs with
    | nil => intro names b e _ h; cases h
    | cons v vs ih =>
      intro names b e hlen h
      cases names with
      | nil => simp at hlen
      | cons n names =>
        simp only [List.zip_cons_cons] at h
        unfold Said.sameShapeLoop at h
        by_cases hv : ∃ a, v = .arr a
        · obtain ⟨a, rfl⟩ := hv
          obtain ⟨before, after, w, name, h1, h2, h3, h4, h5⟩ := ih names _ e (by simpa using hlen) h
          refine ⟨.arr a :: before, after, w, name, by rw [h1]; rfl, by simpa using h2, ?_, h4, h5⟩
          intro x hx
          rcases List.mem_cons.1 hx with rfl | hx
          · exact ⟨a, rfl⟩
          · exact h3 x hx
        · refine ⟨[], vs, v, n, rfl, rfl, by simp, hv, ?_⟩
          have hal : Said.arrayLike v n = .error (.typeError, n ++ " is not of type np.ndarray") := by
            cases v <;> first | exact absurd ⟨_, rfl⟩ hv | (
              unfold Said.arrayLike Said.classObject
              simp only [isinstance, Bool.false_eq_true, if_false, bind, Except.bind, String.append_assoc]
              rw [show " is not of type " ++ "np.ndarray" = " is not of type np.ndarray" by decide])
          simp only at h
          rw [hal] at h
          cases h
          rfl
  unfold Said.sameShapeArrays at h
  split_ifs at h with h1 h2
  · cases h
  · cases h
  · push Not at h2
    cases vs with
    | nil => simp at h1
    | cons v vs =>
      simp only at h
      cases hs : Said.shape v with
      | error e =>
        exfalso
        rw [hs] at h
        simp only [bind, Except.bind, Except.error.injEq] at h
        subst h
        cases v <;> simp [Said.shape] at hs
      | ok shape =>
        rw [hs] at h
        simp only [bind, Except.bind] at h
        cases hl : Said.sameShapeLoop shape ((v :: vs).zip names) false with
        | error e =>
          rw [hl] at h
          cases h
          exact loop _ _ _ _ _ h2 hl
        | ok b =>
          rw [hl] at h
          cases b <;> simp at h

/-- Non-vacuity. -/
example : Said.sameShapeArrays [.arr ⟨"float64", [2], [.fin 0, .fin 3]⟩, (.arr ⟨"float64", [1, 1], [.fin 0]⟩ : PyVal ℚ)]
    ["data", "mask"] = .error (.invalidShapeError, "data (2,), mask (1, 1) should all have the same shape.") := by
  decide +kernel
example : Said.sameShapeArrays [.arr ⟨"float64", [2], [.fin 0, .fin 3]⟩, (.int 1 : PyVal ℚ)] ["data", "mask"]
    = .error (.typeError, "mask is not of type np.ndarray") := by decide +kernel

/-! ## What a message tells -/

theorem words_text (c : Spec.Condition K) : words c.text =
    (if c.above then "greater" else "less").toList ::
      ((if c.strict then ["than".toList] else ["than".toList, "or".toList, "equal".toList, "to".toList]) ++
        [(fixed 4 c.bound).toList]) := by
  obtain ⟨a, s, b⟩ := c
  unfold Spec.Condition.text
  have hw := words_word (isWord_fixed 4 b)
  cases a <;> cases s
  · simp only [Bool.false_eq_true, if_false]
    rw [words_left _ (by decide), hw, show words ("less" ++ " than or equal to ")
      = ["less".toList, "than".toList, "or".toList, "equal".toList, "to".toList] by decide]
    rfl
  · simp only [Bool.false_eq_true, if_false, if_true]
    rw [words_left _ (by decide), hw, show words ("less" ++ " than ") = ["less".toList, "than".toList] by decide]
    rfl
  · simp only [Bool.false_eq_true, if_false, if_true]
    rw [words_left _ (by decide), hw, show words ("greater" ++ " than or equal to ")
      = ["greater".toList, "than".toList, "or".toList, "equal".toList, "to".toList] by decide]
    rfl
  · simp only [if_true]
    rw [words_left _ (by decide), hw, show words ("greater" ++ " than ") = ["greater".toList, "than".toList] by decide]
    rfl

theorem words_and (a b : String) : words (a ++ " and " ++ b) = words a ++ "and".toList :: words b := by
  rw [words_left _ (endsSep_append _ (by decide)), words_right _ (by decide),
    show words " and " = ["and".toList] by decide]
  simp

theorem demands_tell (start m : String) (s s' : Bool) (l u l' u' : XF K) (B B' : Spec.Condition K → Prop)
    (h : Spec.Demands start s l u B m) (h' : Spec.Demands start s' l' u' B' m) :
    (B ⟨true, s, l⟩ ↔ B' ⟨true, s', l'⟩) ∧ (B ⟨false, s, u⟩ ↔ B' ⟨false, s', u'⟩) ∧
    (B ⟨true, s, l⟩ ∨ B ⟨false, s, u⟩ → s = s') ∧ (B ⟨true, s, l⟩ → Spec.Agree 4 l l') ∧
    (B ⟨false, s, u⟩ → Spec.Agree 4 u u') := by
  obtain ⟨cs, hsub, hl, hu, hm⟩ := h
  obtain ⟨cs', hsub', hl', hu', hm'⟩ := h'
  rw [hm] at hm'
  have hw := congrArg words ((String.append_right_inj _).1 hm')
  rw [hl, hu, hl', hu']
  have hc := List.mem_sublists.2 hsub
  have hc' := List.mem_sublists.2 hsub'
  simp only [List.sublists_cons, List.sublists_nil, List.mem_cons, List.bind_eq_flatMap, List.flatMap_cons,
    List.flatMap_nil, List.append_nil, List.cons_append, List.nil_append, List.not_mem_nil, or_false] at hc hc'
  rcases hc with rfl | rfl | rfl | rfl <;> rcases hc' with rfl | rfl | rfl | rfl <;>
    simp only [List.map_cons, List.map_nil, joined, words_and, words_text] at hw <;> cases s <;> cases s' <;>
    simp [show words "" = [] by decide] at hw ⊢ <;>
    first | exact agree_of_words hw | exact ⟨agree_of_words hw.1, agree_of_words hw.2⟩

/-- **C106** Two rejected arrays with the same message break the same bounds, both strictly or both not, and
these bounds are the same to four digits. -/
theorem C106_array_tells (ex ex' : Bool) (a a' : NpArr K) (lo hi nd lo' hi' nd' : Option (PyVal K))
    (dt dt' : Option String) (l u l' u' : XF K) (name m : String)
    (hnd : nd ≠ some .none) (hnd' : nd' ≠ some .none)
    (hlo : IsNumber false (lo.getD (.float .ninf)) l) (hhi : IsNumber false (hi.getD (.float .pinf)) u)
    (hlo' : IsNumber false (lo'.getD (.float .ninf)) l') (hhi' : IsNumber false (hi'.getD (.float .pinf)) u')
    (hlt : ¬ Less u l) (hlt' : ¬ Less u' l')
    (h : Said.array (.arr a) name (optArg lo) (optArg hi) (.bool ex) (optArg (dt.map .str)) (optArg nd)
      = .error (.valueError, m))
    (h' : Said.array (.arr a') name (optArg lo') (optArg hi') (.bool ex') (optArg (dt'.map .str)) (optArg nd')
      = .error (.valueError, m)) :
    ((∃ x ∈ a.data, if ex then LessEq x l else Less x l) ↔ ∃ x ∈ a'.data, if ex' then LessEq x l' else Less x l') ∧
    ((∃ x ∈ a.data, if ex then LessEq u x else Less u x) ↔ ∃ x ∈ a'.data, if ex' then LessEq u' x else Less u' x) ∧
    ex = ex' ∧ ((∃ x ∈ a.data, if ex then LessEq x l else Less x l) → Spec.Agree 4 l l') ∧
    ((∃ x ∈ a.data, if ex then LessEq u x else Less u x) → Spec.Agree 4 u u') := by
  have given : ∀ (o : Option (PyVal K)) (d : PyVal K) (y : XF K), IsNumber false (o.getD d) y → o ≠ some .none := by
    rintro o d y hy rfl
    rcases hy with ⟨_, h, _⟩ | ⟨_, h⟩ <;> cases h
  have low : ∀ (s : Bool) (b x : XF K), (⟨true, s, b⟩ : Spec.Condition K).Broken x ↔
      if s then LessEq x b else Less x b := by intro s b x; cases s <;> simp [Spec.Condition.Broken]
  have high : ∀ (s : Bool) (b x : XF K), (⟨false, s, b⟩ : Spec.Condition K).Broken x ↔
      if s then LessEq b x else Less b x := by intro s b x; cases s <;> simp [Spec.Condition.Broken]
  have uniq : ∀ (v : PyVal K) (x y : XF K), IsNumber false v x → IsNumber false v y → x = y :=
    fun v x y hx hy => (isNumber_num hx).symm.trans (isNumber_num hy)
  have d : (∃ x ∈ a.data, Violates ex l u x) ∧
      Spec.Demands ("The " ++ name ++ " argument must contain solely values ") ex l u
      (fun c => ∃ x ∈ a.data, c.Broken x) m := by
    have hc := C106_array ex _ _ _ _ _ _ _ _ (given _ _ _ hlo) (given _ _ _ hhi) hnd h
    cases hc with
    | crossed b p q hb hp hq hpq =>
      rw [uniq _ _ _ hlo hp, uniq _ _ _ hhi hq] at hlt
      exact absurd hpq hlt
    | bounds b p q _ hb hp hq hpq hx hd =>
      cases hb
      rw [uniq _ _ _ hlo hp, uniq _ _ _ hhi hq]
      exact ⟨hx, hd⟩
  have d' : Spec.Demands ("The " ++ name ++ " argument must contain solely values ") ex' l' u'
      (fun c => ∃ x ∈ a'.data, c.Broken x) m := by
    have hc := C106_array ex' _ _ _ _ _ _ _ _ (given _ _ _ hlo') (given _ _ _ hhi') hnd' h'
    cases hc with
    | crossed b p q hb hp hq hpq =>
      rw [uniq _ _ _ hlo' hp, uniq _ _ _ hhi' hq] at hlt'
      exact absurd hpq hlt'
    | bounds b p q _ hb hp hq hpq hx hd =>
      cases hb
      rw [uniq _ _ _ hlo' hp, uniq _ _ _ hhi' hq]
      exact hd
  obtain ⟨r1, r2, r3, r4, r5⟩ := demands_tell _ _ _ _ _ _ _ _ _ _ d.2 d'
  simp only [low, high] at r1 r2 r3 r4 r5
  refine ⟨r1, r2, r3 ?_, r4, r5⟩
  obtain ⟨x, hx, hv⟩ := d.1
  unfold Violates at hv
  cases ex
  · rcases hv with hv | hv
    · exact Or.inl ⟨x, hx, hv⟩
    · exact Or.inr ⟨x, hx, hv⟩
  · rcases hv with hv | hv
    · exact Or.inl ⟨x, hx, hv⟩
    · exact Or.inr ⟨x, hx, hv⟩

/-! ## Loading -/

/-- Everything that can be loaded. -/
def allLoaded : List Loaded := [.diagnostics, .parameters] ++ allTitles.map fun t => .property t.1 t.2

theorem mem_allLoaded (l : Loaded) : l ∈ allLoaded := by
  cases l with
  | diagnostics => decide
  | parameters => decide
  | property n u => exact List.mem_append_right _ (List.mem_map.2 ⟨(n, u), mem_allTitles _, rfl⟩)

theorem types_differ : ∀ a ∈ allLoaded, ∀ b ∈ allLoaded,
    (a.typeString.toList ++ " from ".toList).isPrefixOf (b.typeString.toList ++ " from ".toList) = true → a = b := by
  decide +kernel

/-- **C106** The message of a failed `load` tells what could not be loaded, and from where. -/
theorem C106_load (a b : Loaded) (d e : String) (h : loadText a d = loadText b e) : a = b ∧ d = e := by
  unfold loadText at h
  have hl := congrArg String.toList h
  simp only [String.toList_append, List.append_assoc, List.append_cancel_left_eq] at hl
  rw [← List.append_assoc, ← List.append_assoc (b.typeString.toList)] at hl
  have hp : a.typeString.toList ++ " from ".toList <+: b.typeString.toList ++ " from ".toList ∨
      b.typeString.toList ++ " from ".toList <+: a.typeString.toList ++ " from ".toList :=
    List.prefix_or_prefix_of_prefix (List.prefix_append _ d.toList) (hl ▸ List.prefix_append _ e.toList)
  have hab : a = b := by
    rcases hp with hp | hp
    · exact types_differ a (mem_allLoaded a) b (mem_allLoaded b) (List.isPrefixOf_iff_prefix.2 hp)
    · exact (types_differ b (mem_allLoaded b) a (mem_allLoaded a) (List.isPrefixOf_iff_prefix.2 hp)).symm
  subst hab
  exact ⟨rfl, String.toList_inj.1 (List.append_cancel_left hl)⟩

/-- Non-vacuity, and the messages of the authors' tests. -/
example : loadText (.property .diskRadius .eclipseDuration) "invalid"
    = "failed to load Disk Radius [Eclipse Duration] from invalid" := by decide +kernel

end
end Beyonce
