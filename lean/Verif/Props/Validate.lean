import Verif.Validate
import Mathlib.Order.WithBot

/-!
# Properties C01–C04: `validate.py`

The specification below does not mention the functions of the model: which values are
numbers (`Spec.IsNumber`), and what "less" means (`Spec.Less`, order of the extended
line; NaN has no place on it).
-/

set_option linter.unusedSectionVars false

namespace Beyonce
namespace Spec
variable {K : Type}

/-- Values that count as integers, with their value. -/
inductive IsInteger : PyVal K → ℤ → Prop
  | false : IsInteger (.bool false) 0
  | true : IsInteger (.bool true) 1
  | int (n) : IsInteger (.int n) n
  | npInt (w n) : IsInteger (.npInt w n) n

/-- Values that count as floats, with their value. -/
inductive IsFloat : PyVal K → XF K → Prop
  | float (x) : IsFloat (.float x) x
  | npFloat (w x) : IsFloat (.npFloat w x) x

/-- `v` is a number with value `x`; only integers if `integersOnly`. -/
def IsNumber [Field K] (integersOnly : Bool) (v : PyVal K) (x : XF K) : Prop :=
  (∃ n, IsInteger v n ∧ x = .fin (n : K)) ∨ (integersOnly = false ∧ IsFloat v x)

/-- Place on the extended line; NaN has none. -/
def place : XF K → Option (WithBot (WithTop K))
  | .nan => none
  | .ninf => some ⊥
  | .fin x => some ((x : WithTop K) : WithBot (WithTop K))
  | .pinf => some ((⊤ : WithTop K) : WithBot (WithTop K))

variable [LinearOrder K]

/-- `a` lies strictly below `b` on the extended line. -/
def Less (a b : XF K) : Prop := ∃ p q, place a = some p ∧ place b = some q ∧ p < q

/-- `a` lies below or at `b` on the extended line. -/
def LessEq (a b : XF K) : Prop := ∃ p q, place a = some p ∧ place b = some q ∧ p ≤ q

/-- `x` violates the bounds. -/
def Violates (exclusive : Bool) (lower upper x : XF K) : Prop :=
  if exclusive then LessEq x lower ∨ LessEq upper x else Less x lower ∨ Less upper x

end Spec

section
variable {K : Type} [Field K] [LinearOrder K]
open Spec

/-! ## Helper lemmas -/

theorem less_iff (a b : XF K) : Less a b ↔ XF.lt a b = true := by
  cases a <;> cases b <;> simp [Less, place, XF.lt]
  exact WithBot.coe_lt_coe.2 (WithTop.coe_lt_top _)

theorem lessEq_iff (a b : XF K) : LessEq a b ↔ XF.le a b = true := by
  cases a <;> cases b <;> simp [LessEq, place, XF.le]

theorem integerType_ok (v w : PyVal K) :
    integerType v = .ok w ↔ w = v ∧ ∃ n, IsInteger v n := by
  cases v with
  | bool b => cases b <;> simp [integerType, anyType, classObject, isinstance] <;>
      (constructor <;> (intro h; first | exact ⟨h.symm, _, by constructor⟩ | exact h.1.symm))
  | npInt w' n => cases w' <;> simp [integerType, anyType, classObject, isinstance] <;>
      (constructor <;> (intro h; first | exact ⟨h.symm, _, by constructor⟩ | exact h.1.symm))
  | int n => simp [integerType, anyType, classObject, isinstance]; 
             constructor <;> (intro h; first | exact ⟨h.symm, _, by constructor⟩ | exact h.1.symm)
  | _ => simp [integerType, anyType, classObject, isinstance]; try (rintro _ _ ⟨⟩)

theorem floatType_ok (v w : PyVal K) :
    floatType v = .ok w ↔ w = v ∧ ∃ x, IsFloat v x := by
  cases v with
  | npFloat w' n => cases w' <;> simp [floatType, anyType, classObject, isinstance] <;>
      (constructor <;> (intro h; first | exact ⟨h.symm, _, by constructor⟩ | exact h.1.symm))
  | float n => simp [floatType, anyType, classObject, isinstance]; 
               constructor <;> (intro h; first | exact ⟨h.symm, _, by constructor⟩ | exact h.1.symm)
  | _ => simp [floatType, anyType, classObject, isinstance]; try (rintro _ _ ⟨⟩)

theorem anyType_err (v : PyVal K) (ts : List PyType) :
    anyType v ts = .ok v ∨ anyType v ts = .error .typeError := by
  induction ts with
  | nil => simp [anyType]
  | cons t ts ih =>
    unfold anyType classObject
    by_cases h : isinstance v t <;> simp [h, ih]

theorem isInteger_num {v : PyVal K} {n} (h : IsInteger v n) : v.num = .fin (n : K) := by
  cases h <;> simp [PyVal.num]

theorem isFloat_num {v : PyVal K} {x} (h : IsFloat v x) : v.num = x := by
  cases h <;> simp [PyVal.num]

theorem isNumber_num {ci} {v : PyVal K} {x} (h : IsNumber ci v x) : v.num = x := by
  rcases h with ⟨n, hn, rfl⟩ | ⟨_, h⟩
  · exact isInteger_num hn
  · exact isFloat_num h

theorem numberType_ok (v w : PyVal K) (ci : Bool) :
    numberType v (.bool ci) = .ok w ↔ w = v ∧ IsNumber ci v v.num := by
  have hb : boolean (K := K) (.bool ci) = .ok ci := rfl
  have hi := integerType_ok v
  have hf := floatType_ok v
  have key : IsNumber ci v v.num ↔ (∃ n, IsInteger v n) ∨ (ci = false ∧ ∃ x, IsFloat v x) := by
    constructor
    · rintro (⟨n, h, _⟩ | ⟨h, h'⟩)
      · exact Or.inl ⟨n, h⟩
      · exact Or.inr ⟨h, _, h'⟩
    · rintro (⟨n, h⟩ | ⟨h, x, h'⟩)
      · exact Or.inl ⟨n, h, isInteger_num h⟩
      · exact Or.inr ⟨h, by rw [isFloat_num h']; exact h'⟩
  rw [key]
  unfold numberType
  rw [hb]
  cases ci
  · have e1 : (integerType v).isOk = true ↔ ∃ n, IsInteger v n := by
      rcases anyType_err v [.int, .npInt0, .npInt .w8, .npInt .w16, .npInt .w32, .npInt .w64] with h | h
      · have h' := h
        rw [show anyType v _ = integerType v from rfl] at h' 
        have := (hi v).1 h'
        simp [h', Except.isOk, Except.toBool, this.2]
      · have h' : integerType v = .error .typeError := h
        have : ¬ ∃ n, IsInteger v n := fun hn => by
          have := (hi v).2 ⟨rfl, hn⟩; rw [h'] at this; cases this
        simp [h', Except.isOk, Except.toBool]; simpa using this
    have e2 : (floatType v).isOk = true ↔ ∃ n, IsFloat v n := by
      rcases anyType_err v [.float, .npFloat .w16, .npFloat .w32, .npFloat .w64, .npFloat .w128] with h | h
      · have h' : floatType v = .ok v := h
        have := (hf v).1 h'
        simp [h', Except.isOk, Except.toBool, this.2]
      · have h' : floatType v = .error .typeError := h
        have : ¬ ∃ n, IsFloat v n := fun hn => by
          have := (hf v).2 ⟨rfl, hn⟩; rw [h'] at this; cases this
        simp [h', Except.isOk, Except.toBool]; simpa using this
    rw [← e1, ← e2]
    simp only [bind, Except.bind]
    cases (integerType v).isOk <;> cases (floatType v).isOk <;> simp [eq_comm]
  · simp [bind, Except.bind, hi]

theorem numberType_total (v : PyVal K) (ci : Bool) :
    numberType v (.bool ci) = .ok v ∨ numberType v (.bool ci) = .error .typeError := by
  have hb : boolean (K := K) (.bool ci) = .ok ci := rfl
  unfold numberType
  rw [hb]
  cases ci
  · simp only [bind, Except.bind]
    cases (integerType v).isOk <;> cases (floatType v).isOk <;> simp
  · simp only [bind, Except.bind, if_true]
    exact anyType_err v _

theorem numberType_error (v : PyVal K) (ci : Bool) :
    numberType v (.bool ci) = .error .typeError ↔ ¬ IsNumber ci v v.num := by
  have h := numberType_ok v v ci
  rcases numberType_total v ci with h' | h'
  · simp only [h', true_and, true_iff] at h; simp [h', h]
  · rw [h'] at h; simp only [true_and] at h; simp [h', ← h]

theorem not_violates_iff (ex : Bool) (lo hi x : XF K) :
    Violates ex lo hi x ↔
      ((if ex then XF.le x lo else XF.lt x lo) || (if ex then XF.le hi x else XF.lt hi x)) = true := by
  cases ex <;> simp [Violates, less_iff, lessEq_iff]

/-! ## C01 -/

/-- The arguments of `validate.number` are admissible: the value is of an accepted type,
both bounds are numbers, the bounds are not reversed and the value violates none. -/
def Spec.Acceptable (ci ex : Bool) (v lo hi : PyVal K) : Prop :=
  ∃ x l h, IsNumber ci v x ∧ IsNumber false lo l ∧ IsNumber false hi h ∧
    ¬ Less h l ∧ ¬ Violates ex l h x

/-- **C01** `validate.number` returns its argument itself, and does so exactly when the
arguments are acceptable. -/
theorem C01_number_ok_iff (ci ex : Bool) (v w lo hi : PyVal K) :
    number v (.bool ci) lo hi (.bool ex) = .ok w ↔ w = v ∧ Acceptable ci ex v lo hi := by
  have hb : boolean (K := K) (.bool ex) = .ok ex := rfl
  have hacc : Acceptable ci ex v lo hi ↔ IsNumber ci v v.num ∧ IsNumber false lo lo.num ∧
      IsNumber false hi hi.num ∧ ¬ Less hi.num lo.num ∧ ¬ Violates ex lo.num hi.num v.num := by
    constructor
    · rintro ⟨x, l, h, h1, h2, h3, h4, h5⟩
      have := isNumber_num h1; have := isNumber_num h2; have := isNumber_num h3
      subst_vars; exact ⟨h1, h2, h3, h4, h5⟩
    · rintro ⟨h1, h2, h3, h4, h5⟩; exact ⟨_, _, _, h1, h2, h3, h4, h5⟩
  rw [hacc]
  unfold number numberBounds
  rcases numberType_total v ci with h1 | h1
  · have h1' := ((numberType_ok v v ci).1 h1).2
    simp only [h1, bind, Except.bind]
    rcases numberType_total lo false with h2 | h2
    · have h2' := ((numberType_ok lo lo false).1 h2).2
      simp only [h2]
      rcases numberType_total hi false with h3 | h3
      · have h3' := ((numberType_ok hi hi false).1 h3).2
        simp only [h3, hb, less_iff, not_violates_iff, h1', h2', h3', true_and]
        by_cases h4 : XF.lt hi.num lo.num = true
        · simp [h4]
        · simp only [h4]
          cases (if ex then XF.le v.num lo.num else XF.lt v.num lo.num) <;>
          cases (if ex then XF.le hi.num v.num else XF.lt hi.num v.num) <;> simp [eq_comm]
      · simp [h3, (numberType_error hi false).1 h3]
    · simp [h2, (numberType_error lo false).1 h2]
  · simp [h1, (numberType_error v ci).1 h1, bind, Except.bind]

/-- **C01** (errors) If the call does not succeed it raises `TypeError` when a type is wrong
(of the value or of a bound) and `ValueError` otherwise; there is no third outcome. -/
theorem C01_number_errors (ci ex : Bool) (v lo hi : PyVal K)
    (h : ¬ Acceptable ci ex v lo hi) :
    ((∃ x, IsNumber ci v x) ∧ (∃ x, IsNumber false lo x) ∧ (∃ x, IsNumber false hi x) →
      number v (.bool ci) lo hi (.bool ex) = .error .valueError) ∧
    (¬ ((∃ x, IsNumber ci v x) ∧ (∃ x, IsNumber false lo x) ∧ (∃ x, IsNumber false hi x)) →
      number v (.bool ci) lo hi (.bool ex) = .error .typeError) := by
  have hb : boolean (K := K) (.bool ex) = .ok ex := rfl
  have hex : ∀ (c : Bool) (u : PyVal K), (∃ x, IsNumber c u x) ↔ IsNumber c u u.num := by
    intro c u
    exact ⟨fun ⟨x, hx⟩ => by rw [isNumber_num hx]; exact hx, fun hx => ⟨_, hx⟩⟩
  have hno : ∀ w, number v (.bool ci) lo hi (.bool ex) ≠ .ok w := fun w hw =>
    h ((C01_number_ok_iff ci ex v w lo hi).1 hw).2
  simp only [hex]
  revert hno
  unfold number numberBounds
  rcases numberType_total v ci with h1 | h1
  · have h1' := ((numberType_ok v v ci).1 h1).2
    simp only [h1, bind, Except.bind]
    rcases numberType_total lo false with h2 | h2
    · have h2' := ((numberType_ok lo lo false).1 h2).2
      simp only [h2]
      rcases numberType_total hi false with h3 | h3
      · have h3' := ((numberType_ok hi hi false).1 h3).2
        simp only [h3, hb, h1', h2', h3', and_self, true_imp_iff, not_true, false_imp_iff, and_true]
        intro hno
        split_ifs at hno ⊢ <;> first | rfl | exact absurd rfl (hno v)
      · simp [h3, (numberType_error hi false).1 h3]
    · simp [h2, (numberType_error lo false).1 h2]
  · simp [h1, (numberType_error v ci).1 h1, bind, Except.bind]

/-- Non-vacuity: both outcomes occur. -/
example : Acceptable (K := ℚ) false true (.float (.fin (1/2))) (.int 0) (.npFloat .w64 .pinf) :=
  ⟨.fin (1/2), .fin ((0:ℤ):ℚ), .pinf, Or.inr ⟨rfl, .float _⟩, Or.inl ⟨0, .int 0, rfl⟩,
    Or.inr ⟨rfl, .npFloat _ _⟩, by rw [less_iff]; decide, by
      rw [not_violates_iff]; simp [XF.le]⟩
example : number (K := ℚ) (.float (.fin 2)) (.bool false) (.int 0) (.int 1) = .error .valueError := by
  decide +kernel
example : number (K := ℚ) (.str "2") (.bool false) (.int 0) (.int 1) = .error .typeError := by
  decide +kernel
example : number (K := ℚ) (.float (.fin 2)) (.bool true) = .error .typeError := by
  decide +kernel
example : number (K := ℚ) (.bool true) (.bool true) (.int 1) (.int 1) = .ok (.bool true) := by
  decide +kernel

/-! ## C02 -/

/-- `x` lies within the bounds. -/
def Spec.Within (exclusive : Bool) (lower upper x : XF K) : Prop :=
  if exclusive then Less lower x ∧ Less x upper else LessEq lower x ∧ LessEq x upper

/-- **C02 (partial)** A value accepted by `validate.number` lies within its bounds,
provided that neither it nor a bound is NaN.  Missing for the full claim: NaN, for which it
is false (`C02_nan_accepted`). -/
theorem C02_accepted_in_bounds_partial (ci ex : Bool) (v w lo hi : PyVal K)
    (h : number v (.bool ci) lo hi (.bool ex) = .ok w)
    (hv : ¬ IsNumber ci v .nan) (hlo : ¬ IsNumber false lo .nan) (hhi : ¬ IsNumber false hi .nan) :
    ∃ x l u, IsNumber ci v x ∧ IsNumber false lo l ∧ IsNumber false hi u ∧ Within ex l u x := by
  obtain ⟨-, x, l, u, h1, h2, h3, h4, h5⟩ := (C01_number_ok_iff ci ex v w lo hi).1 h
  refine ⟨x, l, u, h1, h2, h3, ?_⟩
  have hx : x ≠ .nan := by rintro rfl; exact hv h1
  have hl : l ≠ .nan := by rintro rfl; exact hlo h2
  have hu : u ≠ .nan := by rintro rfl; exact hhi h3
  rw [not_violates_iff] at h5
  cases ex
  · simp only [Within, Bool.false_eq_true, if_false, lessEq_iff] at *
    rw [XF.lt_eq_not_le hx hl, XF.lt_eq_not_le hu hx] at h5
    simpa using h5
  · simp only [Within, if_true, less_iff] at *
    rw [XF.lt_eq_not_le hx hu, XF.lt_eq_not_le hl hx]
    simpa using h5

/-- **C02 is false for NaN**: NaN is accepted whatever the bounds are (as long as they are
numbers in the right order), although it lies within none. -/
theorem C02_nan_accepted (ex : Bool) (lo hi : PyVal K) (l u : XF K)
    (hl : IsNumber false lo l) (hu : IsNumber false hi u) (hlu : ¬ Less u l) :
    number (.float .nan) (.bool false) lo hi (.bool ex) = .ok (.float .nan) ∧
      ¬ Within ex l u .nan := by
  constructor
  · rw [C01_number_ok_iff]
    refine ⟨rfl, .nan, l, u, Or.inr ⟨rfl, .float _⟩, hl, hu, hlu, ?_⟩
    rw [not_violates_iff]; cases ex <;> simp
  · cases ex <;> simp [Within, less_iff, lessEq_iff]

/-- The witness: NaN passes as a transmission, which must be between 0 and 1. -/
theorem C02_false [IsStrictOrderedRing K] :
    ∃ v : PyVal K, (∃ w, number v (.bool false) (.float (.fin 0)) (.float (.fin 1)) = .ok w) ∧
      ∀ x, IsNumber false v x → ¬ Within false (.fin 0) (.fin 1) x := by
  have h := C02_nan_accepted (K := K) false (.float (.fin 0)) (.float (.fin 1)) (.fin 0) (.fin 1)
    (Or.inr ⟨rfl, .float _⟩) (Or.inr ⟨rfl, .float _⟩) (by rw [less_iff]; simp)
  refine ⟨.float .nan, ⟨.float .nan, h.1⟩, ?_⟩
  rintro x (⟨n, h, _⟩ | ⟨_, h'⟩)
  · cases h
  · cases h'; exact h.2

example : ∃ x l u, IsNumber (K := ℚ) false (.float (.fin (1/2))) x ∧ IsNumber false (.int 0) l ∧
    IsNumber false (.int 1) u ∧ Within true l u x :=
  C02_accepted_in_bounds_partial false true _ (.float (.fin (1/2))) _ _
    (by decide +kernel)
    (by rintro (⟨_, h, _⟩ | ⟨_, h⟩) <;> cases h)
    (by rintro (⟨_, _, h⟩ | ⟨_, h⟩) <;> cases h)
    (by rintro (⟨_, _, h⟩ | ⟨_, h⟩) <;> cases h)

/-! ## C03 -/

/-- What `validate.array` promises about an array `a`; each restriction only applies if
its argument is given. -/
structure Spec.ArrayFits (ex : Bool) (lo hi : Option (PyVal K)) (dtype : Option String)
    (ndim : Option (PyVal K)) (a : NpArr K) : Prop where
  /-- given bounds are numbers in the right order and no element violates them -/
  bounds : (lo.isSome ∨ hi.isSome) → ∃ l u, IsNumber false (lo.getD (.float .ninf)) l ∧
    IsNumber false (hi.getD (.float .pinf)) u ∧ ¬ Less u l ∧ ∀ x ∈ a.data, ¬ Violates ex l u x
  /-- the number of dimensions -/
  dims : ∀ d, ndim = some d → ∃ n : ℤ, IsInteger d n ∧ ((a.shape.length : ℤ) : K) = n
  /-- the dtype -/
  type : ∀ d, dtype = some d → a.dtype = d

/-- An optional Python argument: absent is `None`. -/
def optArg : Option (PyVal K) → PyVal K
  | none => .none
  | some v => v

theorem arrayBounds_ok (a b : NpArr K) (lo hi : PyVal K) (ex : Bool) :
    arrayBounds a lo hi (.bool ex) = .ok b ↔ b = a ∧ ∃ l u, IsNumber false lo l ∧
      IsNumber false hi u ∧ ¬ Less u l ∧ ∀ x ∈ a.data, ¬ Violates ex l u x := by
  have hb : boolean (K := K) (.bool ex) = .ok ex := rfl
  have key : (∃ l u, IsNumber false lo l ∧ IsNumber false hi u ∧ ¬ Less u l ∧
      ∀ x ∈ a.data, ¬ Violates ex l u x) ↔ IsNumber false lo lo.num ∧ IsNumber false hi hi.num ∧
      ¬ Less hi.num lo.num ∧ ∀ x ∈ a.data, ¬ Violates ex lo.num hi.num x := by
    constructor
    · rintro ⟨l, h, h2, h3, h4, h5⟩
      have := isNumber_num h2; have := isNumber_num h3
      subst_vars; exact ⟨h2, h3, h4, h5⟩
    · rintro ⟨h2, h3, h4, h5⟩; exact ⟨_, _, h2, h3, h4, h5⟩
  rw [key]
  unfold arrayBounds
  rcases numberType_total lo false with h2 | h2
  · have h2' := ((numberType_ok lo lo false).1 h2).2
    simp only [h2, bind, Except.bind]
    rcases numberType_total hi false with h3 | h3
    · have h3' := ((numberType_ok hi hi false).1 h3).2
      simp only [h3, hb, less_iff, not_violates_iff, h2', h3', true_and]
      by_cases h4 : XF.lt hi.num lo.num = true
      · simp [h4]
      · simp only [h4]
        have : (∀ x ∈ a.data, ¬ ((if ex then XF.le x lo.num else XF.lt x lo.num) ||
            (if ex then XF.le hi.num x else XF.lt hi.num x)) = true) ↔
            ((a.data.any fun x => if ex then XF.le x lo.num else XF.lt x lo.num) ||
            (a.data.any fun x => if ex then XF.le hi.num x else XF.lt hi.num x)) = false := by
          rw [Bool.or_eq_false_iff, List.any_eq_false, List.any_eq_false]
          simp only [Bool.or_eq_true, not_or]
          exact ⟨fun h => ⟨fun x hx => (h x hx).1, fun x hx => (h x hx).2⟩,
            fun h x hx => ⟨h.1 x hx, h.2 x hx⟩⟩
        rw [this]
        cases (a.data.any fun x => if ex then XF.le x lo.num else XF.lt x lo.num) <;>
        cases (a.data.any fun x => if ex then XF.le hi.num x else XF.lt hi.num x) <;>
          simp [eq_comm]
    · simp [h3, (numberType_error hi false).1 h3]
  · simp [h2, (numberType_error lo false).1 h2, bind, Except.bind]

theorem arrayDimensions_ok (a b : NpArr K) (d : PyVal K) :
    arrayDimensions a d = .ok b ↔ b = a ∧ ∃ n : ℤ, IsInteger d n ∧
      ((a.shape.length : ℤ) : K) = n := by
  unfold arrayDimensions
  rcases numberType_total d true with h2 | h2
  · have h2' := ((numberType_ok d d true).1 h2).2
    simp only [h2, bind, Except.bind]
    obtain ⟨n, hn, hx⟩ | ⟨h, -⟩ := h2'
    · rw [hx]
      have hu : ∀ m, IsInteger d m → m = n := by
        intro m hm; cases hm <;> cases hn <;> rfl
      simp only [XF.eqb_fin, decide_eq_true_eq]
      split_ifs with h
      · constructor
        · rintro ⟨⟩; exact ⟨rfl, n, hn, by simpa using h⟩
        · rintro ⟨rfl, _⟩; rfl
      · constructor
        · rintro ⟨⟩
        · rintro ⟨rfl, m, hm, he⟩; rw [hu m hm] at he; exact absurd (by simpa using he) h
    · cases h
  · simp only [h2, bind, Except.bind]
    constructor
    · rintro ⟨⟩
    · rintro ⟨_, n, hn, _⟩
      exact absurd (Or.inl ⟨n, hn, isInteger_num hn⟩) ((numberType_error d true).1 h2)

theorem arrayType_ok (a b : NpArr K) (d : String) :
    arrayType a (.str d) = .ok b ↔ b = a ∧ a.dtype = d := by
  have : string (K := K) (.str d) = .ok d := rfl
  unfold arrayType
  simp only [this, bind, Except.bind]
  split_ifs with h <;> simp [h, eq_comm]

/-- **C03** `validate.array` succeeds exactly for numpy arrays that fit all the given
restrictions, and then returns the array itself.  (`None` is how Python writes an absent
argument, so an explicit `lower_bound` that is given must not be `None`.) -/
theorem C03_array_ok_iff (ex : Bool) (v : PyVal K) (b : NpArr K) (lo hi ndim : Option (PyVal K))
    (dtype : Option String) (hlo : lo ≠ some .none) (hhi : hi ≠ some .none)
    (hnd : ndim ≠ some .none) :
    array v (optArg lo) (optArg hi) (.bool ex) (optArg (dtype.map .str)) (optArg ndim) = .ok b ↔
      v = .arr b ∧ ArrayFits ex lo hi dtype ndim b := by
  by_cases hv : ∃ a, v = .arr a
  · obtain ⟨a, rfl⟩ := hv
    have hal : arrayLike (.arr a) = .ok a := rfl
    have hlo' : ∀ x, lo = some x → x ≠ .none := by rintro x rfl rfl; exact hlo rfl
    have hhi' : ∀ x, hi = some x → x ≠ .none := by rintro x rfl rfl; exact hhi rfl
    have hnd' : ∀ x, ndim = some x → x ≠ .none := by rintro x rfl rfl; exact hnd rfl
    -- the three stages
    let B : Except Err Unit := if optArg lo ≠ .none ∨ optArg hi ≠ .none then
        (do let _ ← arrayBounds a (lo.getD (.float .ninf)) (hi.getD (.float .pinf)) (.bool ex))
      else .ok ()
    let D : Except Err Unit := if optArg ndim ≠ .none then
        (do let _ ← arrayDimensions a (optArg ndim)) else .ok ()
    let T : Except Err Unit := if optArg (dtype.map (PyVal.str (K := K))) ≠ .none then
        (do let _ ← arrayType a (optArg (dtype.map .str))) else .ok ()
    have hB : B = .ok () ↔ ((lo.isSome ∨ hi.isSome) → ∃ l u,
        IsNumber false (lo.getD (.float .ninf)) l ∧
        IsNumber false (hi.getD (.float .pinf)) u ∧ ¬ Less u l ∧
        ∀ x ∈ a.data, ¬ Violates ex l u x) := by
      have hc : (optArg lo ≠ .none ∨ optArg hi ≠ .none) ↔ (lo.isSome ∨ hi.isSome) := by
        cases lo <;> cases hi <;> simp [optArg] <;> simp_all
      by_cases h : lo.isSome ∨ hi.isSome
      · simp only [B, if_pos (hc.2 h), h, true_imp_iff]
        have := arrayBounds_ok a a (lo.getD (.float .ninf)) (hi.getD (.float .pinf)) ex
        simp only [true_and] at this
        rw [← this]
        cases hh : arrayBounds a (lo.getD (.float .ninf)) (hi.getD (.float .pinf)) (.bool ex) with
        | error e => simp [bind, Except.bind]
        | ok x =>
          have := ((arrayBounds_ok a x _ _ ex).1 hh).1
          simp [bind, Except.bind, this, pure, Except.pure]
      · simp only [B, if_neg (fun h' => h (hc.1 h')), h, false_imp_iff]
    have hD : D = .ok () ↔ ∀ d, ndim = some d → ∃ n : ℤ, IsInteger d n ∧
        ((a.shape.length : ℤ) : K) = n := by
      cases ndim with
      | none => simp [D, optArg]
      | some d =>
        have hne := hnd' d rfl
        have := arrayDimensions_ok a a d
        simp only [true_and] at this
        simp only [D, optArg, ne_eq, hne, not_false_eq_true, if_true, Option.some.injEq,
          forall_eq']
        rw [← this]
        cases hh : arrayDimensions a d with
        | error e => simp [bind, Except.bind]
        | ok x =>
          have := ((arrayDimensions_ok a x _).1 hh).1
          simp [bind, Except.bind, this, pure, Except.pure]
    have hT : T = .ok () ↔ ∀ d, dtype = some d → a.dtype = d := by
      cases dtype with
      | none => simp [T, optArg]
      | some d =>
        have := arrayType_ok a a d
        simp only [true_and] at this
        simp only [T, optArg, Option.map_some, ne_eq, reduceCtorEq, not_false_eq_true, if_true,
          Option.some.injEq, forall_eq']
        rw [← this]
        cases hh : arrayType a (.str d) with
        | error e => simp [bind, Except.bind]
        | ok x =>
          have := ((arrayType_ok a x _).1 hh).1
          simp [bind, Except.bind, this, pure, Except.pure]
    have hlo2 : (if optArg lo = .none then PyVal.float .ninf else optArg lo) =
        lo.getD (.float .ninf) := by
      cases lo with
      | none => simp [optArg]
      | some x => simp [optArg, hlo' x rfl]
    have hhi2 : (if optArg hi = .none then PyVal.float .pinf else optArg hi) =
        hi.getD (.float .pinf) := by
      cases hi with
      | none => simp [optArg]
      | some x => simp [optArg, hhi' x rfl]
    have hfold : array (.arr a) (optArg lo) (optArg hi) (.bool ex) (optArg (dtype.map .str))
        (optArg ndim) = (do B; D; T; .ok a) := by
      unfold array
      rw [hal, hlo2, hhi2]
      simp only [B, D, T, bind, Except.bind, pure, Except.pure]
      generalize arrayBounds a (lo.getD (.float .ninf)) (hi.getD (.float .pinf)) (.bool ex) = rb
      generalize arrayDimensions a (optArg ndim) = rd
      generalize arrayType a (optArg (dtype.map .str)) = rt
      cases rb <;> cases rd <;> cases rt <;>
      by_cases c1 : optArg lo ≠ .none ∨ optArg hi ≠ .none <;>
      by_cases c2 : optArg ndim ≠ .none <;>
      by_cases c3 : optArg (dtype.map (PyVal.str (K := K))) ≠ .none <;>
      first | (simp only [if_pos c1, if_pos c2, if_pos c3]; done)
            | (simp only [if_pos c1, if_pos c2, if_neg c3]; done)
            | (simp only [if_pos c1, if_neg c2, if_pos c3]; done)
            | (simp only [if_pos c1, if_neg c2, if_neg c3]; done)
            | (simp only [if_neg c1, if_pos c2, if_pos c3]; done)
            | (simp only [if_neg c1, if_pos c2, if_neg c3]; done)
            | (simp only [if_neg c1, if_neg c2, if_pos c3]; done)
            | (simp only [if_neg c1, if_neg c2, if_neg c3]; done)
    rw [hfold]
    have : (do B; D; T; Except.ok a) = .ok b ↔ B = .ok () ∧ D = .ok () ∧ T = .ok () ∧ a = b := by
      cases B <;> cases D <;> cases T <;> simp [bind, Except.bind]
    rw [this, hB, hD, hT]
    constructor
    · rintro ⟨h1, h2, h3, rfl⟩; exact ⟨rfl, h1, h2, h3⟩
    · rintro ⟨h, h1, h2, h3⟩; cases h; exact ⟨h1, h2, h3, rfl⟩
  · constructor
    · intro h
      exfalso
      unfold array at h
      cases v <;> simp [arrayLike, classObject, isinstance, bind, Except.bind] at h
      exact hv ⟨_, rfl⟩
    · rintro ⟨rfl, _⟩; exact absurd ⟨b, rfl⟩ hv

/-- Non-vacuity, and the order in which errors are found: bounds before dimensions before
dtype. -/
example : array (K := ℚ) (.arr ⟨"float64", [2], [.fin 0, .fin 1]⟩) (.int 0) .none (.bool false)
    (.str "float64") (.int 1) = .ok ⟨"float64", [2], [.fin 0, .fin 1]⟩ := by decide +kernel
example : array (K := ℚ) (.arr ⟨"int64", [1, 1], [.fin (-1)]⟩) (.int 0) .none (.bool false)
    (.str "float64") (.int 1) = .error .valueError := by decide +kernel
example : array (K := ℚ) (.arr ⟨"int64", [1, 1], [.fin 1]⟩) (.int 0) .none (.bool false)
    (.str "float64") (.int 1) = .error .invalidDimensionsError := by decide +kernel

/-- **C03** (order of checks) an element that violates the bounds is reported as `ValueError`
even if dimensions and dtype are wrong as well. -/
theorem C03_bounds_first (a : NpArr K) (lo hi : PyVal K) (l u : XF K) (ex : Bool)
    (dtype ndim : PyVal K) (hl : IsNumber false lo l) (hu : IsNumber false hi u)
    (h : ∃ x ∈ a.data, Violates ex l u x) :
    array (.arr a) lo hi (.bool ex) dtype ndim = .error .valueError := by
  have hlo : lo ≠ .none := by rintro rfl; rcases hl with ⟨_, h, _⟩ | ⟨_, h⟩ <;> cases h
  have hhi : hi ≠ .none := by rintro rfl; rcases hu with ⟨_, h, _⟩ | ⟨_, h⟩ <;> cases h
  have hln := isNumber_num hl
  have hun := isNumber_num hu
  have h1 := (numberType_ok lo lo false).2 ⟨rfl, by rw [hln]; exact hl⟩
  have h2 := (numberType_ok hi hi false).2 ⟨rfl, by rw [hun]; exact hu⟩
  have hb : boolean (K := K) (.bool ex) = .ok ex := rfl
  have hal : arrayLike (.arr a) = .ok a := rfl
  have key : arrayBounds a lo hi (.bool ex) = .error .valueError := by
    unfold arrayBounds
    simp only [h1, h2, hb, bind, Except.bind, hln, hun]
    obtain ⟨x, hx, hv⟩ := h
    rw [not_violates_iff] at hv
    by_cases h3 : XF.lt u l = true
    · simp [h3]
    rw [if_neg h3, if_pos]
    by_contra h4
    · 
      rw [Bool.or_eq_true, not_or, Bool.not_eq_true, Bool.not_eq_true, List.any_eq_false,
        List.any_eq_false] at h4
      have h5 := h4.1 x hx
      have h6 := h4.2 x hx
      rw [Bool.or_eq_true] at hv
      rcases hv with hv | hv
      · exact h5 hv
      · exact h6 hv
  unfold array
  simp [hal, hlo, hhi, key, bind, Except.bind]

/-! ## C04 -/

theorem sameShapeLoop_ok (shape : List Nat) (vs : List (PyVal K)) (e e' : Bool) :
    sameShapeLoop shape vs e = .ok e' ↔ (∃ as : List (NpArr K), vs = as.map .arr ∧
      (e' = true ↔ e = true ∨ ∃ a ∈ as, a.shape ≠ shape)) := by
  induction vs generalizing e with
  | nil => 
    simp only [sameShapeLoop]
    constructor
    · rintro ⟨⟩; exact ⟨[], rfl, by simp⟩
    · rintro ⟨as, h, h'⟩
      have : as = [] := by simpa using h.symm
      subst this
      cases e <;> cases e' <;> simp_all
  | cons v vs ih =>
    unfold sameShapeLoop
    by_cases hv : ∃ a, v = .arr a
    · obtain ⟨a, rfl⟩ := hv
      have hal : arrayLike (.arr a) = .ok a := rfl
      simp only [hal, bind, Except.bind]
      rw [ih]
      constructor
      · rintro ⟨as, rfl, h⟩
        refine ⟨a :: as, rfl, h.trans ?_⟩
        simp [or_assoc]
      · rintro ⟨as, h, h'⟩
        cases as with
        | nil => simp at h
        | cons a' as =>
          simp only [List.map_cons, List.cons.injEq, PyVal.arr.injEq] at h
          obtain ⟨rfl, rfl⟩ := h
          refine ⟨as, rfl, h'.trans ?_⟩
          simp [or_assoc]
    · have : arrayLike v = .error .typeError := by
        cases v <;> first | rfl | exact absurd ⟨_, rfl⟩ hv
      simp only [this, bind, Except.bind]
      constructor
      · rintro ⟨⟩
      · rintro ⟨as, h, _⟩
        cases as with
        | nil => simp at h
        | cons a' as => exact absurd ⟨a', by simp at h; exact h.1⟩ hv

/-- **C04** `same_shape_arrays` succeeds exactly if there are at least two arrays, as many
names, and any two arrays have the same shape. -/
theorem C04_sameShapeArrays_iff (vs : List (PyVal K)) (names : Nat) :
    sameShapeArrays vs names = .ok () ↔ 2 ≤ vs.length ∧ names = vs.length ∧
      ∃ as : List (NpArr K), vs = as.map .arr ∧ ∀ a ∈ as, ∀ b ∈ as, a.shape = b.shape := by
  unfold sameShapeArrays
  split_ifs with h1 h2
  · simp only [false_iff]; rintro ⟨h, _⟩; omega
  · simp only [false_iff]; rintro ⟨_, h, _⟩; exact h2 h.symm
  · cases vs with
    | nil => simp at h1
    | cons v vs =>
      simp only
      constructor
      · intro h
        cases hs : v.shape with
        | error e => rw [hs] at h; simp [bind, Except.bind] at h
        | ok shape =>
          rw [hs] at h
          simp only [bind, Except.bind] at h
          cases hl : sameShapeLoop shape (v :: vs) false with
          | error e => rw [hl] at h; simp at h
          | ok e' =>
            rw [hl] at h
            cases e' with
            | true => simp at h
            | false =>
              obtain ⟨as, has, he⟩ := (sameShapeLoop_ok _ _ _ _).1 hl
              refine ⟨by omega, by omega, as, has, ?_⟩
              have : ∀ a ∈ as, a.shape = shape := by simpa using he
              intro a ha b hb
              rw [this a ha, this b hb]
      · rintro ⟨-, -, as, has, h⟩
        cases as with
        | nil => simp at has
        | cons a as =>
          have hv : v = .arr a := by simp at has; exact has.1
          subst hv
          have hs : (PyVal.arr a).shape = .ok a.shape := rfl
          simp only [hs, bind, Except.bind]
          have : sameShapeLoop a.shape (PyVal.arr a :: vs) false = .ok false := by
            rw [sameShapeLoop_ok]
            refine ⟨a :: as, has, ?_⟩
            simp only [Bool.false_eq_true, false_or, false_iff, not_exists, not_and, not_not]
            intro b hb
            exact h b hb a (by simp)
          rw [this]; rfl

example : sameShapeArrays (K := ℚ) [.arr ⟨"float64", [2, 1], [.fin 0, .fin 1]⟩,
    .arr ⟨"int64", [2, 1], [.fin 0, .fin 1]⟩, .arr ⟨"bool", [2, 1], [.fin 0, .fin 1]⟩] 3 = .ok () := by
  decide +kernel
example : sameShapeArrays (K := ℚ) [.arr ⟨"float64", [2, 1], [.fin 0, .fin 1]⟩,
    .arr ⟨"float64", [1, 2], [.fin 0, .fin 1]⟩] 2 = .error .invalidShapeError := by
  decide +kernel

end
end Beyonce
