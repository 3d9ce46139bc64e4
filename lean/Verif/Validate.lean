import Verif.Num

/-!
# `/repo/validate.py`

Python values are modelled by `PyVal K`; every function of `validate.py` is transcribed
branch by branch.  The `name` arguments only go into messages and are dropped.
-/

namespace Beyonce

/-- Widths of numpy integer scalars listed in validate.py L445. -/
inductive IntW | w8 | w16 | w32 | w64 deriving DecidableEq, Repr
/-- Widths of numpy float scalars listed in validate.py L476. -/
inductive FloatW | w16 | w32 | w64 | w128 deriving DecidableEq, Repr

/-- A numpy array: dtype string, shape and flat C-order numeric data
(booleans are 0/1).  String and object arrays are not modelled. -/
structure NpArr (K : Type) where
  dtype : String
  shape : List Nat
  data : List (XF K)
  deriving DecidableEq, Repr

/-- Python values as far as `validate.py` can tell them apart.  Numpy scalars are separate
constructors because `isinstance` sees them as different classes. `obj c` is an instance
of a class called `c` that is none of the others. -/
inductive PyVal (K : Type)
  | none
  | bool (b : Bool)
  | int (n : ℤ)
  | float (x : XF K)
  | npBool (b : Bool)
  | npInt (w : IntW) (n : ℤ)
  | npUInt (n : ℕ)
  | npFloat (w : FloatW) (x : XF K)
  | str (s : String)
  | arr (a : NpArr K)
  | obj (cls : String)
  deriving DecidableEq, Repr

/-- The classes that are tested with `isinstance` in validate.py. -/
inductive PyType
  | bool | str | ndarray | int | npInt0 | npInt (w : IntW) | float | npFloat (w : FloatW)
  | cls (c : String)
  deriving DecidableEq, Repr

section
variable {K : Type}

/-- `isinstance(v, t)`: `bool` is a subclass of `int`, `np.float64` is a subclass of
`float`, `np.int0` is `np.int64` (the platform's pointer-sized integer). -/
def isinstance : PyVal K → PyType → Bool
  | .bool _, .bool => true
  | .bool _, .int => true
  | .int _, .int => true
  | .float _, .float => true
  | .npInt w _, .npInt w' => w = w'
  | .npInt w _, .npInt0 => w = .w64
  | .npFloat w _, .npFloat w' => w = w'
  | .npFloat .w64 _, .float => true
  | .str _, .str => true
  | .arr _, .ndarray => true
  | .obj c, .cls c' => c = c'
  | _, _ => false

/-- validate.py L404-432 `class_object`. -/
def classObject (v : PyVal K) (t : PyType) : Except Err (PyVal K) :=
  if isinstance v t then .ok v else .error .typeError

/-- validate.py L11-23 `boolean`; the result is used as a condition, so the model returns
the `Bool`. -/
def boolean (v : PyVal K) : Except Err Bool := do
  let v ← classObject v .bool
  match v with
  | .bool b => .ok b
  | _ => .error .typeError

/-- validate.py L25-37 `string`. -/
def string (v : PyVal K) : Except Err String := do
  let v ← classObject v .str
  match v with
  | .str s => .ok s
  | _ => .error .typeError

/-- The loop of `_integer_type` and `_float_type`, validate.py L449-461, L480-492:
accepted as soon as one of the types fits. -/
def anyType (v : PyVal K) : List PyType → Except Err (PyVal K)
  | [] => .error .typeError
  | t :: ts => match classObject v t with
    | .ok v => .ok v
    | .error _ => anyType v ts

/-- validate.py L434-463 `_integer_type`. -/
def integerType (v : PyVal K) : Except Err (PyVal K) :=
  anyType v [.int, .npInt0, .npInt .w8, .npInt .w16, .npInt .w32, .npInt .w64]

/-- validate.py L465-494 `_float_type`. -/
def floatType (v : PyVal K) : Except Err (PyVal K) :=
  anyType v [.float, .npFloat .w16, .npFloat .w32, .npFloat .w64, .npFloat .w128]

/-- validate.py L71-110 `_number_type`. -/
def numberType (v : PyVal K) (checkInteger : PyVal K := .bool false) :
    Except Err (PyVal K) := do
  let ci ← boolean checkInteger
  if ci then integerType v
  else
    let i := (integerType v).isOk
    let f := (floatType v).isOk
    if !i && !f then .error .typeError else .ok v

/-- The number a value stands for in comparisons. Values that are no numbers are never
compared (their type is checked first); they get NaN. -/
def PyVal.num [Field K] : PyVal K → XF K
  | .bool b => .fin (if b then 1 else 0)
  | .int n => .fin n
  | .float x => x
  | .npBool b => .fin (if b then 1 else 0)
  | .npInt _ n => .fin n
  | .npUInt n => .fin n
  | .npFloat _ x => x
  | _ => .nan

@[simp] theorem PyVal.num_float [Field K] (x : XF K) : (PyVal.float x).num = x := rfl
@[simp] theorem PyVal.num_npFloat [Field K] (w : FloatW) (x : XF K) :
    (PyVal.npFloat w x).num = x := rfl
@[simp] theorem PyVal.num_int [Field K] (n : ℤ) : (PyVal.int n : PyVal K).num = .fin n := rfl

variable [Field K] [LinearOrder K]

/-- validate.py L112-176 `_number_bounds`. -/
def numberBounds (v lower upper exclusive : PyVal K) : Except Err (PyVal K) := do
  let _ ← numberType lower
  let _ ← numberType upper
  let ex ← boolean exclusive
  if XF.lt upper.num lower.num then .error .valueError
  else
    let tooLow := if ex then XF.le v.num lower.num else XF.lt v.num lower.num
    let tooHigh := if ex then XF.le upper.num v.num else XF.lt upper.num v.num
    if tooLow || tooHigh then .error .valueError else .ok v

/-- validate.py L39-69 `number` with its default arguments. -/
def number (v : PyVal K) (checkInteger : PyVal K := .bool false)
    (lower : PyVal K := .float .ninf) (upper : PyVal K := .float .pinf)
    (exclusive : PyVal K := .bool false) : Except Err (PyVal K) := do
  let v ← numberType v checkInteger
  numberBounds v lower upper exclusive

/-- validate.py L234-249 `_array_like`. -/
def arrayLike (v : PyVal K) : Except Err (NpArr K) := do
  let v ← classObject v .ndarray
  match v with
  | .arr a => .ok a
  | _ => .error .typeError

/-- validate.py L251-316 `_array_bounds`. -/
def arrayBounds (a : NpArr K) (lower upper exclusive : PyVal K) : Except Err (NpArr K) := do
  let _ ← numberType lower
  let _ ← numberType upper
  let ex ← boolean exclusive
  if XF.lt upper.num lower.num then .error .valueError
  else
    let tooLow := a.data.any fun x =>
      if ex then XF.le x lower.num else XF.lt x lower.num
    let tooHigh := a.data.any fun x =>
      if ex then XF.le upper.num x else XF.lt upper.num x
    if tooLow || tooHigh then .error .valueError else .ok a

/-- validate.py L318-344 `_array_dimensions`. -/
def arrayDimensions (a : NpArr K) (numDimensions : PyVal K) : Except Err (NpArr K) := do
  let _ ← numberType numDimensions (.bool true)
  if XF.eqb (.fin (a.shape.length : K)) numDimensions.num then .ok a
  else .error .invalidDimensionsError

/-- validate.py L346-368 `_array_type`. -/
def arrayType (a : NpArr K) (dtype : PyVal K) : Except Err (NpArr K) := do
  let d ← string dtype
  if a.dtype = d then .ok a else .error .typeError

/-- validate.py L178-232 `array` with its default arguments (`None` = `.none`). -/
def array (v : PyVal K) (lower : PyVal K := .none) (upper : PyVal K := .none)
    (exclusive : PyVal K := .bool false) (dtype : PyVal K := .none)
    (numDimensions : PyVal K := .none) : Except Err (NpArr K) := do
  let a ← arrayLike v
  if lower ≠ .none ∨ upper ≠ .none then
    let lower := if lower = .none then .float .ninf else lower
    let upper := if upper = .none then .float .pinf else upper
    let _ ← arrayBounds a lower upper exclusive
  if numDimensions ≠ .none then
    let _ ← arrayDimensions a numDimensions
  if dtype ≠ .none then
    let _ ← arrayType a dtype
  .ok a

/-- The integer that `operator.index` gives for a value accepted as integer (`bool` is an `int`):
used by every slice, index and count in the package. -/
def PyVal.toInt : PyVal K → ℤ
  | .bool b => if b then 1 else 0
  | .int n => n
  | .npInt _ n => n
  | _ => 0

/-- The attribute access `arrays_list[0].shape` of validate.py L393: anything but an array
has no `shape` (numpy scalars, which do have one, are treated as shape `()`). -/
def PyVal.shape : PyVal K → Except Err (List Nat)
  | .arr a => .ok a.shape
  | .npBool _ | .npInt _ _ | .npUInt _ | .npFloat _ _ => .ok []
  | _ => .error .attributeError

/-- The loop of validate.py L396-399; `error` is accumulated, a non-array raises at once. -/
def sameShapeLoop (shape : List Nat) : List (PyVal K) → Bool → Except Err Bool
  | [], error => .ok error
  | v :: vs, error => do
    let a ← arrayLike v
    sameShapeLoop shape vs (error || decide (a.shape ≠ shape))

/-- validate.py L370-402 `same_shape_arrays`; `names` is the length of `names_list`. -/
def sameShapeArrays (arrays : List (PyVal K)) (names : Nat) : Except Err Unit := do
  if arrays.length < 2 then .error .attributeError
  else if arrays.length ≠ names then .error .attributeError
  else match arrays with
    | [] => .error .indexError
    | first :: _ => do
      let shape ← first.shape
      let error ← sameShapeLoop shape arrays false
      if error then .error .invalidShapeError else .ok ()

end
end Beyonce
