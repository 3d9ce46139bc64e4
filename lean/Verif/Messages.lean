import Verif.Texts
import Verif.RingSystem

/-!
# The messages of exceptions

`/repo/validate.py` and `/repo/errors.py` again, with the names of arguments and the texts of the exceptions
that `Validate.lean` drops.  Also the texts of `_prevent_ring_overlap` and of the loaders.

An error is its class and its message.  The message of an exception that Python itself raises is that of
CPython 3.  Numbers in messages are formatted as in `Texts.lean`.
-/

namespace Beyonce

/-- A class of exceptions and a message. -/
abbrev Raised := Err × String

/-- `s[:-n]` for `n > 0`. -/
def cutEnd (n : ℕ) (s : String) : String := String.ofList (s.toList.take (s.toList.length - n))

/-- `str` of a shape: a tuple with one element has a comma. -/
def shapeText : List ℕ → String
  | [] => "()"
  | [a] => "(" ++ toString a ++ ",)"
  | a :: l => "(" ++ toString a ++ l.foldr (fun b s => ", " ++ toString b ++ s) "" ++ ")"

section
variable {K : Type}

/-- `str` of a value that passed for an integer. -/
def PyVal.intText : PyVal K → String
  | .bool b => if b then "True" else "False"
  | v => toString v.toInt

/-- `type(v).__name__`; classes that no message shows get the empty name. -/
def PyVal.className : PyVal K → String
  | .none => "NoneType"
  | .bool _ => "bool"
  | .int _ => "int"
  | .float _ => "float"
  | .str _ => "str"
  | .obj c => c
  | _ => ""

namespace Said

/-- validate.py L404-432 `class_object`. -/
def classObject (v : PyVal K) (name : String) (t : PyType) (className : String) : Except Raised (PyVal K) :=
  if isinstance v t then .ok v else .error (.typeError, name ++ " is not of type " ++ className)

/-- validate.py L11-23 `boolean`. -/
def boolean (v : PyVal K) (name : String) : Except Raised Bool := do
  let v ← classObject v name .bool "boolean"
  match v with
  | .bool b => .ok b
  | _ => .error (.typeError, "")

/-- validate.py L25-37 `string`. -/
def string (v : PyVal K) (name : String) : Except Raised String := do
  let v ← classObject v name .str "string"
  match v with
  | .str s => .ok s
  | _ => .error (.typeError, "")

/-- The loop of `_integer_type` and `_float_type`, validate.py L449-463, L480-494: the errors of the single
types are caught. -/
def anyType (v : PyVal K) (name message : String) : List (PyType × String) → Except Raised (PyVal K)
  | [] => .error (.typeError, message)
  | t :: ts => match classObject v name t.1 t.2 with
    | .ok v => .ok v
    | .error _ => anyType v name message ts

/-- validate.py L434-463 `_integer_type`. -/
def integerType (v : PyVal K) (name : String) : Except Raised (PyVal K) :=
  anyType v name (name ++ " is not of type integer")
    [(.int, "int"), (.npInt0, "np.int0"), (.npInt .w8, "np.int8"), (.npInt .w16, "np.int16"),
     (.npInt .w32, "np.int32"), (.npInt .w64, "np.int64")]

/-- validate.py L465-494 `_float_type`. -/
def floatType (v : PyVal K) (name : String) : Except Raised (PyVal K) :=
  anyType v name (name ++ " is not of type 'number'")
    [(.float, "float"), (.npFloat .w16, "np.float16"), (.npFloat .w32, "np.float32"),
     (.npFloat .w64, "np.float64"), (.npFloat .w128, "np.float128")]

/-- validate.py L71-110 `_number_type`. -/
def numberType (v : PyVal K) (name : String) (checkInteger : PyVal K := .bool false) :
    Except Raised (PyVal K) := do
  let ci ← boolean checkInteger "check_integer"
  if ci then integerType v name
  else
    let i := (integerType v name).isOk
    let f := (floatType v name).isOk
    if !i && !f then .error (.typeError, name ++ " is not of type 'number'") else .ok v

variable [Field K] [LinearOrder K] [FloorRing K]

/-- The text of validate.py L143-144 and L282-283. -/
def crossed (lower upper : PyVal K) : String :=
  "The upper_bound argument (" ++ fixed 4 upper.num ++ ") must be greater than the lower_bound (" ++
    fixed 4 lower.num ++ ") argument."

/-- validate.py L112-176 `_number_bounds`. -/
def numberBounds (v : PyVal K) (name : String) (lower upper exclusive : PyVal K) : Except Raised (PyVal K) := do
  let _ ← numberType lower "lower_bound"
  let _ ← numberType upper "upper_bound"
  let ex ← boolean exclusive "exclusive"
  if XF.lt upper.num lower.num then .error (.valueError, crossed lower upper)
  else
    let addition := if ex then "than" else "than or equal to"
    let tooLow := if ex then XF.le v.num lower.num else XF.lt v.num lower.num
    let tooHigh := if ex then XF.le upper.num v.num else XF.lt upper.num v.num
    let message := "The " ++ name ++ " argument must be "
    let message := if tooLow then message ++ ("greater " ++ addition ++ " " ++ fixed 4 lower.num) else message
    let message := if tooHigh then message ++ ("less " ++ addition ++ " " ++ fixed 4 upper.num) else message
    if tooLow || tooHigh then .error (.valueError, message) else .ok v

/-- validate.py L39-69 `number` with its default arguments. -/
def number (v : PyVal K) (name : String) (checkInteger : PyVal K := .bool false)
    (lower : PyVal K := .float .ninf) (upper : PyVal K := .float .pinf)
    (exclusive : PyVal K := .bool false) : Except Raised (PyVal K) := do
  let v ← numberType v name checkInteger
  numberBounds v name lower upper exclusive

/-- validate.py L234-249 `_array_like`. -/
def arrayLike (v : PyVal K) (name : String) : Except Raised (NpArr K) := do
  let v ← classObject v name .ndarray "np.ndarray"
  match v with
  | .arr a => .ok a
  | _ => .error (.typeError, "")

/-- validate.py L251-316 `_array_bounds`. -/
def arrayBounds (a : NpArr K) (name : String) (lower upper exclusive : PyVal K) : Except Raised (NpArr K) := do
  let _ ← numberType lower "lower_bound"
  let _ ← numberType upper "upper_bound"
  let ex ← boolean exclusive "exclusive"
  if XF.lt upper.num lower.num then .error (.valueError, crossed lower upper)
  else
    let addition := if ex then "than" else "than or equal to"
    let tooLow := a.data.any fun x =>
      if ex then XF.le x lower.num else XF.lt x lower.num
    let tooHigh := a.data.any fun x =>
      if ex then XF.le upper.num x else XF.lt upper.num x
    let message := "The " ++ name ++ " argument must contain solely values "
    let message := if tooLow then
      message ++ ("greater " ++ addition ++ " " ++ fixed 4 lower.num ++ " and ") else message
    let message := if tooHigh then
      message ++ ("less " ++ addition ++ " " ++ fixed 4 upper.num ++ " and ") else message
    if tooLow || tooHigh then .error (.valueError, cutEnd 5 message) else .ok a

/-- errors.py L47-68 `InvalidDimensionsError`. -/
def dimensionsText (name : String) (a : NpArr K) (numDimensions : PyVal K) : String :=
  "The " ++ name ++ " (" ++ toString a.shape.length ++ " dimensions) should have " ++ numDimensions.intText ++
    " dimensions"

/-- validate.py L318-344 `_array_dimensions`. -/
def arrayDimensions (a : NpArr K) (name : String) (numDimensions : PyVal K) : Except Raised (NpArr K) := do
  let _ ← numberType numDimensions "num_dimensions" (.bool true)
  if XF.eqb (.fin (a.shape.length : K)) numDimensions.num then .ok a
  else .error (.invalidDimensionsError, dimensionsText name a numDimensions)

/-- validate.py L346-368 `_array_type`. -/
def arrayType (a : NpArr K) (name : String) (dtype : PyVal K) : Except Raised (NpArr K) := do
  let d ← string dtype "dtype"
  if a.dtype = d then .ok a
  else .error (.typeError, name ++ " (" ++ a.dtype ++ ") is not of type " ++ d)

/-- validate.py L178-232 `array` with its default arguments (`None` = `.none`). -/
def array (v : PyVal K) (name : String) (lower : PyVal K := .none) (upper : PyVal K := .none)
    (exclusive : PyVal K := .bool false) (dtype : PyVal K := .none)
    (numDimensions : PyVal K := .none) : Except Raised (NpArr K) := do
  let a ← arrayLike v name
  if lower ≠ .none ∨ upper ≠ .none then
    let lower := if lower = .none then .float .ninf else lower
    let upper := if upper = .none then .float .pinf else upper
    let _ ← arrayBounds a name lower upper exclusive
  if numDimensions ≠ .none then
    let _ ← arrayDimensions a name numDimensions
  if dtype ≠ .none then
    let _ ← arrayType a name dtype
  .ok a

/-- The attribute access `arrays_list[0].shape` of validate.py L393. -/
def shape (v : PyVal K) : Except Raised (List ℕ) :=
  match v with
  | .arr a => .ok a.shape
  | .npBool _ | .npInt _ _ | .npUInt _ | .npFloat _ _ => .ok []
  | v => .error (.attributeError, "'" ++ v.className ++ "' object has no attribute 'shape'")

/-- The loop of validate.py L396-399. -/
def sameShapeLoop (shape : List ℕ) : List (PyVal K × String) → Bool → Except Raised Bool
  | [], error => .ok error
  | v :: vs, error => do
    let a ← arrayLike v.1 v.2
    sameShapeLoop shape vs (error || decide (a.shape ≠ shape))

/-- The loop of errors.py L42-43; every value is an array when it is reached. -/
def shapesLoop : List (String × PyVal K) → String → String
  | [], message => message
  | (name, .arr a) :: l, message => shapesLoop l (message ++ (name ++ " " ++ shapeText a.shape ++ ", "))
  | _ :: l, message => shapesLoop l message

/-- errors.py L24-44 `InvalidShapeError`. -/
def shapesText (names : List String) (arrays : List (PyVal K)) : String :=
  cutEnd 2 (shapesLoop (names.zip arrays) "") ++ " should all have the same shape."

/-- validate.py L370-402 `same_shape_arrays`. -/
def sameShapeArrays (arrays : List (PyVal K)) (names : List String) : Except Raised Unit := do
  if arrays.length < 2 then
    .error (.attributeError, "arrays_list argument should contain at least two arrays")
  else if arrays.length ≠ names.length then
    .error (.attributeError, "arrays_list (" ++ toString arrays.length ++
      ") should have the same length as names_list (" ++ toString names.length ++ ")")
  else match arrays with
    | [] => .error (.indexError, "list index out of range")
    | first :: _ => do
      let s ← shape first
      let error ← sameShapeLoop s (arrays.zip names) false
      if error then .error (.invalidShapeError, shapesText names arrays) else .ok ()

/-- RingSystem.py L384-387; an index that passed the validation is in range. -/
def lowerNeighbour (rings : List (RingObj K)) (i : ℤ) : Except Raised (XF K) :=
  if i = 0 then .ok .ninf else
  match rings[(i - 1).toNat]? with
  | some r => .ok r.outer
  | none => .error (.indexError, "")

/-- RingSystem.py L398-401. -/
def upperNeighbour (rings : List (RingObj K)) (j : ℤ) (isBool : Bool) : Except Raised (XF K) :=
  if j = rings.length then .ok .pinf else
  if isBool then .error (.attributeError, "'numpy.ndarray' object has no attribute 'inner_radius'") else
  match rings[j.toNat]? with
  | some r => .ok r.inner
  | none => .error (.indexError, "index " ++ toString j ++ " is out of bounds for axis 0 with size " ++
      toString rings.length)

/-- RingSystem.py L358-406 `_prevent_ring_overlap` (the `ring` argument is a `Ring`). -/
def preventOverlap (s : RSys K) (index : PyVal K) (ring : RingObj K) (replace : Bool := false) :
    Except Raised Unit := do
  let _ ← number index "index" (.bool true) (.int 0) (.int s.rings.length)
  let lower ← lowerNeighbour s.rings index.toInt
  if XF.lt ring.inner lower then
    .error (.valueError, "Ring must have an inner radius (" ++ fixed 2 ring.inner ++
      ") > the preceding ring's outer radius (" ++ fixed 2 lower ++ ")")
  else
    let upper ← upperNeighbour s.rings (if replace then index.toInt + 1 else index.toInt)
      (index.isBool && !replace)
    if XF.lt upper ring.outer then
      .error (.valueError, "Ring must have an outer radius (" ++ fixed 2 ring.outer ++
        ") less than the succeeding ring's inner radius (" ++ fixed 2 upper ++ ")")
    else .ok ()

end Said
end

/-- What `LoadError` is about: `Shallot.py` loads through these three. -/
inductive Loaded
  | diagnostics | parameters | property (name : PropName) (unit : PropUnit)
  deriving DecidableEq, Repr

/-- The `type_string` of a `LoadError`: GridDiagnostics.py L228, GridParameters.py L300, GridProperty.py
L352 and L585 (a gradient is loaded under the name and unit of a gradient). -/
def Loaded.typeString : Loaded → String
  | .diagnostics => "grid diagnostics"
  | .parameters => "grid parameters"
  | .property name unit => pretty name.str ++ " [" ++ pretty unit.str ++ "]"

/-- errors.py L7-21 `LoadError`. -/
def loadText (l : Loaded) (directory : String) : String :=
  "failed to load " ++ l.typeString ++ " from " ++ directory

end Beyonce
