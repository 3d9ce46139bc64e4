import Verif.GridParameters

/-!
# `/repo/GridDiagnostics.py`

`__repr__` is in `Report.lean`.
-/

namespace Beyonce

/-- A Python dictionary from keys to float vectors. -/
abbrev Dict (K : Type) := List (Key × List (XF K))

/-- `d[key]`. -/
def Dict.get {K : Type} (d : Dict K) (k : Key) : Except Err (List (XF K)) :=
  match d.lookup k with
  | some v => .ok v
  | none => .error .keyError

/-- `d[key] = v`. (The order of entries is not observable in this class.) -/
def Dict.set {K : Type} (d : Dict K) (k : Key) (v : List (XF K)) : Dict K := (k, v) :: d

/-- The attributes, GridDiagnostics.py L24-28. -/
structure Diagnostics (K : Type) where
  maxY : ℕ
  maxX : ℕ
  fyDict : Dict K
  radiusDict : Dict K
  extended : Bool
  deriving DecidableEq, Repr

/-- How a number prints inside an f-string (only used for integers). -/
def PyVal.keyPart {K : Type} : PyVal K → KeyPart
  | .bool b => .bool b
  | v => .int v.toInt

namespace Diagnostics
variable {K : Type} [Field K] [LinearOrder K]

/-- GridDiagnostics.py L18-28 `__init__` (the type check of the argument is the Lean type). -/
def new (g : GridParams K) : Diagnostics K :=
  ⟨g.sliceShape.1, g.sliceShape.2, [], [], false⟩

/-- The upper bound of an index, GridDiagnostics.py L80-85. -/
def upper (d : Diagnostics K) (n : ℕ) : ℤ :=
  if d.extended then 2 * ((n : ℤ) - 1) else (n : ℤ) - 1

/-- The part of the key for one axis, GridDiagnostics.py L92-96. -/
def part (d : Diagnostics K) (v : PyVal K) (n : ℕ) : KeyPart :=
  if d.extended then .int |v.toInt - n| else v.keyPart

/-- GridDiagnostics.py L63-98 `_generate_key`. -/
def generateKey (d : Diagnostics K) (y x : PyVal K) : Except Err Key := do
  let y ← number y (.bool true) (.int 0) (.int (d.upper d.maxY))
  let x ← number x (.bool true) (.int 0) (.int (d.upper d.maxX))
  .ok (d.part y d.maxY, d.part x d.maxX)

/-- GridDiagnostics.py L101-129 `get_diagnostic`. -/
def get (d : Diagnostics K) (y x : PyVal K) : Except Err (List (XF K) × List (XF K)) := do
  let key ← d.generateKey y x
  let fy ← d.fyDict.get key
  let r ← d.radiusDict.get key
  .ok (fy, r)

/-- GridDiagnostics.py L132-165 `save_diagnostic`. -/
def save (y x fy radius : PyVal K) : Meth (Diagnostics K) Unit := do
  let self ← Meth.get
  if self.extended then Meth.throw .runtimeError
  else
    let fy' ← Meth.lift (array fy (dtype := .str "float64") (numDimensions := .int 1))
    let radius' ← Meth.lift (array radius (dtype := .str "float64") (numDimensions := .int 1))
    Meth.lift (sameShapeArrays [.arr fy', .arr radius'] 2)
    let key ← Meth.lift (self.generateKey y x)
    Meth.modify ({ · with fyDict := self.fyDict.set key fy'.data })
    Meth.modify ({ · with radiusDict := self.radiusDict.set key radius'.data })

/-- GridDiagnostics.py L168-172 `extend`. -/
def extend (d : Diagnostics K) : Diagnostics K := { d with extended := true }

/-- GridDiagnostics.py L175-193 `save`, as steps. -/
def saveSteps (d : Diagnostics K) (dir : Path) : List (Step K) :=
  [.mkdirIfMissing dir,
   .write (dir ++ ["fy_dict.npy"]) (.dict d.fyDict),
   .write (dir ++ ["disk_radius_dict.npy"]) (.dict d.radiusDict),
   .write (dir ++ ["max_yx.npy"]) (.ints [d.maxY, d.maxX])]

/-- `np.load(…, allow_pickle=True).item()`. -/
def loadDict (fs : FS K) (p : Path) : Except Err (Dict K) := do
  match ← fs.load p with
  | .dict d => .ok d
  | _ => .error .valueError

/-- `max_y, max_x = np.load(…)`. -/
def loadPair (fs : FS K) (p : Path) : Except Err (ℕ × ℕ) := do
  match ← fs.load p with
  | .ints [a, b] => .ok (a.toNat, b.toNat)
  | _ => .error .valueError

/-- The body of the `try` of `load`, GridDiagnostics.py L214-225. -/
def loadBody (fs : FS K) (dir : Path) : Except Err (Diagnostics K) := do
  let fyDict ← loadDict fs (dir ++ ["fy_dict.npy"])
  let radiusDict ← loadDict fs (dir ++ ["disk_radius_dict.npy"])
  let (maxY, maxX) ← loadPair fs (dir ++ ["max_yx.npy"])
  .ok ⟨maxY, maxX, fyDict, radiusDict, false⟩

/-- GridDiagnostics.py L196-230 `load`. -/
def load (fs : FS K) (dir : Path) : Except Err (Diagnostics K) :=
  match loadBody fs dir with
  | .ok d => .ok d
  | .error _ => .error .loadError

end Diagnostics
end Beyonce
