import Verif.Validate
import Verif.Meth
import Verif.Files

/-!
# `/repo/GridParameters.py`

Arrays carry their shape and flat data.  `__repr__` is in `Report.lean`.
-/

namespace Beyonce

/-- A float array. -/
structure Nd (K : Type) where
  shape : List ℕ
  data : List (XF K)
  deriving DecidableEq, Repr

/-- The attributes of `GridParameters`, GridParameters.py L49-54. `gridShape` is
`(ny, nx, nrf)`. -/
structure GridParams (K : Type) where
  dx : Nd K
  dy : Nd K
  rf : Nd K
  rfArray : Nd K
  gridShape : ℕ × ℕ × ℕ
  sliceShape : ℕ × ℕ
  extendable : Bool
  deriving DecidableEq, Repr

section
variable {K : Type}

variable [Field K] [LinearOrder K]

/-- `np.linspace(a, b, n)` for `n ≥ 1` (numpy/core/function_base.py): `arange(n)` times the step
(via a division first if the step is zero), plus `a`; for `n > 1` the last value is set to `b`. -/
def linspace (a b : XF K) (n : ℕ) : List (XF K) :=
  let div : XF K := .fin ((n : K) - 1)
  let delta := b.sub a
  let step := delta.div div
  let y : ℕ → XF K := fun j =>
    if 1 < n then
      if XF.eqb step (.fin 0) then (((XF.fin (j : K)).div div).mul delta).add a
      else ((XF.fin (j : K)).mul step).add a
    else ((XF.fin (j : K)).mul delta).add a
  let l := (List.range n).map y
  if 1 < n then l.set (n - 1) b else l

/-- GridParameters.py L103-133 `_determine_dx`. -/
def determineDx (minX maxX numX : PyVal K) : Except Err (Nd K) := do
  let minX ← number minX
  let maxX ← number maxX
  if XF.le maxX.num minX.num then .error .valueError
  else
    let numX ← number numX (.bool true) (.int 1)
    let n := numX.toInt.toNat
    .ok ⟨[1, n, 1], linspace minX.num maxX.num n⟩

/-- GridParameters.py L136-166 `_determine_dy`. -/
def determineDy (minY maxY numY : PyVal K) : Except Err (Nd K) := do
  let minY ← number minY
  let maxY ← number maxY
  if XF.le maxY.num minY.num then .error .valueError
  else
    let numY ← number numY (.bool true) (.int 1)
    let n := numY.toInt.toNat
    .ok ⟨[n, 1, 1], linspace minY.num maxY.num n⟩

/-- GridParameters.py L169-196 `_determine_rf`: `rf` and `rf_array`. -/
def determineRf (maxRf numRf : PyVal K) : Except Err (Nd K × Nd K) := do
  let maxRf ← number maxRf (.bool false) (.int 1)
  let numRf ← number numRf (.bool true) (.int 1)
  let n := numRf.toInt.toNat
  let rf := linspace (.fin 1) maxRf.num n
  let rfArray := rf.reverse ++ rf.tail
  .ok (⟨[n], rf⟩, ⟨[rfArray.length], rfArray⟩)

namespace GridParams

/-- GridParameters.py L199-205 `_set_grid_and_slice_shape`. -/
def setShapes (g : GridParams K) : GridParams K :=
  { g with
    gridShape := (g.dy.data.length, g.dx.data.length, g.rfArray.data.length)
    sliceShape := (g.dy.data.length, g.dx.data.length) }

/-- GridParameters.py L208-214 `_set_extendable`: `dy[0] == 0 and dx[0] == 0`; an empty vector
raises, for `dx` only if `dy[0] == 0`. -/
def setExtendable (g : GridParams K) : Except Err (GridParams K) :=
  match g.dy.data with
  | [] => .error .indexError
  | y :: _ =>
    if XF.eqb y (.fin 0) then
      match g.dx.data with
      | [] => .error .indexError
      | x :: _ => .ok { g with extendable := XF.eqb x (.fin 0) }
    else .ok { g with extendable := false }

/-- GridParameters.py L24-54 `__init__`. -/
def new (minX maxX numX minY maxY numY maxRf numRf : PyVal K) : Except Err (GridParams K) := do
  let dx ← determineDx minX maxX numX
  let dy ← determineDy minY maxY numY
  let (rf, rfArray) ← determineRf maxRf numRf
  let g := setShapes ⟨dx, dy, rf, rfArray, (0, 0, 0), (0, 0), false⟩
  setExtendable g

/-- `self.dy[-1, 0, 0]`, `self.dx[0, -1, 0]`: the last element (for arrays of the shapes that the
class makes). -/
def lastOf (a : Nd K) : Except Err (PyVal K) :=
  match a.data.getLast? with
  | some x => .ok (.npFloat .w64 x)
  | none => .error .indexError

/-- `-x` for a `np.float64`. -/
def negVal (v : PyVal K) : PyVal K := .npFloat .w64 (v.num.neg)

/-- GridParameters.py L217-232 `extend_grid`. -/
def extendGrid : Meth (GridParams K) Unit := do
  let self ← Meth.get
  if !self.extendable then Meth.throw .attributeError
  else
    let maxY ← Meth.lift (lastOf self.dy)
    let maxX ← Meth.lift (lastOf self.dx)
    let dx ← Meth.lift (determineDx (negVal maxX) maxX (.int (2 * self.sliceShape.2 - 1)))
    Meth.modify ({ · with dx := dx })
    let dy ← Meth.lift (determineDy (negVal maxY) maxY (.int (2 * self.sliceShape.1 - 1)))
    Meth.modify ({ · with dy := dy })
    Meth.modify setShapes
    let self ← Meth.get
    let g ← Meth.lift (setExtendable self)
    Meth.set g

/-- GridParameters.py L235-248 `get_vectors`: `(dy, dx, rf_array)` flattened. -/
def getVectors (g : GridParams K) : List (XF K) × List (XF K) × List (XF K) :=
  (g.dy.data, g.dx.data, g.rfArray.data)

/-- GridParameters.py L251-269 `save`, as steps. -/
def saveSteps (g : GridParams K) (dir : Path) : List (Step K) :=
  [.mkdirIfMissing dir,
   .write (dir ++ ["dx.npy"]) (.floats g.dx.shape g.dx.data),
   .write (dir ++ ["dy.npy"]) (.floats g.dy.shape g.dy.data),
   .write (dir ++ ["rf.npy"]) (.floats g.rf.shape g.rf.data),
   .write (dir ++ ["rf_array.npy"]) (.floats g.rfArray.shape g.rfArray.data)]

/-- `np.load` of a float array. (Loading something else would give an object that fails later; it
is taken as an error here.) -/
def loadNd (fs : FS K) (p : Path) : Except Err (Nd K) := do
  match ← fs.load p with
  | .floats s d => .ok ⟨s, d⟩
  | _ => .error .typeError

/-- The body of the `try` of `load`, GridParameters.py L289-297. -/
def loadBody (fs : FS K) (dir : Path) : Except Err (GridParams K) := do
  let g ← new (K := K) (.int 0) (.int 1) (.int 1) (.int 0) (.int 1) (.int 1) (.int 2) (.int 1)
  let dx ← loadNd fs (dir ++ ["dx.npy"])
  let dy ← loadNd fs (dir ++ ["dy.npy"])
  let rf ← loadNd fs (dir ++ ["rf.npy"])
  let rfArray ← loadNd fs (dir ++ ["rf_array.npy"])
  setExtendable (setShapes { g with dx := dx, dy := dy, rf := rf, rfArray := rfArray })

/-- GridParameters.py L272-302 `load`: any exception becomes a `LoadError`. -/
def load (fs : FS K) (dir : Path) : Except Err (GridParams K) :=
  match loadBody fs dir with
  | .ok g => .ok g
  | .error _ => .error .loadError

end GridParams
end
end Beyonce
