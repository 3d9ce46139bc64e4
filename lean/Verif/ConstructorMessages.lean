import Verif.Messages
import Verif.GridParameters

/-!
# The messages of the constructors and setters of rings, ring systems and grid parameters

`Ring.lean`, `GridParameters.lean`, the constructor of `RingSystem.lean` and `set_eclipse_parameters` again, with the names that the
code gives to the values that it validates.  What the constructors make is not repeated where nothing can fail
any more: `GridParams.new` cannot fail after its vectors are made.
-/

namespace Beyonce

section
variable {K : Type} [Field K] [LinearOrder K] [IsStrictOrderedRing K] [FloorRing K]

namespace Said

/-- The truth value of `v == 0.`, Ring.py L112; the message is that of numpy. -/
def eqZero (v : PyVal K) : Except Raised Bool :=
  match v with
  | .arr a => match a.data with
    | [] => .ok false
    | [x] => .ok (XF.eqb x (.fin 0))
    | _ => .error (.valueError, "The truth value of an array with more than one element is ambiguous. " ++
        "Use a.any() or a.all()")
  | .none | .str _ | .obj _ => .ok false
  | v => .ok (XF.eqb v.num (.fin 0))

/-- Ring.py L95-116 `inner_radius.setter` up to the assignment. -/
def checkInner (upper : XF K) (v : PyVal K) : Except Raised (XF K) := do
  let z ← eqZero v
  let v := if z then .float (.fin tiny) else v
  let v ← number v "inner_radius" (.bool false) (.float (.fin 0)) (.float upper) (.bool true)
  .ok v.num

/-- Ring.py L130-141 `outer_radius.setter` up to the assignment. -/
def checkOuter (inner : XF K) (v : PyVal K) : Except Raised (XF K) := do
  let v ← number v "outer_radius" (.bool false) (.float inner) (.float .pinf) (.bool true)
  .ok v.num

/-- Ring.py L155-166 `transmission.setter` up to the assignment. -/
def checkTransmission (v : PyVal K) : Except Raised (XF K) := do
  let v ← number v "transmission" (.bool false) (.float (.fin 0)) (.float (.fin 1)) (.bool false)
  .ok v.num

/-- Ring.py L180-191 `inclination.setter` up to the assignment. -/
def checkInclination (v : PyVal K) : Except Raised (XF K) := do
  let v ← number v "inclination" (.bool false) (.int 0) (.int 90) (.bool false)
  .ok v.num

/-- Ring.py L205-216 `tilt.setter` up to the assignment. -/
def checkTilt (v : PyVal K) : Except Raised (XF K) := do
  let v ← number v "tilt" (.bool false) (.int (-180)) (.int 180) (.bool false)
  .ok v.num

/-- Ring.py L18-48 `Ring.__init__`. -/
def newRing (inner outer transmission : PyVal K) (inclination : PyVal K := .int 0)
    (tilt : PyVal K := .int 0) : Except Raised (RingObj K) := do
  let i ← checkInner .pinf inner
  let o ← checkOuter i outer
  let t ← checkTransmission transmission
  let inc ← checkInclination inclination
  let phi ← checkTilt tilt
  .ok ⟨i, o, t, inc, phi⟩

/-- What a call of one of the five setters of Ring.py assigns. -/
def setter (self : RingObj K) : RingOp K → Except Raised (XF K)
  | .inner v => checkInner self.outer v
  | .outer v => checkOuter self.inner v
  | .transmission v => checkTransmission v
  | .inclination v => checkInclination v
  | .tilt v => checkTilt v

/-- The construction loop of RingSystem.py L263-265. -/
def buildRings (inclination tilt : XF K) : List (XF K × XF K × XF K) → Except Raised (List (RingObj K))
  | [] => .ok []
  | (i, o, t) :: rest => do
    let r ← newRing (.npFloat .w64 i) (.npFloat .w64 o) (.npFloat .w64 t) (.float inclination) (.float tilt)
    let others ← buildRings inclination tilt rest
    .ok (r :: others)

/-- RingSystem.py L36-79 `__init__` with L223-265 `_set_rings`. -/
def newSystem (planet innerRadii outerRadii transmissions inclination tilt : PyVal K) :
    Except Raised (RSys K) := do
  let p ← number planet "planet_radius" (.bool false) (.float (.fin 0))
  let inc ← number inclination "inclination" (.bool false) (.float (.fin 0)) (.float (.fin 90))
  let phi ← number tilt "tilt" (.bool false) (.float (.fin (-180))) (.float (.fin 180))
  let i ← array innerRadii "inner_radii" (.int 0) .none (.bool false) (.str "float64") (.int 1)
  let o ← array outerRadii "outer_radii" (.int 0) .none (.bool false) (.str "float64") (.int 1)
  let t ← array transmissions "transmissions" (.int 0) (.int 1) (.bool false) (.str "float64") (.int 1)
  sameShapeArrays [innerRadii, outerRadii, transmissions] ["inner_radii", "outer_radii", "transmissions"]
  let rings ← buildRings inc.num phi.num (i.data.zip (o.data.zip t.data))
  .ok ⟨p.num, inc.num, phi.num, rings⟩

/-- GridParameters.py L103-133 `_determine_dx`. -/
def determineDx (minX maxX numX : PyVal K) : Except Raised (Nd K) := do
  let minX ← number minX "min_x"
  let maxX ← number maxX "max_x"
  if XF.le maxX.num minX.num then .error (.valueError, "max_x must be greater than min_x")
  else
    let numX ← number numX "num_x" (.bool true) (.int 1)
    let n := numX.toInt.toNat
    .ok ⟨[1, n, 1], linspace minX.num maxX.num n⟩

/-- GridParameters.py L136-166 `_determine_dy`. -/
def determineDy (minY maxY numY : PyVal K) : Except Raised (Nd K) := do
  let minY ← number minY "min_y"
  let maxY ← number maxY "max_y"
  if XF.le maxY.num minY.num then .error (.valueError, "max_y must be greater than min_y")
  else
    let numY ← number numY "num_y" (.bool true) (.int 1)
    let n := numY.toInt.toNat
    .ok ⟨[n, 1, 1], linspace minY.num maxY.num n⟩

/-- GridParameters.py L169-196 `_determine_rf`: `rf` and `rf_array`. -/
def determineRf (maxRf numRf : PyVal K) : Except Raised (Nd K × Nd K) := do
  let maxRf ← number maxRf "max_rf" (.bool false) (.int 1)
  let numRf ← number numRf "num_rf" (.bool true) (.int 1)
  let n := numRf.toInt.toNat
  let rf := linspace (.fin 1) maxRf.num n
  let rfArray := rf.reverse ++ rf.tail
  .ok (⟨[n], rf⟩, ⟨[rfArray.length], rfArray⟩)

/-- The calls of GridParameters.py L24-54 `__init__` that validate; L208-214 does not fail after them. -/
def newParameters (minX maxX numX minY maxY numY maxRf numRf : PyVal K) : Except Raised (GridParams K) := do
  let dx ← determineDx minX maxX numX
  let dy ← determineDy minY maxY numY
  let (rf, rfArray) ← determineRf maxRf numRf
  match (GridParams.setShapes ⟨dx, dy, rf, rfArray, (0, 0, 0), (0, 0), false⟩).setExtendable with
  | .ok g => .ok g
  | .error e => .error (e, "")

/-- The parameters that Shallot.py L1575-1580, in `set_eclipse_parameters`, stores. -/
def eclipse (duration velocity limb : PyVal K) : Except Raised (PyVal K × PyVal K × PyVal K) := do
  let d ← number duration "eclipse_duration" (.bool false) (.float (.fin 0))
  let v ← number velocity "transverse_velocity" (.bool false) (.float (.fin 0))
  let u ← number limb "limb_darkening" (.bool false) (.float (.fin 0)) (.float (.fin 1))
  .ok (d, v, u)

end Said
end
end Beyonce
