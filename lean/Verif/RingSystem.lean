import Verif.Ring
import Mathlib.Algebra.Order.Floor.Defs
import Mathlib.Data.Rat.Floor

/-!
# `/repo/RingSystem.py`

`RSys` is a ring system by value: its rings are `RingObj`s.  Object identity (two systems
sharing one `Ring` object) is added in `Verif/RingHeap.lean`.
Logging (`_set_logger`, `_print_changes`, `__repr__`) has no effect on the state and is left
out.  `rnd` is the rounding applied after every float operation; `id` is exact arithmetic.
-/

namespace Beyonce

/-- The attributes of a `RingSystem`, RingSystem.py L71-79. -/
structure RSys (K : Type) where
  planet : XF K
  inclination : XF K
  tilt : XF K
  rings : List (RingObj K)
  deriving DecidableEq, Repr

namespace XF
variable {K : Type}
/-- Round a finite number. -/
def round (rnd : K → K) : XF K → XF K
  | fin x => fin (rnd x)
  | a => a
end XF

section
variable {K : Type} [Field K] [LinearOrder K]

/-- Is the value a Python `bool`?  (numpy treats it as a mask when used as an index.) -/
def PyVal.isBool : PyVal K → Bool
  | .bool _ => true
  | _ => false

/-- RingSystem.py L384-387: the outer radius of the ring before position `i`. -/
def lowerNeighbour (rings : List (RingObj K)) (i : ℤ) : Except Err (XF K) :=
  if i = 0 then .ok .ninf else
  match rings[(i - 1).toNat]? with
  | some r => .ok r.outer
  | none => .error .indexError

/-- RingSystem.py L398-401: the inner radius of the ring at position `j`. If the index is
still the `bool` that the caller passed, `self.rings[True]` is an array without
`inner_radius`, hence the `AttributeError`. -/
def upperNeighbour (rings : List (RingObj K)) (j : ℤ) (isBool : Bool) : Except Err (XF K) :=
  if j = rings.length then .ok .pinf else
  if isBool then .error .attributeError else
  match rings[j.toNat]? with
  | some r => .ok r.inner
  | none => .error .indexError

/-- RingSystem.py L358-406 `_prevent_ring_overlap` (the `ring` argument is a `Ring`). -/
def preventOverlap (s : RSys K) (index : PyVal K) (ring : RingObj K) (replace : Bool := false) :
    Except Err Unit := do
  let _ ← number index (.bool true) (.int 0) (.int s.rings.length)
  let lower ← lowerNeighbour s.rings index.toInt
  if XF.lt ring.inner lower then .error .valueError
  else
    let upper ← upperNeighbour s.rings (if replace then index.toInt + 1 else index.toInt)
      (index.isBool && !replace)
    if XF.lt upper ring.outer then .error .valueError else .ok ()

/-- RingSystem.py L408-436 `_override_ring_geometry`: the caller's ring is changed. -/
def overrideGeometry (s : RSys K) : Meth (RingObj K) Unit := do
  RingObj.setInclination (.float s.inclination)
  RingObj.setTilt (.float s.tilt)

/-- `np.delete(rings, index)` for a scalar index that passed validation: a `bool` is taken
for a mask of the wrong shape (NumPy ≥ 1.19). -/
def npDelete {α : Type} (l : List α) (index : PyVal K) : Except Err (List α) :=
  if index.isBool then .error .valueError else .ok (l.eraseIdx index.toInt.toNat)

/-- `rings[index] = x` for a scalar index that passed validation: `rings[True] = x` assigns
every element, `rings[False] = x` none. -/
def npAssign {α : Type} (l : List α) (index : PyVal K) (x : α) : List α :=
  match index with
  | .bool true => l.map fun _ => x
  | .bool false => l
  | v => l.set v.toInt.toNat x

/-- Rings that the caller passes in and gets back changed are part of the state of
`add_ring` and `replace_ring`. -/
structure SysAndRing (K : Type) where
  sys : RSys K
  ring : RingObj K

/-- The call of `_override_ring_geometry` on the ring that was passed in, RingSystem.py L455
and L502. -/
def overrideCallersRing : Meth (SysAndRing K) Unit := fun st =>
  let r := overrideGeometry st.sys st.ring
  (r.1, { st with ring := r.2 })

/-- RingSystem.py L438-462 `add_ring`. -/
def addRing (index : PyVal K) : Meth (SysAndRing K) Unit := do
  let st ← Meth.get
  Meth.lift (preventOverlap st.sys index st.ring)
  overrideCallersRing
  Meth.modify fun st =>
    { st with sys := { st.sys with rings := st.sys.rings.insertIdx index.toInt.toNat st.ring } }

/-- RingSystem.py L464-482 `remove_ring`. -/
def removeRing (index : PyVal K) : Meth (RSys K) Unit := do
  let s ← Meth.get
  let _ ← Meth.lift (number index (.bool true) (.int 0) (.int ((s.rings.length : ℤ) - 1)))
  let rings ← Meth.lift (npDelete s.rings index)
  Meth.modify ({ · with rings := rings })

/-- RingSystem.py L484-509 `replace_ring`. -/
def replaceRing (index : PyVal K) : Meth (SysAndRing K) Unit := do
  let st ← Meth.get
  let _ ← Meth.lift (number index (.bool true) (.int 0) (.int ((st.sys.rings.length : ℤ) - 1)))
  Meth.lift (preventOverlap st.sys index st.ring true)
  overrideCallersRing
  Meth.modify fun st =>
    { st with sys := { st.sys with rings := npAssign st.sys.rings index st.ring } }

/-- One ringlet, RingSystem.py L542-549: division `i` of `d` of a ring. -/
def ringlet (rnd : K → K) (s : RSys K) (r : RingObj K) (d i : ℕ) : Except Err (RingObj K) :=
  let delta := ((r.outer.sub r.inner).round rnd |>.div (.fin d)).round rnd
  let inner := (r.inner.add ((XF.fin (i : K)).mul delta |>.round rnd)).round rnd
  let outer := (inner.add delta).round rnd
  newRing (.float inner) (.float outer) (.float r.transmission) (.float s.inclination)
    (.float s.tilt)

/-- The double loop of RingSystem.py L538-552. -/
def splitLoop (rnd : K → K) (s : RSys K) : List (RingObj K × ℕ) → Except Err (List (RingObj K))
  | [] => .ok []
  | (r, d) :: rest => do
    let ringlets ← (List.range d).mapM (ringlet rnd s r d)
    let others ← splitLoop rnd s rest
    .ok (ringlets ++ others)

/-- The argument of `split_rings` turned into one number of divisions per ring,
RingSystem.py L523-531. -/
def divisions [FloorRing K] (s : RSys K) (nd : PyVal K) : Except Err (List ℕ) :=
  match number nd (.bool true) (.int 2) with
  | .ok v => .ok (List.replicate s.rings.length v.toInt.toNat)
  | .error .typeError => do
    let a ← array nd (.int 1) .none (.bool false) (.str "int64") (.int 1)
    sameShapeArrays [nd, .arr ⟨"object", [s.rings.length], []⟩] 2
    .ok (a.data.map fun
      | .fin x => ⌊x⌋.toNat
      | _ => 0)
  | .error e => .error e

/-- RingSystem.py L511-559 `split_rings`. -/
def splitRings [FloorRing K] (rnd : K → K) (nd : PyVal K) : Meth (RSys K) Unit := do
  let s ← Meth.get
  let ds ← Meth.lift (divisions s nd)
  let rings ← Meth.lift (splitLoop rnd s (s.rings.zip ds))
  Meth.modify ({ · with rings := rings })

/-- The loop of RingSystem.py L582-601; `inner outer t` are the loop variables. -/
def mergeLoop (rnd : K → K) (s : RSys K) (tol : XF K) (inner outer t : XF K) :
    List (RingObj K) → Except Err (List (RingObj K))
  | [] => do
    let last ← newRing (.float inner) (.float outer) (.float t) (.float s.inclination)
      (.float s.tilt)
    .ok [last]
  | r :: rest =>
    if XF.lt ((r.inner.sub outer).round rnd).abs tol && XF.eqb r.transmission t then
      mergeLoop rnd s tol inner r.outer t rest
    else do
      let merged ← newRing (.float inner) (.float outer) (.float t) (.float s.inclination)
        (.float s.tilt)
      let others ← mergeLoop rnd s tol r.inner r.outer r.transmission rest
      .ok (merged :: others)

/-- RingSystem.py L561-608 `merge_rings`.  (The code does not validate `tolerance`; here it is a
number.) -/
def mergeRings (rnd : K → K) (tol : XF K) : Meth (RSys K) Unit := do
  let s ← Meth.get
  let first ← Meth.lift (match s.rings with
    | [] => .error .indexError
    | r :: _ => .ok r)
  let rings ← Meth.lift (mergeLoop rnd s tol first.inner first.inner first.transmission s.rings)
  Meth.modify ({ · with rings := rings })

/-- The construction loop of RingSystem.py L263-265. -/
def buildRings (inclination tilt : XF K) :
    List (XF K × XF K × XF K) → Except Err (List (RingObj K))
  | [] => .ok []
  | (i, o, t) :: rest => do
    let r ← newRing (.npFloat .w64 i) (.npFloat .w64 o) (.npFloat .w64 t) (.float inclination)
      (.float tilt)
    let others ← buildRings inclination tilt rest
    .ok (r :: others)

/-- RingSystem.py L36-79 `__init__` with L223-265 `_set_rings`. -/
def newSystem (planet innerRadii outerRadii transmissions inclination tilt : PyVal K) :
    Except Err (RSys K) := do
  let p ← number planet (.bool false) (.float (.fin 0))
  let inc ← number inclination (.bool false) (.float (.fin 0)) (.float (.fin 90))
  let phi ← number tilt (.bool false) (.float (.fin (-180))) (.float (.fin 180))
  let i ← array innerRadii (.int 0) .none (.bool false) (.str "float64") (.int 1)
  let o ← array outerRadii (.int 0) .none (.bool false) (.str "float64") (.int 1)
  let t ← array transmissions (.int 0) (.int 1) (.bool false) (.str "float64") (.int 1)
  sameShapeArrays [innerRadii, outerRadii, transmissions] 3
  let rings ← buildRings inc.num phi.num (i.data.zip (o.data.zip t.data))
  .ok ⟨p.num, inc.num, phi.num, rings⟩

/-- The axis limits set by RingSystem.py L697-702: `disk_radius = get_outer_radii()[-1]`,
`(xlim, ylim)`.  The upper y limit uses `x_shift`. -/
def plotLimits (s : RSys K) (xShift yShift : XF K) :
    Except Err ((XF K × XF K) × (XF K × XF K)) :=
  match s.rings.getLast? with
  | none => .error .indexError
  | some r =>
    let two : XF K := .fin 2
    .ok (((xShift.sub r.outer).sub two, (xShift.add r.outer).add two),
         ((yShift.sub r.outer).sub two, (xShift.add r.outer).add two))

end
end Beyonce
