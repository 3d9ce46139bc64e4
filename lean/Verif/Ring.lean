import Verif.Validate
import Verif.Meth

/-!
# `/repo/Ring.py`

A ring object is the record of its five private attributes.  The stored value is the
number itself; whether it is a Python or a numpy scalar is not kept.
-/

namespace Beyonce

/-- The five attributes of a `Ring`, Ring.py L44-48. -/
structure RingObj (K : Type) where
  inner : XF K
  outer : XF K
  transmission : XF K
  inclination : XF K
  tilt : XF K
  deriving DecidableEq, Repr

section
variable {K : Type} [Field K] [LinearOrder K]

/-- `1e-16`, Ring.py L113 (as the decimal number, not its nearest double). -/
def tiny : K := 1 / 10 ^ 16

/-- The truth value of `v == 0.`, Ring.py L112.  Comparing an array gives an array, whose
truth value is an error unless it has at most one element. -/
def eqZero (v : PyVal K) : Except Err Bool :=
  match v with
  | .arr a => match a.data with
    | [] => .ok false
    | [x] => .ok (XF.eqb x (.fin 0))
    | _ => .error .valueError
  | .none | .str _ | .obj _ => .ok false
  | v => .ok (XF.eqb v.num (.fin 0))

/-- Ring.py L95-116 `inner_radius.setter` up to the assignment; `upper` is the outer radius,
or infinity during construction (L106-109). -/
def checkInner (upper : XF K) (v : PyVal K) : Except Err (XF K) := do
  let z ← eqZero v
  let v := if z then .float (.fin tiny) else v
  let v ← number v (.bool false) (.float (.fin 0)) (.float upper) (.bool true)
  .ok v.num

/-- Ring.py L130-141 `outer_radius.setter` up to the assignment. -/
def checkOuter (inner : XF K) (v : PyVal K) : Except Err (XF K) := do
  let v ← number v (.bool false) (.float inner) (.float .pinf) (.bool true)
  .ok v.num

/-- Ring.py L155-166 `transmission.setter` up to the assignment. -/
def checkTransmission (v : PyVal K) : Except Err (XF K) := do
  let v ← number v (.bool false) (.float (.fin 0)) (.float (.fin 1)) (.bool false)
  .ok v.num

/-- Ring.py L180-191 `inclination.setter` up to the assignment. -/
def checkInclination (v : PyVal K) : Except Err (XF K) := do
  let v ← number v (.bool false) (.int 0) (.int 90) (.bool false)
  .ok v.num

/-- Ring.py L205-216 `tilt.setter` up to the assignment. -/
def checkTilt (v : PyVal K) : Except Err (XF K) := do
  let v ← number v (.bool false) (.int (-180)) (.int 180) (.bool false)
  .ok v.num

/-- Ring.py L18-48 `Ring.__init__`; if it raises there is no object. -/
def newRing (inner outer transmission : PyVal K) (inclination : PyVal K := .int 0)
    (tilt : PyVal K := .int 0) : Except Err (RingObj K) := do
  let i ← checkInner .pinf inner
  let o ← checkOuter i outer
  let t ← checkTransmission transmission
  let inc ← checkInclination inclination
  let phi ← checkTilt tilt
  .ok ⟨i, o, t, inc, phi⟩

namespace RingObj

/-- Ring.py L95-116. -/
def setInner (v : PyVal K) : Meth (RingObj K) Unit := do
  let self ← Meth.get
  let x ← Meth.lift (checkInner self.outer v)
  Meth.modify ({ · with inner := x })

/-- Ring.py L130-141. -/
def setOuter (v : PyVal K) : Meth (RingObj K) Unit := do
  let self ← Meth.get
  let x ← Meth.lift (checkOuter self.inner v)
  Meth.modify ({ · with outer := x })

/-- Ring.py L155-166. -/
def setTransmission (v : PyVal K) : Meth (RingObj K) Unit := do
  let x ← Meth.lift (checkTransmission v)
  Meth.modify ({ · with transmission := x })

/-- Ring.py L180-191. -/
def setInclination (v : PyVal K) : Meth (RingObj K) Unit := do
  let x ← Meth.lift (checkInclination v)
  Meth.modify ({ · with inclination := x })

/-- Ring.py L205-216. -/
def setTilt (v : PyVal K) : Meth (RingObj K) Unit := do
  let x ← Meth.lift (checkTilt v)
  Meth.modify ({ · with tilt := x })

end RingObj

/-- A call of one of the five attribute setters of Ring.py. -/
inductive RingOp (K : Type)
  | inner (v : PyVal K) | outer (v : PyVal K) | transmission (v : PyVal K)
  | inclination (v : PyVal K) | tilt (v : PyVal K)

/-- Dispatch of a setter call. -/
def RingOp.run : RingOp K → Meth (RingObj K) Unit
  | .inner v => RingObj.setInner v
  | .outer v => RingObj.setOuter v
  | .transmission v => RingObj.setTransmission v
  | .inclination v => RingObj.setInclination v
  | .tilt v => RingObj.setTilt v

/-- The argument of a setter call. -/
def RingOp.arg : RingOp K → PyVal K
  | .inner v | .outer v | .transmission v | .inclination v | .tilt v => v

/-- A sequence of setter calls by a user who catches every exception. -/
def runRingOps (ops : List (RingOp K)) (r : RingObj K) : RingObj K :=
  ops.foldl (fun r op => Meth.exec op.run r) r

end
end Beyonce
