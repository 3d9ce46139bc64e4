import Verif.GridProperty

/-!
# `/repo/GridProperty.py` by reference

Arrays are objects: a property keeps the array that was passed to its constructor (L70-71) and the one
passed to `set_mask` (L141-144), and `get_data` (L147-168) returns the attribute itself after it wrote
NaN into it.  References are positions in `PWorld.arrays`.
-/

namespace Beyonce

/-- A `GridProperty` object: as `GProp`, with references for `data` and `mask`. -/
structure HProp (K : Type) where
  name : PropName
  unit : PropUnit
  params : GridParams K
  data : ℕ
  mask : Option ℕ
  vmin : Option (XF K)
  vmax : Option (XF K)
  colorMap : String
  numColors : ℤ

/-- All arrays and properties of a session. -/
structure PWorld (K : Type) where
  arrays : List (NpArr K)
  props : List (HProp K)

section
variable {K : Type}

/-- The array with a reference. -/
def arrayAt (arrays : List (NpArr K)) (r : ℕ) : NpArr K := arrays.getD r ⟨"float64", [], []⟩

/-- Write into the array with a reference. -/
def storeData (arrays : List (NpArr K)) (r : ℕ) (data : List (XF K)) : List (NpArr K) :=
  arrays.set r ⟨(arrayAt arrays r).dtype, (arrayAt arrays r).shape, data⟩

variable [Field K] [LinearOrder K]

/-- The attributes of a property as values. -/
def HProp.view (arrays : List (NpArr K)) (p : HProp K) : GProp K :=
  ⟨p.name, p.unit, p.params, ⟨(arrayAt arrays p.data).shape, (arrayAt arrays p.data).data⟩,
    p.mask.map fun r => (arrayAt arrays r).toMask, p.vmin, p.vmax, p.colorMap, p.numColors⟩

namespace PWorld

/-- GridProperty.py L38-76 `__init__` with an array of the session. -/
def make (name : PropName) (unit : PropUnit) (r : ℕ) (g : GridParams K) : Meth (PWorld K) Unit := do
  let w ← Meth.get
  let p ← Meth.lift (GProp.new name unit (.arr (arrayAt w.arrays r)) g)
  Meth.modify fun w => { w with props := w.props ++
    [⟨name, unit, g, r, none, p.vmin, p.vmax, p.colorMap, p.numColors⟩] }

/-- GridProperty.py L130-144 `set_mask` of property `i` with an array of the session. -/
def setMask (i r : ℕ) : Meth (PWorld K) Unit := do
  let w ← Meth.get
  match w.props[i]? with
  | none => Meth.throw .indexError
  | some p =>
    let m ← Meth.lift (array (.arr (arrayAt w.arrays r)) (dtype := .str "bool"))
    Meth.lift (sameShapeArrays [.arr m, .arr (arrayAt w.arrays p.data)] 2)
    Meth.modify fun w => { w with props := w.props.set i { p with mask := some r } }

/-- GridProperty.py L147-168 `get_data` of property `i`; the result is a reference. -/
def getData (i : ℕ) (masked : PyVal K) : Meth (PWorld K) ℕ := do
  let w ← Meth.get
  match w.props[i]? with
  | none => Meth.throw .indexError
  | some p =>
    let masked ← Meth.lift (boolean masked)
    match masked, p.mask with
    | true, some r =>
      if (arrayAt w.arrays r).shape = (arrayAt w.arrays p.data).shape then
        let a := putWhere .nan (arrayAt w.arrays r).toMask.data (arrayAt w.arrays p.data).data
        Meth.modify fun w => { w with arrays := storeData w.arrays p.data a }
        pure p.data
      else Meth.throw .indexError
    | _, _ => pure p.data

/-- GridProperty.py L171-217 `set_contrast_parameters` of property `i`: reads the data, writes only
attributes of the property. -/
def setContrast (i : ℕ) (vmin vmax colorMap numColors : PyVal K) : Meth (PWorld K) Unit := fun w =>
  match w.props[i]? with
  | none => (.error .indexError, w)
  | some p =>
    let r := GProp.setContrast vmin vmax colorMap numColors (p.view w.arrays)
    (r.1, { w with props := w.props.set i { p with vmin := r.2.vmin, vmax := r.2.vmax,
                                                   colorMap := r.2.colorMap,
                                                   numColors := r.2.numColors } })

end PWorld

/-- What can happen in a session: the caller makes an array or writes into one; a property is made or
one of its methods called. -/
inductive SessionOp (K : Type)
  | alloc (a : NpArr K)
  | poke (r k : ℕ) (x : XF K)
  | make (name : PropName) (unit : PropUnit) (r : ℕ) (g : GridParams K)
  | setMask (i r : ℕ)
  | read (i : ℕ) (masked : PyVal K)
  | contrast (i : ℕ) (vmin vmax colorMap numColors : PyVal K)

/-- The session after an operation, whether it raised or not. -/
def SessionOp.exec (w : PWorld K) : SessionOp K → PWorld K
  | .alloc a => { w with arrays := w.arrays ++ [a] }
  | .poke r k x => { w with arrays := storeData w.arrays r ((arrayAt w.arrays r).data.set k x) }
  | .make name unit r g => (PWorld.make name unit r g w).2
  | .setMask i r => (PWorld.setMask i r w).2
  | .read i masked => (PWorld.getData i masked w).2
  | .contrast i vmin vmax colorMap numColors =>
    (PWorld.setContrast i vmin vmax colorMap numColors w).2

end
end Beyonce
