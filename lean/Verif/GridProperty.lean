import Verif.GridParameters
import Mathlib.Algebra.Order.Floor.Defs

/-!
# `/repo/GridProperty.py`, the data classes

`GridProperty` L19-355 and `GridGradient` L360-588 without plotting and printing.
Objects are records; the attribute `data` is the record's own array.  (In Python the array passed
to the constructor is kept and the array returned by `get_data` is the attribute itself; see
`Verif/PropertyHeap.lean` for what that sharing does.)
-/

namespace Beyonce

/-- `/repo/GridPropertyName.py` L3-13. -/
inductive PropName
  | diskRadius | inclination | tilt | fxMap | fyMap | diagnosticMap | gradient | gradientFit
  deriving DecidableEq, Repr

/-- The member name (`.name` of the enum), GridPropertyName.py L6-13. -/
def PropName.str : PropName → String
  | diskRadius => "DISK_RADIUS" | inclination => "INCLINATION" | tilt => "TILT"
  | fxMap => "FX_MAP" | fyMap => "FY_MAP" | diagnosticMap => "DIAGNOSTIC_MAP"
  | gradient => "GRADIENT" | gradientFit => "GRADIENT_FIT"

/-- `/repo/GridPropertyUnit.py` L3-8. -/
inductive PropUnit
  | eclipseDuration | degree | none
  deriving DecidableEq, Repr

/-- The member name, GridPropertyUnit.py L6-8. -/
def PropUnit.str : PropUnit → String
  | eclipseDuration => "ECLIPSE_DURATION" | degree => "DEGREE" | none => "NONE"

/-- A Boolean array. -/
structure Mask where
  shape : List ℕ
  data : List Bool
  deriving DecidableEq, Repr

/-- The attributes of a `GridProperty`, GridProperty.py L64-76 and L203-217. -/
structure GProp (K : Type) where
  name : PropName
  unit : PropUnit
  params : GridParams K
  data : Nd K
  mask : Option Mask
  vmin : Option (XF K)
  vmax : Option (XF K)
  colorMap : String
  numColors : ℤ
  deriving DecidableEq, Repr

section
variable {K : Type}

/-- The Boolean array that a numpy array of dtype `bool` is. -/
def NpArr.toMask [Zero K] [DecidableEq K] (a : NpArr K) : Mask :=
  ⟨a.shape, a.data.map fun x => decide (x ≠ .fin 0)⟩

/-- `data[mask] = value` for a mask and data in the same C order. -/
def putWhere {α : Type} (value : α) : List Bool → List α → List α
  | m :: ms, x :: xs => (if m then value else x) :: putWhere value ms xs
  | _, xs => xs

variable [Field K] [LinearOrder K]

/-- `np.nanmin` / `np.nanmax` of an array that is not all NaN: keep `y` if it is beyond `x`. -/
def nanFold (beyond : XF K → XF K → Bool) : List (XF K) → Option (XF K)
  | [] => none
  | x :: xs => match nanFold beyond xs with
    | none => if x.isNan then none else some x
    | some y => if x.isNan then some y else if beyond y x then some y else some x

/-- `np.nanmin`. -/
def nanmin (l : List (XF K)) : Option (XF K) := nanFold XF.lt l

/-- `np.nanmax`. -/
def nanmax (l : List (XF K)) : Option (XF K) := nanFold (fun y x => XF.lt x y) l

/-- `None if x is None else x`, as the value that the methods replace a missing limit by. -/
def limitOr (v : PyVal K) (default : Option (XF K)) : PyVal K :=
  match v with
  | .none => match default with
    | some x => .npFloat .w64 x
    | none => .none
  | v => v

namespace GProp

/-- GridProperty.py L196-208: the limits part of `set_contrast_parameters`. -/
def setLimits (vmin vmax : PyVal K) : Meth (GProp K) Unit := do
  let self ← Meth.get
  if self.data.data.all XF.isNan then
    Meth.modify ({ · with vmin := none })
    Meth.modify ({ · with vmax := none })
  else
    let lo ← Meth.lift (number (limitOr vmin (nanmin self.data.data)))
    Meth.modify ({ · with vmin := some lo.num })
    let hi ← Meth.lift (number (limitOr vmax (nanmax self.data.data)))
    Meth.modify ({ · with vmax := some hi.num })

/-- GridProperty.py L210-217: the colour part of `set_contrast_parameters`. -/
def setColors (colorMap numColors : PyVal K) : Meth (GProp K) Unit := do
  let c ← Meth.lift (string (if colorMap = .none then .str "viridis" else colorMap))
  Meth.modify ({ · with colorMap := c })
  let n ← Meth.lift (number (if numColors = .none then .int 11 else numColors) (.bool true) (.int 2))
  Meth.modify ({ · with numColors := n.toInt })

/-- GridProperty.py L171-217 `set_contrast_parameters`. -/
def setContrast (vmin vmax colorMap numColors : PyVal K) : Meth (GProp K) Unit := do
  setLimits vmin vmax
  setColors colorMap numColors

/-- The call `set_contrast_parameters()` on an object that is lost if it raises. -/
def withDefaults (p : GProp K) : Except Err (GProp K) :=
  match setContrast .none .none .none .none p with
  | (.ok _, p') => .ok p'
  | (.error e, _) => .error e

/-- `grid_shape` as an array shape. -/
def shapeOf (g : GridParams K) : List ℕ := [g.gridShape.1, g.gridShape.2.1, g.gridShape.2.2]

/-- GridProperty.py L38-76 `__init__` (the classes of `name`, `unit` and `grid_parameters` are Lean
types). -/
def new (name : PropName) (unit : PropUnit) (data : PyVal K) (g : GridParams K) :
    Except Err (GProp K) := do
  let a ← array data (dtype := .str "float64") (numDimensions := .int 3)
  sameShapeArrays [data, .arr ⟨"float64", shapeOf g, []⟩] 2
  withDefaults ⟨name, unit, g, ⟨a.shape, a.data⟩, none, none, none, "", 0⟩

/-- GridProperty.py L130-144 `set_mask`. -/
def setMask (mask : PyVal K) : Meth (GProp K) Unit := do
  let self ← Meth.get
  let m ← Meth.lift (array mask (dtype := .str "bool"))
  Meth.lift (sameShapeArrays [.arr m, .arr ⟨"float64", self.data.shape, self.data.data⟩] 2)
  Meth.modify ({ · with mask := some m.toMask })

/-- GridProperty.py L147-168 `get_data`; `data[self.mask] = np.nan` writes into the attribute.  A
mask of another shape (only possible after loading) raises `IndexError`.  (numpy takes a mask whose
shape is a beginning of the shape of the data; here that raises, too.) -/
def getData (masked : PyVal K) : Meth (GProp K) (Nd K) := do
  let masked ← Meth.lift (boolean masked)
  let self ← Meth.get
  match masked, self.mask with
  | true, some m =>
    if m.shape = self.data.shape then
      Meth.modify ({ · with data := ⟨self.data.shape, putWhere .nan m.data self.data.data⟩ })
      let self ← Meth.get
      pure self.data
    else Meth.throw .indexError
  | _, _ => pure self.data

/-- `f"{self.name.name}_{self.unit.name}"`, GridProperty.py L301. -/
def fileName (name : PropName) (unit : PropUnit) : String := name.str ++ "_" ++ unit.str

/-- GridProperty.py L288-308 `save`, as steps. -/
def saveSteps (p : GProp K) (dir : Path) : List (Step K) :=
  [.mkdirIfMissing dir,
   .write (dir ++ [fileName p.name p.unit ++ ".npy"]) (.floats p.data.shape p.data.data)] ++
  (match p.mask with
    | some m => [.write (dir ++ [fileName p.name p.unit ++ "_mask.npy"]) (.bools m.shape m.data)]
    | none => []) ++
  p.params.saveSteps dir

/-- `np.load` of a mask file.  (A file with an array of another type is taken as an error.) -/
def loadMask (fs : FS K) (p : Path) : Except Err Mask := do
  match ← fs.load p with
  | .bools s d => .ok ⟨s, d⟩
  | _ => .error .typeError

/-- GridProperty.py L336-349: the mask file is used if there is one, without any check. -/
def withMaskFile (fs : FS K) (path : Path) (p : GProp K) : Except Err (GProp K) :=
  if fs.exists? path then do
    let m ← loadMask fs path
    .ok { p with mask := some m }
  else .ok p

/-- The body of the `try` of `load`, GridProperty.py L336-349. -/
def loadBody (fs : FS K) (dir : Path) (name : PropName) (unit : PropUnit) :
    Except Err (GProp K) := do
  let data ← GridParams.loadNd fs (dir ++ [fileName name unit ++ ".npy"])
  let g ← GridParams.load fs dir
  let p ← new name unit (.arr ⟨"float64", data.shape, data.data⟩) g
  let p ← withMaskFile fs (dir ++ [fileName name unit ++ "_mask.npy"]) p
  withDefaults p

/-- GridProperty.py L311-355 `load`. -/
def load (fs : FS K) (dir : Path) (name : PropName) (unit : PropUnit) : Except Err (GProp K) :=
  match loadBody fs dir name unit with
  | .ok p => .ok p
  | .error _ => .error .loadError

end GProp

/-! ## `GridGradient` -/

/-- The attributes of a `GridGradient`, GridProperty.py L388-401.  `None` is Lean's `none`; the
measured values keep their Python type, which decides what dividing by zero does. -/
structure GGrad (K : Type) where
  prop : GProp K
  position : PyVal K
  measured : Option (PyVal K)
  error : Option (PyVal K)
  orbital : Option (PyVal K)
  transmission : Option (PyVal K)
  deriving DecidableEq, Repr

/-- `1 / v`: Python numbers raise on zero, numpy numbers give infinity. -/
def oneOver (v : PyVal K) : Except Err (XF K) :=
  match v with
  | .bool _ | .int _ | .float _ =>
    if XF.eqb v.num (.fin 0) then .error .zeroDivisionError else .ok ((XF.fin 1).div v.num)
  | v => .ok ((XF.fin 1).div v.num)

/-- An attribute that may be `None` used as a number. -/
def needNumber (v : Option (PyVal K)) : Except Err (PyVal K) :=
  match v with
  | some v => .ok v
  | none => .error .typeError

namespace GGrad

/-- GridProperty.py L373-401 `__init__`. -/
def new (data : PyVal K) (g : GridParams K) (position : PyVal K) : Except Err (GGrad K) := do
  let p ← GProp.new .gradient .none data g
  let x ← number position
  .ok ⟨p, x, none, none, none, none⟩

/-- GridProperty.py L434-445 `__lt__`. -/
def lt (a b : GGrad K) : Bool := XF.lt a.position.num b.position.num

/-- GridProperty.py L447-470 `get_scaled_gradient`; `none` is `None`. -/
def scaled (s : GGrad K) : Except Err (Option (XF K)) :=
  match s.measured with
  | none => .ok none
  | some m => do
    let t ← needNumber s.transmission
    let transmissionScale ← oneOver t
    let o ← needNumber s.orbital
    let totalScale := o.num.mul transmissionScale
    let scaled := m.num.mul totalScale
    if XF.lt (.fin 1) scaled then .error .valueError else .ok (some scaled)

/-- One element of the mask of GridProperty.py L516-518. -/
def maskAt (scaled x : XF K) : Bool := XF.lt x scaled || x.isNan

/-- GridProperty.py L473-519 `determine_mask`. -/
def determineMask (measured orbital : PyVal K) (transmission : PyVal K := .none)
    (error : PyVal K := .none) : Meth (GGrad K) Unit := do
  let m ← Meth.lift (number measured (.bool false) (.int 0))
  Meth.modify ({ · with measured := some m })
  let o ← Meth.lift (number orbital (.bool false) (.int 0))
  Meth.modify ({ · with orbital := some o })
  let t ← Meth.lift (number (if transmission = .none then .int 1 else transmission) (.bool false)
    (.int 0) (.int 1))
  Meth.modify ({ · with transmission := some t })
  let e ← Meth.lift (number (if error = .none then .int 1 else error) (.bool false)
    (.float (.fin 0)))
  Meth.modify ({ · with error := some e })
  let self ← Meth.get
  let s ← Meth.lift self.scaled
  match s with
  | none => Meth.throw .typeError
  | some s => Meth.modify fun g => { g with prop := { g.prop with
      mask := some ⟨g.prop.data.shape, g.prop.data.data.map (maskAt s)⟩ } }

/-- `np.array([v₁, …])` of Python or numpy numbers: all Boolean, all integer, or float. (Arrays of
only small numpy types keep their width in numpy; here they become 64 bit.) -/
def npArray (l : List (PyVal K)) : Blob K :=
  if l.all (fun v => isinstance v .bool) then .bools [l.length] (l.map fun v => v.toInt ≠ 0)
  else if l.all (fun v => (integerType v).isOk) then .ints (l.map PyVal.toInt)
  else .floats [l.length] (l.map PyVal.num)

/-- The elements of a loaded one-dimensional array, as numpy scalars. -/
def blobScalars : Blob K → Except Err (List (PyVal K))
  | .floats _ d => .ok (d.map (.npFloat .w64))
  | .ints d => .ok (d.map (.npInt .w64))
  | .bools _ d => .ok (d.map .npBool)
  | _ => .error .typeError

/-- Half-even rounding of a non-negative number, as in `f"{x:.4f}"`. -/
def roundHalfEven [FloorRing K] (x : K) : ℤ :=
  let n := ⌊x⌋
  let d := x - n
  if d < 1 / 2 then n else if 1 / 2 < d then n + 1 else if n % 2 = 0 then n else n + 1

/-- The four digits after the point. -/
def digits4 (n : ℕ) : String :=
  toString (n / 1000 % 10) ++ toString (n / 100 % 10) ++ toString (n / 10 % 10) ++ toString (n % 10)

/-- `f"{x:.4f}"`. -/
def fmt4 [FloorRing K] : XF K → String
  | .nan => "nan"
  | .pinf => "inf"
  | .ninf => "-inf"
  | .fin x =>
    let n := (roundHalfEven (|x| * 10 ^ 4)).toNat
    (if x < 0 then "-" else "") ++ toString (n / 10000) ++ "." ++ digits4 (n % 10000)

/-- `f"gradient_{self.position:.4f}"`, GridProperty.py L533. -/
def dirName [FloorRing K] (s : GGrad K) : String := "gradient_" ++ fmt4 s.position.num

/-- The mask values that are saved, GridProperty.py L543-545; `None` inside `np.array` makes an
object array, whose elements are not numbers when loaded. -/
def maskValues (s : GGrad K) : Blob K :=
  match s.measured, s.orbital, s.transmission, s.error with
  | some m, some o, some t, some e => npArray [m, o, t, e]
  | _, _, _, _ => .torn

/-- GridProperty.py L522-548 `save_gradient`, as steps. (`.torn` stands for a file that `np.load`
refuses: object arrays need `allow_pickle`.) -/
def saveSteps [FloorRing K] (s : GGrad K) (dir : Path) : List (Step K) :=
  let sub := dir ++ [s.dirName]
  .mkdirIfMissing sub :: s.prop.saveSteps sub ++
  [.write (sub ++ ["position.npy"]) (npArray [s.position])] ++
  (match s.measured with
    | some _ => [.write (sub ++ ["mask_values.npy"]) s.maskValues]
    | none => []) ++
  s.prop.params.saveSteps dir

/-- `np.load(…/position.npy)[0]`. -/
def loadPosition (fs : FS K) (dir : Path) : Except Err (PyVal K) := do
  let b ← fs.load (dir ++ ["position.npy"])
  let l ← blobScalars b
  match l with
  | x :: _ => .ok x
  | [] => .error .indexError

/-- GridProperty.py L576-579: the mask is determined anew from the saved values. -/
def withMaskValues (fs : FS K) (path : Path) (s : GGrad K) : Except Err (GGrad K) :=
  if fs.exists? path then do
    let b ← fs.load path
    let l ← blobScalars b
    match l with
    | [m, o] => match determineMask m o .none .none s with
      | (.ok _, s') => .ok s'
      | (.error e, _) => .error e
    | [m, o, t] => match determineMask m o t .none s with
      | (.ok _, s') => .ok s'
      | (.error e, _) => .error e
    | [m, o, t, e] => match determineMask m o t e s with
      | (.ok _, s') => .ok s'
      | (.error e, _) => .error e
    | _ => .error .typeError
  else .ok s

/-- The body of the `try` of `load`, GridProperty.py L567-579. -/
def loadBody (fs : FS K) (dir : Path) : Except Err (GGrad K) := do
  let data ← GridParams.loadNd fs (dir ++ [GProp.fileName .gradient .none ++ ".npy"])
  let g ← GridParams.load fs dir
  let position ← loadPosition fs dir
  let s ← new (.arr ⟨"float64", data.shape, data.data⟩) g position
  withMaskValues fs (dir ++ ["mask_values.npy"]) s

/-- GridProperty.py L551-588 `load`. -/
def load (fs : FS K) (dir : Path) : Except Err (GGrad K) :=
  match loadBody fs dir with
  | .ok s => .ok s
  | .error _ => .error .loadError

end GGrad
end
end Beyonce
