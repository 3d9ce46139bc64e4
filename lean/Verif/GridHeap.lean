import Verif.BuildGrid
import Verif.PropertyHeap

/-!
# `/repo/Shallot.py` by reference

`Shallot.lean` takes the arrays of a grid as values.  Here they are objects: `HGrid` has references
where a `ShallotGrid` has arrays, methods write into arrays in place, and getters return references.
The caller may keep what a getter returned and write into it.

Modelled by reference are the arrays `data` and `mask` of the properties and gradients.  The vectors of
the parameters, `_circular_radius` and `shear` are values: no method writes into them, though a caller
could.  Arrays that the caller passes are read and not kept, so they are values, too.  What each
method computes is taken from `Shallot.lean` (`self` below reads the attributes).
-/

namespace Beyonce

/-- A `GridGradient` object: as `GGrad`, with references for `data` and `mask`. -/
structure HGrad (K : Type) where
  prop : HProp K
  position : PyVal K
  measured : Option (PyVal K)
  error : Option (PyVal K)
  orbital : Option (PyVal K)
  transmission : Option (PyVal K)

/-- A `ShallotGrid` object, Shallot.py L86-114: as `Shallot`, with references. -/
structure HGrid (K : Type) where
  params : GridParams K
  numFxfy : PyVal K
  diagnostics : Option (Diagnostics K)
  circularRadius : List (XF K)
  shear : Nd K
  diskRadius : HProp K
  inclination : HProp K
  tilt : HProp K
  fxMap : HProp K
  fyMap : HProp K
  diagnosticMap : Option (HProp K)
  gradients : Option (List (HGrad K))
  gradientFit : Option (HProp K)
  eclipseDuration : Option (PyVal K)
  velocity : Option (PyVal K)
  limb : Option (PyVal K)

/-- A grid and all arrays there are. -/
structure GWorld (K : Type) where
  arrays : List (NpArr K)
  grid : HGrid K

section
variable {K : Type}

namespace HGrid

/-- `self.disk_radius` and so on; `none` is `None`. -/
def prop (h : HGrid K) : Cube → Option (HProp K)
  | .diskRadius => some h.diskRadius
  | .inclination => some h.inclination
  | .tilt => some h.tilt
  | .fxMap => some h.fxMap
  | .fyMap => some h.fyMap
  | .diagnosticMap => h.diagnosticMap
  | .gradientFit => h.gradientFit

/-- `self.disk_radius = p` and so on. -/
def setProp (h : HGrid K) (p : HProp K) : Cube → HGrid K
  | .diskRadius => { h with diskRadius := p }
  | .inclination => { h with inclination := p }
  | .tilt => { h with tilt := p }
  | .fxMap => { h with fxMap := p }
  | .fyMap => { h with fyMap := p }
  | .diagnosticMap => { h with diagnosticMap := some p }
  | .gradientFit => { h with gradientFit := some p }

/-- Gradient `k`. -/
def gradient (h : HGrid K) (k : ℕ) : Option (HGrad K) := (h.gradients.getD [])[k]?

/-- Gradient `k` replaced. -/
def setGradient (h : HGrid K) (k : ℕ) (g : HGrad K) : HGrid K :=
  { h with gradients := some ((h.gradients.getD []).set k g) }

end HGrid

/-- The array with a reference, without its dtype. -/
def ndAt (arrays : List (NpArr K)) (r : ℕ) : Nd K := ⟨(arrayAt arrays r).shape, (arrayAt arrays r).data⟩

variable [Field K] [LinearOrder K]

/-- The attributes of a gradient as values. -/
def HGrad.view (arrays : List (NpArr K)) (g : HGrad K) : GGrad K :=
  ⟨g.prop.view arrays, g.position, g.measured, g.error, g.orbital, g.transmission⟩

/-- The attributes of a grid as values. -/
def HGrid.view (arrays : List (NpArr K)) (h : HGrid K) : Shallot K where
  params := h.params
  numFxfy := h.numFxfy
  diagnostics := h.diagnostics
  circularRadius := h.circularRadius
  shear := h.shear
  diskRadius := h.diskRadius.view arrays
  inclination := h.inclination.view arrays
  tilt := h.tilt.view arrays
  fxMap := h.fxMap.view arrays
  fyMap := h.fyMap.view arrays
  diagnosticMap := h.diagnosticMap.map (HProp.view arrays)
  gradients := h.gradients.map fun l => l.map (HGrad.view arrays)
  gradientFit := h.gradientFit.map (HProp.view arrays)
  eclipseDuration := h.eclipseDuration
  velocity := h.velocity
  limb := h.limb

/-- The grid as a value. -/
def GWorld.view (w : GWorld K) : Shallot K := w.grid.view w.arrays

namespace GWorld

/-! ## Arrays -/

/-- numpy makes a new array. -/
def alloc (a : NpArr K) : Meth (GWorld K) ℕ := fun w =>
  (.ok w.arrays.length, { w with arrays := w.arrays ++ [a] })

/-- An array of Booleans as an object. -/
def boolArray (m : Mask) : NpArr K := ⟨"bool", m.shape, m.data.map fun b => .fin (if b then 1 else 0)⟩

/-- Read all attributes. -/
def self : Meth (GWorld K) (Shallot K) := fun w => (.ok w.view, w)

/-- Read an array. -/
def read (r : ℕ) : Meth (GWorld K) (Nd K) := fun w => (.ok (ndAt w.arrays r), w)

/-- `a[m] = np.nan`: in place. -/
def putNan (r : ℕ) (m : Mask) : Meth (GWorld K) Unit := fun w =>
  if m.shape = (arrayAt w.arrays r).shape then
    let a := putWhere .nan m.data (arrayAt w.arrays r).data
    (.ok (), { w with arrays := storeData w.arrays r a })
  else (.error .indexError, w)

/-- `a.flat[i] = np.nan`: in place. -/
def eraseAt (r i : ℕ) : Meth (GWorld K) Unit := fun w =>
  (.ok (), { w with arrays := storeData w.arrays r ((arrayAt w.arrays r).data.set i .nan) })

/-! ## Methods of the properties -/

/-- GridProperty.py L147-168 `get_data`: the array of the property is returned, after
`data[self.mask] = np.nan` wrote into it. -/
def getData (p : HProp K) (masked : PyVal K) : Meth (GWorld K) ℕ := do
  let masked ← Meth.lift (boolean masked)
  let w ← Meth.get
  match masked, p.mask with
  | true, some r => do
    putNan p.data (arrayAt w.arrays r).toMask
    pure p.data
  | _, _ => pure p.data

/-- `self.….get_data(masked)`. -/
def readCube (c : Cube) (masked : PyVal K) : Meth (GWorld K) ℕ := do
  let w ← Meth.get
  match w.grid.prop c with
  | none => Meth.throw .attributeError
  | some p => getData p masked

/-- `self.gradients[k].get_data(masked)`. -/
def readGradient (k : ℕ) (masked : PyVal K) : Meth (GWorld K) ℕ := do
  let w ← Meth.get
  match w.grid.gradient k with
  | none => Meth.throw .indexError
  | some g => getData g.prop masked

/-- `self.… = p`. -/
def assign (c : Cube) (p : HProp K) : Meth (GWorld K) Unit :=
  Meth.modify fun w => { w with grid := w.grid.setProp p c }

/-- `self.… = GridProperty(name, unit, a, g)` with a new array, GridProperty.py L38-76. -/
def putNew (c : Cube) (name : PropName) (unit : PropUnit) (a : NpArr K) (g : GridParams K) :
    Meth (GWorld K) Unit := do
  let r ← alloc a
  let p ← Meth.lift (GProp.new name unit (.arr a) g)
  assign c ⟨name, unit, g, r, none, p.vmin, p.vmax, p.colorMap, p.numColors⟩

/-- GridProperty.py L130-144 `set_mask` of an attribute with a new array. -/
def setMask (c : Cube) (a : NpArr K) : Meth (GWorld K) Unit := do
  let r ← alloc a
  let w ← Meth.get
  match w.grid.prop c with
  | none => Meth.throw .attributeError
  | some p => do
    let m ← Meth.lift (array (.arr a) (dtype := .str "bool"))
    let d := ndAt w.arrays p.data
    Meth.lift (sameShapeArrays [.arr m, .arr ⟨"float64", d.shape, d.data⟩] 2)
    assign c { p with mask := some r }

/-- GridProperty.py L473-519 `determine_mask` of gradient `k`: the numbers are stored as in
`GGrad.determineMask`; the mask is a new array (L519 `mask.astype(bool)`). -/
def determineMask (k : ℕ) (measured orbital : PyVal K) (transmission : PyVal K := .none)
    (error : PyVal K := .none) : Meth (GWorld K) Unit := fun w =>
  match w.grid.gradient k with
  | none => (.error .indexError, w)
  | some g =>
    let q := GGrad.determineMask measured orbital transmission error (g.view w.arrays)
    let g' : HGrad K := { g with measured := q.2.measured, error := q.2.error,
                                 orbital := q.2.orbital, transmission := q.2.transmission }
    match q.1, q.2.prop.mask with
    | .ok _, some m =>
      (.ok (), { arrays := w.arrays ++ [boolArray m]
                 grid := w.grid.setGradient k
                   { g' with prop := { g'.prop with mask := some w.arrays.length } } })
    | r, _ => (r, { w with grid := w.grid.setGradient k g' })

/-! ## Getters -/

/-- L1899-1922 `get_combined_mask`: a new array. -/
def combinedMask : Meth (GWorld K) ℕ := do
  let s ← self
  let m ← Meth.lift s.combinedMask
  alloc (boolArray m)

/-- L1007-1163, L1192-1221 and L1791-1799: `get_disk_radius` and so on.  The combined mask is applied
to the array that `get_data` returned. -/
def getCube (c : Cube) (masked : PyVal K := .bool true) (propertyMasked : PyVal K := .bool true) :
    Meth (GWorld K) ℕ := do
  let r ← readCube c propertyMasked
  let masked ← Meth.lift (boolean masked)
  if masked then do
    let s ← self
    let m ← Meth.lift s.combinedMask
    putNan r m
    pure r
  else pure r

/-- L1769-1801 `get_gradient_fit`; `none` is `None`. -/
def getGradientFit (masked : PyVal K := .bool true) (propertyMasked : PyVal K := .bool true) :
    Meth (GWorld K) (Option ℕ) := do
  let s ← self
  if s.gradientFit = none then pure none
  else do
    let r ← getCube .gradientFit masked propertyMasked
    pure (some r)

/-- L1875-1896 `generate_hill_radius_mask`: the mask is a new array. -/
def hillMask (hillRadius : PyVal K) : Meth (GWorld K) Unit := do
  let h ← Meth.lift (number hillRadius (.bool false) (.float (.fin 0)))
  let s ← self
  let d := s.diskRadius.data
  setMask .diskRadius ⟨"bool", d.shape,
    d.data.map fun x => .fin (if Shallot.hillAt h.num x then 1 else 0)⟩

/-- L1166-1189 `diagnose_fxfy_resolution`: the difference is a new array. -/
def diagnose : Meth (GWorld K) Unit := do
  let s ← self
  let g := s.params
  let minArg := g.rf.data.length - 1
  let values := cubeOf g.gridShape.1 g.gridShape.2.1 g.gridShape.2.2 fun y x r =>
    ((s.diskRadius.data.at3 y x r).div (s.diskRadius.data.at3 y x minArg)).sub
      (g.rfArray.data.getD r .nan)
  putNew .diagnosticMap .diagnosticMap .eclipseDuration ⟨"float64", values.shape, values.data⟩ g

/-! ## Gradients -/

/-- Change attributes that are not arrays. -/
def adjust (f : HGrid K → HGrid K) : Meth (GWorld K) Unit :=
  Meth.modify fun w => { w with grid := f w.grid }

/-- L1452-1459 `_reset_gradient_fit`. -/
def resetFit : Meth (GWorld K) Unit := adjust ({ · with gradientFit := none })

/-- The loop of L1531-1552 `remove_gradients`. -/
def removeLoop : List ℤ → Meth (GWorld K) Unit
  | [] => pure ()
  | i :: is => do
    let w ← Meth.get
    let l := w.grid.gradients.getD []
    if 0 ≤ i ∧ i < l.length then do
      adjust ({ · with gradients := some (l.eraseIdx i.toNat) })
      removeLoop is
    else Meth.throw .indexError

/-- L1531-1552 `remove_gradients`. -/
def removeGradients [FloorRing K] (indices : PyVal K) : Meth (GWorld K) Unit := do
  let w ← Meth.get
  match w.grid.gradients with
  | none => pure ()
  | some l => do
    let a ← Meth.lift (array indices (lower := .int 0) (upper := .int ((l.length : ℤ) - 1))
      (dtype := .str "int64") (numDimensions := .int 1))
    removeLoop ((Shallot.intsOf a).mergeSort (fun i j => decide (i ≤ j))).reverse
    resetFit

/-- L1555-1587 `set_eclipse_parameters`. -/
def setEclipseParameters (duration velocity limb : PyVal K) : Meth (GWorld K) Unit := do
  let d ← Meth.lift (number duration (.bool false) (.float (.fin 0)))
  adjust ({ · with eclipseDuration := some d })
  let v ← Meth.lift (number velocity (.bool false) (.float (.fin 0)))
  adjust ({ · with velocity := some v })
  let u ← Meth.lift (number limb (.bool false) (.float (.fin 0)) (.float (.fin 1)))
  adjust ({ · with limb := some u })
  let w ← Meth.get
  match w.grid.gradients with
  | none => pure ()
  | some _ => do
    adjust ({ · with gradients := none })
    resetFit

/-- L1733-1766 `determine_gradient_fit`: data and mask are new arrays. -/
def determineFit (weighted : Bool := true) : Meth (GWorld K) Unit := do
  let s ← self
  match s.gradients with
  | none => pure ()
  | some gs => do
    let (a, b, c) := s.params.gridShape
    let data ← Meth.lift (Shallot.fitLoop weighted gs (List.replicate (a * b * c) (.fin 0)))
    putNew .gradientFit .gradientFit .none ⟨"float64", [a, b, c], data⟩ s.params
    setMask .gradientFit ⟨"bool", [a, b, c], data.map fun x => .fin (if x.isNan then 1 else 0)⟩

/-! ## Grid points -/

/-- `self.get_…(masked)[y, x, r]`. -/
def lookup (c : Cube) (masked : PyVal K) (y x r : ℤ) : Meth (GWorld K) (XF K) := do
  let a ← getCube c masked
  let d ← read a
  Meth.lift (d.get3 y x r)

/-- The loop of L2110-2113 for the `n` gradients from `k` on. -/
def gradientValues (masked : PyVal K) (y x r : ℤ) :
    ℕ → ℕ → Meth (GWorld K) (List (XF K) × List (XF K))
  | 0, _ => pure ([], [])
  | n + 1, k => do
    let s ← self
    let position := match (s.gradients.getD [])[k]? with
      | some g => g.position.num
      | none => .nan
    let a ← readGradient k masked
    let d ← read a
    let v ← Meth.lift (d.get3 y x r)
    let rest ← gradientValues masked y x r n (k + 1)
    pure (position :: rest.1, v :: rest.2)

/-- L2106-2118. -/
def gradientsAt (masked : PyVal K) (y x r : ℤ) :
    Meth (GWorld K) (Option (List (XF K) × List (XF K))) := do
  let s ← self
  match s.gradients with
  | none => pure none
  | some gs => do
    let v ← gradientValues masked y x r gs.length 0
    pure (some v)

/-- L2035-2120 `get_grid_point_data`. -/
def gridPoint (y x r : PyVal K) (masked : PyVal K := .bool true) :
    Meth (GWorld K) (Shallot.Point K) := do
  let s ← self
  let y ← Meth.lift (Shallot.gridIndex y s.params.gridShape.1)
  let x ← Meth.lift (Shallot.gridIndex x s.params.gridShape.2.1)
  let r ← Meth.lift (Shallot.gridIndex r s.params.gridShape.2.2)
  let radius ← lookup .diskRadius masked y x r
  let inclination ← lookup .inclination masked y x r
  let tilt ← lookup .tilt masked y x r
  let dx ← Meth.lift (Shallot.vectorAt s.params.dx.data x)
  let dy ← Meth.lift (Shallot.vectorAt s.params.dy.data y)
  let rf ← Meth.lift (Shallot.vectorAt s.params.rfArray.data r)
  let fx ← lookup .fxMap masked y x r
  let fy ← lookup .fyMap masked y x r
  let diagnostic ← lookup .diagnosticMap masked y x r
  let gradients ← gradientsAt masked y x r
  pure ⟨radius, inclination, tilt, dx, dy, rf, fx, fy, diagnostic, gradients⟩

/-- One round of the loop of L1856-1870; `fit` is the local variable `gradient_fit`. -/
def solution (fit : ℕ) : Meth (GWorld K) (Shallot.Solution K) := do
  let s ← self
  let d ← read fit
  let i ← Meth.lift (nanargmin d.data)
  let (y, x, r) := unravel s.params.gridShape.2.1 s.params.gridShape.2.2 i
  let p ← gridPoint (.npInt .w64 y) (.npInt .w64 x) (.npInt .w64 r) (.bool false)
  eraseAt fit i
  pure ⟨d.data.getD i .nan, p.diskRadius, p.inclination, p.tilt, p.dx, p.dy⟩

/-- The loop of L1856-1870.  Without a fit the local variable is `None`, which has no minimum. -/
def solutionLoop (fit : Option ℕ) : ℕ → Meth (GWorld K) (List (Shallot.Solution K))
  | 0 => pure []
  | n + 1 => match fit with
    | none => Meth.throw .attributeError
    | some a => do
      let s ← solution a
      let rest ← solutionLoop fit n
      pure (s :: rest)

/-- L1804-1872 `extract_solutions`; the numbers of the six arrays that it returns. -/
def extractSolutions (num : PyVal K := .none) : Meth (GWorld K) (List (Shallot.Solution K)) := do
  let s ← self
  let m ← Meth.lift s.combinedMask
  let n ← Meth.lift (Shallot.solutionCount num m)
  let fit ← getGradientFit
  solutionLoop fit n

variable [RealFns K]

/-- One round of the loop of L1338-1360: the gradient has a new array. -/
def appendGradient (position : XF K) : Meth (GWorld K) Unit := do
  let s ← self
  let d := s.gradientCube position
  let r ← alloc ⟨"float64", d.shape, d.data⟩
  let g ← Meth.lift (GGrad.new (.arr ⟨"float64", d.shape, d.data⟩) s.params (.npFloat .w64 position))
  adjust fun h => { h with gradients := some (h.gradients.getD [] ++
    [⟨⟨g.prop.name, g.prop.unit, g.prop.params, r, none, g.prop.vmin, g.prop.vmax, g.prop.colorMap,
        g.prop.numColors⟩, g.position, none, none, none, none⟩]) }

/-- The loop of L1338-1360. -/
def appendGradients : List (XF K) → Meth (GWorld K) Unit
  | [] => pure ()
  | position :: ps => do
    appendGradient position
    appendGradients ps

/-- L1316-1360 `_determine_disk_gradients`. -/
def determineDiskGradients (positions : NpArr K) : Meth (GWorld K) Unit := do
  let a ← Meth.lift (array (.arr positions) (dtype := .str "float64") (numDimensions := .int 1))
  adjust fun h => { h with gradients := some (h.gradients.getD []) }
  appendGradients a.data

/-- The loop of L1446-1449, from gradient `k` on. -/
def measureLoop (scale : PyVal K) : ℕ → List (XF K × XF K × XF K) → Meth (GWorld K) Unit
  | _, [] => pure ()
  | k, (m, e, t) :: rest => do
    let w ← Meth.get
    if k < (w.grid.gradients.getD []).length then do
      determineMask k (.npFloat .w64 m) scale (.npFloat .w64 t) (.npFloat .w64 e)
      measureLoop scale (k + 1) rest
    else pure ()

/-- L1385-1449 `_set_measured_gradients_and_masks`. -/
def setMeasured (lc : NpArr K) (errors transmissions : PyVal K) : Meth (GWorld K) Unit := do
  let errors ← Meth.lift (array (Shallot.orOnes errors lc) (lower := .float (.fin 0))
    (dtype := .str "float64") (numDimensions := .int 1))
  let transmissions ← Meth.lift (array (Shallot.orOnes transmissions lc) (lower := .int 0)
    (upper := .int 1) (dtype := .str "float64") (numDimensions := .int 1))
  Meth.lift (sameShapeArrays [.arr lc, .arr errors, .arr transmissions] 3)
  let s ← self
  let scale ← Meth.lift s.orbital
  measureLoop scale (Shallot.sliceStart (s.gradients.getD []).length lc.data.length)
    ((lc.data.map XF.abs).zip (errors.data.zip transmissions.data))

/-- L1462-1528 `add_gradients`. -/
def addGradients (times lc : PyVal K) (errors : PyVal K := .none) (transmissions : PyVal K := .none) :
    Meth (GWorld K) Unit := do
  let s ← self
  if s.ready then do
    let times ← Meth.lift (array times (dtype := .str "float64") (numDimensions := .int 1))
    let lc ← Meth.lift (array lc (lower := .float (.fin 0)) (dtype := .str "float64")
      (numDimensions := .int 1))
    Meth.lift (sameShapeArrays [.arr times, .arr lc] 2)
    let duration ← Meth.lift (needNumber s.eclipseDuration)
    determineDiskGradients (Shallot.positionsOf times duration)
    setMeasured lc errors transmissions
    resetFit
  else pure ()

/-- The loop of L1657-1672 for the `n` gradients from `k` on. -/
def rescaleLoop (updateOrbital : Bool) (transmissions : Option (List (XF K))) :
    ℕ → ℕ → Meth (GWorld K) Unit
  | 0, _ => pure ()
  | n + 1, k => do
    let s ← self
    match (s.gradients.getD [])[k]? with
    | none => pure ()
    | some g => do
      let scale ← Meth.lift (if updateOrbital then s.orbital else .ok (Shallot.argOf g.orbital))
      let t := match transmissions with
        | some l => .npFloat .w64 (l.getD k .nan)
        | none => Shallot.argOf g.transmission
      determineMask k (Shallot.argOf g.measured) scale t (Shallot.argOf g.error)
      rescaleLoop updateOrbital transmissions n (k + 1)

/-- L1590-1674 `update_gradient_scaling`. -/
def updateScaling (velocity : PyVal K := .none) (limb : PyVal K := .none)
    (transmissions : PyVal K := .none) : Meth (GWorld K) Unit := do
  adjust fun h => { h with
    velocity := if velocity = .none then h.velocity else some velocity
    limb := if limb = .none then h.limb else some limb }
  let updateOrbital := decide (velocity ≠ .none ∨ limb ≠ .none)
  let s ← self
  let t ← Meth.lift (s.newTransmissions transmissions)
  if !updateOrbital && t.isNone then pure ()
  else match s.gradients with
    | none => Meth.throw .typeError
    | some l => do
      rescaleLoop updateOrbital t l.length 0
      resetFit

/-- The loop of L1722-1728: `disk_gradients[k] = gradient.get_data(property_masked)` copies. -/
def gradientLoop (m : Mask) (propertyMasked : PyVal K) :
    ℕ → ℕ → Meth (GWorld K) (Shallot.Gradients K)
  | 0, _ => pure ⟨[], [], [], []⟩
  | n + 1, k => do
    let s ← self
    match (s.gradients.getD [])[k]? with
    | none => pure ⟨[], [], [], []⟩
    | some g => do
      let v ← Meth.lift g.scaled
      let a ← readGradient k propertyMasked
      let d ← read a
      let rest ← gradientLoop m propertyMasked n (k + 1)
      pure ⟨g.position.num :: rest.positions, Shallot.floatOf v :: rest.scaled,
        Shallot.floatOf (g.error.map PyVal.num) :: rest.errors, d.putNan m :: rest.cubes⟩

/-- L1677-1730 `get_gradients`; the last array that is returned is a new one (L1713). -/
def getGradients (masked : PyVal K := .bool false) (propertyMasked : PyVal K := .bool true) :
    Meth (GWorld K) (Shallot.Gradients K × ℕ) := do
  let s ← self
  match s.gradients with
  | none => Meth.throw .typeError
  | some l => do
    let masked ← Meth.lift (boolean masked)
    let m ← Meth.lift (s.maskOrNot masked)
    let v ← gradientLoop m propertyMasked l.length 0
    let r ← alloc ⟨"float64", l.length :: GProp.shapeOf s.params, v.cubes.flatMap Nd.data⟩
    pure (v, r)

/-- L1925-2032 `determine_closest_grid_point`. -/
def closestPoint (radius inclination tilt impact : PyVal K) (masked : PyVal K := .bool true) :
    Meth (GWorld K) (Shallot.Closest K) := do
  let radius ← Meth.lift (number radius (.bool false) (.int 0))
  let inclination ← Meth.lift (number inclination (.bool false) (.int 0) (.int 90))
  let tilt ← Meth.lift (number tilt (.bool false) (.int (-180)) (.int 180))
  let impact ← Meth.lift (number impact)
  let m ← Meth.lift (boolean masked)
  let gr ← getCube .diskRadius (.bool m)
  let gi ← getCube .inclination (.bool m)
  let gt ← getCube .tilt (.bool m)
  let s ← self
  let g := s.params
  let w ← Meth.get
  Meth.lift (Shallot.closestOf g (Shallot.distances radius.num inclination.num tilt.num impact.num
    g.dy.data g.gridShape.1 g.gridShape.2.1 g.gridShape.2.2 (ndAt w.arrays gr) (ndAt w.arrays gi)
    (ndAt w.arrays gt)))

end GWorld
end
end Beyonce
