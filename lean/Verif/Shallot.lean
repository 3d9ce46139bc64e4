import Verif.Cube
import Verif.Geometry
import Verif.GridDiagnostics

/-!
# `/repo/Shallot.py`: the state of a `ShallotGrid` and the methods that work on a built grid

Building is in `BuildGrid`, saving and loading in `ShallotFiles`.

Simplifications.
* The logger and `tqdm` are dropped; `__repr__` is in `Report.lean`.
* All arrays of a grid have the shape of its parameters (the constructor makes it so, and it is
  proved to be kept).  Where numpy would broadcast arrays of other shapes the model raises.
* An array that a getter returns is the attribute itself.  What the methods write into it is
  modelled here; what a caller writes into it, in `GridHeap.lean`.
* `True`/`False` as grid index raises (numpy would give an array of another shape).
* Scalars that arithmetic gives are `float`, or `np.float64` if an operand is a numpy number.
-/

namespace Beyonce

/-- The attributes of a `ShallotGrid`, L86-114.  `circularRadius` has shape `(ny, 1, 1)` and `shear`
shape `(ny, nx, 1)`. -/
structure Shallot (K : Type) where
  params : GridParams K
  numFxfy : PyVal K
  diagnostics : Option (Diagnostics K)
  circularRadius : List (XF K)
  shear : Nd K
  diskRadius : GProp K
  inclination : GProp K
  tilt : GProp K
  fxMap : GProp K
  fyMap : GProp K
  diagnosticMap : Option (GProp K)
  gradients : Option (List (GGrad K))
  gradientFit : Option (GProp K)
  eclipseDuration : Option (PyVal K)
  velocity : Option (PyVal K)
  limb : Option (PyVal K)
  deriving DecidableEq, Repr

/-- The attributes that are a `GridProperty`. -/
inductive Cube
  | diskRadius | inclination | tilt | fxMap | fyMap | diagnosticMap | gradientFit
  deriving DecidableEq, Repr

section
variable {K : Type}

namespace Shallot

/-- `self.disk_radius` and so on; `none` is `None`. -/
def prop (s : Shallot K) : Cube → Option (GProp K)
  | .diskRadius => some s.diskRadius
  | .inclination => some s.inclination
  | .tilt => some s.tilt
  | .fxMap => some s.fxMap
  | .fyMap => some s.fyMap
  | .diagnosticMap => s.diagnosticMap
  | .gradientFit => s.gradientFit

/-- `self.disk_radius = p` and so on. -/
def setProp (s : Shallot K) (p : GProp K) : Cube → Shallot K
  | .diskRadius => { s with diskRadius := p }
  | .inclination => { s with inclination := p }
  | .tilt => { s with tilt := p }
  | .fxMap => { s with fxMap := p }
  | .fyMap => { s with fyMap := p }
  | .diagnosticMap => { s with diagnosticMap := some p }
  | .gradientFit => { s with gradientFit := some p }

/-- Call a method of one of the properties; `None` has no methods. -/
def onProp {α : Type} (c : Cube) (m : Meth (GProp K) α) : Meth (Shallot K) α := fun s =>
  match s.prop c with
  | none => (.error .attributeError, s)
  | some p => ((m p).1, s.setProp (m p).2 c)

/-- Call a method of gradient `k`. -/
def onGradient {α : Type} (k : ℕ) (m : Meth (GGrad K) α) : Meth (Shallot K) α := fun s =>
  match (s.gradients.getD [])[k]? with
  | none => (.error .indexError, s)
  | some g => ((m g).1, { s with gradients := some ((s.gradients.getD []).set k (m g).2) })

end Shallot

variable [Field K] [LinearOrder K]

namespace Shallot

/-! ## Masks and getters -/

/-- One round of the loop of L1918-1920. -/
def addMask (shape : List ℕ) (counts : List ℕ) (m : Mask) : Except Err (List ℕ) :=
  if m.shape = shape then .ok (List.zipWith (fun n b => n + if b then 1 else 0) counts m.data)
  else .error .valueError

/-- The loop of L1918-1920. -/
def addMasks (shape : List ℕ) : List (Option Mask) → List ℕ → Except Err (List ℕ)
  | [], counts => .ok counts
  | none :: ms, counts => addMasks shape ms counts
  | some m :: ms, counts => do
    let counts ← addMask shape counts m
    addMasks shape ms counts

/-- L1910-1914: all masks in the order of the code. -/
def allMasks (s : Shallot K) : List (Option Mask) :=
  [s.diskRadius.mask, s.inclination.mask, s.tilt.mask] ++
  (match s.gradients with
    | some gs => gs.map fun g => g.prop.mask
    | none => [])

/-- L1899-1922 `get_combined_mask`. -/
def combinedMask (s : Shallot K) : Except Err Mask := do
  let (a, b, c) := s.params.gridShape
  let counts ← addMasks [a, b, c] s.allMasks (List.replicate (a * b * c) 0)
  .ok ⟨[a, b, c], counts.map fun n => decide (n ≠ 0)⟩

/-- `a[m] = np.nan` on the attribute `data`, giving the array. -/
def nanWhere (m : Mask) : Meth (GProp K) (Nd K) := do
  let p ← Meth.get
  if m.shape = p.data.shape then
    Meth.set { p with data := p.data.putNan m }
    pure (p.data.putNan m)
  else Meth.throw .indexError

/-- The common body of `get_disk_radius`, `get_inclination`, `get_tilt`, `get_fx_map`, `get_fy_map`
(L1007-1163), `get_diagnostic_map` (L1192-1221) and `get_gradient_fit` (L1791-1799). -/
def getCube (c : Cube) (masked : PyVal K := .bool true) (propertyMasked : PyVal K := .bool true) :
    Meth (Shallot K) (Nd K) := do
  let d ← onProp c (GProp.getData propertyMasked)
  let masked ← Meth.lift (boolean masked)
  if masked then do
    let self ← Meth.get
    let m ← Meth.lift self.combinedMask
    onProp c (nanWhere m)
  else pure d

/-- L1769-1801 `get_gradient_fit`; `none` is `None`. -/
def getGradientFit (masked : PyVal K := .bool true) (propertyMasked : PyVal K := .bool true) :
    Meth (Shallot K) (Option (Nd K)) := do
  let self ← Meth.get
  if self.gradientFit = none then pure none
  else do
    let d ← getCube .gradientFit masked propertyMasked
    pure (some d)

/-- One element of the mask of L1889-1894. -/
def hillAt (h x : XF K) : Bool := if x.isNan then true else XF.lt h x

/-- L1875-1896 `generate_hill_radius_mask`. -/
def hillMask (hillRadius : PyVal K) : Meth (Shallot K) Unit := do
  let h ← Meth.lift (number hillRadius (.bool false) (.float (.fin 0)))
  let self ← Meth.get
  let d := self.diskRadius.data
  onProp .diskRadius (GProp.setMask (.arr ⟨"bool", d.shape,
    d.data.map fun x => .fin (if hillAt h.num x then 1 else 0)⟩))

/-! ## The diagnostic map -/

/-- L1166-1189 `diagnose_fxfy_resolution`. -/
def diagnose : Meth (Shallot K) Unit := do
  let self ← Meth.get
  let g := self.params
  let minArg := g.rf.data.length - 1
  let values := cubeOf g.gridShape.1 g.gridShape.2.1 g.gridShape.2.2 fun y x r =>
    ((self.diskRadius.data.at3 y x r).div (self.diskRadius.data.at3 y x minArg)).sub
      (g.rfArray.data.getD r .nan)
  let p ← Meth.lift (GProp.new .diagnosticMap .eclipseDuration
    (.arr ⟨"float64", values.shape, values.data⟩) g)
  Meth.modify ({ · with diagnosticMap := some p })

/-! ## Gradients -/

/-- L1452-1459 `_reset_gradient_fit`. -/
def resetFit : Meth (Shallot K) Unit := Meth.modify ({ · with gradientFit := none })

/-- L1502-1506 of `add_gradients`: are the eclipse parameters there? -/
def ready (s : Shallot K) : Bool := s.limb.isSome && s.eclipseDuration.isSome && s.velocity.isSome

/-- L1531-1552 `remove_gradients`, the loop: `del self.gradients[index]`. -/
def removeLoop : List ℤ → Meth (Shallot K) Unit
  | [] => pure ()
  | i :: is => do
    let self ← Meth.get
    let l := self.gradients.getD []
    if 0 ≤ i ∧ i < l.length then do
      Meth.set { self with gradients := some (l.eraseIdx i.toNat) }
      removeLoop is
    else Meth.throw .indexError

/-- The integers in an array of dtype `int64`. -/
def intsOf [FloorRing K] (a : NpArr K) : List ℤ :=
  a.data.map fun x => match x with
    | .fin x => ⌊x⌋
    | _ => 0

/-- L1531-1552 `remove_gradients`. -/
def removeGradients [FloorRing K] (indices : PyVal K) : Meth (Shallot K) Unit := do
  let self ← Meth.get
  match self.gradients with
  | none => pure ()
  | some l => do
    let a ← Meth.lift (array indices (lower := .int 0) (upper := .int ((l.length : ℤ) - 1))
      (dtype := .str "int64") (numDimensions := .int 1))
    removeLoop ((intsOf a).mergeSort (fun i j => decide (i ≤ j))).reverse
    resetFit

/-- L1575-1580: the three parameters, one after the other. -/
def storeEclipse (duration velocity limb : PyVal K) : Meth (Shallot K) Unit := do
  let d ← Meth.lift (number duration (.bool false) (.float (.fin 0)))
  Meth.modify ({ · with eclipseDuration := some d })
  let v ← Meth.lift (number velocity (.bool false) (.float (.fin 0)))
  Meth.modify ({ · with velocity := some v })
  let u ← Meth.lift (number limb (.bool false) (.float (.fin 0)) (.float (.fin 1)))
  Meth.modify ({ · with limb := some u })

/-- L1555-1587 `set_eclipse_parameters`. -/
def setEclipseParameters (duration velocity limb : PyVal K) : Meth (Shallot K) Unit := do
  storeEclipse duration velocity limb
  let self ← Meth.get
  match self.gradients with
  | none => pure ()
  | some _ => do
    Meth.modify ({ · with gradients := none })
    resetFit

/-- The squared distance of one gradient, L1757-1762. -/
def fitTerm (weight scaled x : XF K) : XF K := ((x.sub scaled).mul (x.sub scaled)).div weight

/-- L1757-1760: the weight. -/
def fitWeight (weighted : Bool) (g : GGrad K) : Except Err (XF K) :=
  if weighted then do
    let e ← needNumber g.error
    .ok (e.num.mul e.num)
  else .ok (.fin 1)

/-- L1761-1762: the gradient that was measured, as a number; `array - None` raises. -/
def fitScaled (g : GGrad K) : Except Err (XF K) := do
  let m ← g.scaled
  match m with
  | some x => .ok x
  | none => .error .typeError

/-- The loop of L1753-1762. -/
def fitLoop (weighted : Bool) : List (GGrad K) → List (XF K) → Except Err (List (XF K))
  | [], acc => .ok acc
  | g :: gs, acc => do
    let w ← fitWeight weighted g
    let m ← fitScaled g
    fitLoop weighted gs (List.zipWith (fun a x => a.add (fitTerm w m x)) acc g.prop.data.data)

/-- L1733-1766 `determine_gradient_fit` (`weighted` is used as a condition). -/
def determineFit (weighted : Bool := true) : Meth (Shallot K) Unit := do
  let self ← Meth.get
  match self.gradients with
  | none => pure ()
  | some gs => do
    let (a, b, c) := self.params.gridShape
    let data ← Meth.lift (fitLoop weighted gs (List.replicate (a * b * c) (.fin 0)))
    let p ← Meth.lift (GProp.new .gradientFit .none (.arr ⟨"float64", [a, b, c], data⟩) self.params)
    Meth.modify ({ · with gradientFit := some p })
    onProp .gradientFit (GProp.setMask (.arr ⟨"bool", [a, b, c],
      data.map fun x => .fin (if x.isNan then 1 else 0)⟩))

/-! ## Grid points -/

/-- The four or five numbers of L2091-2104 and the gradients. -/
structure Point (K : Type) where
  diskRadius : XF K
  inclination : XF K
  tilt : XF K
  dx : XF K
  dy : XF K
  rf : XF K
  fx : XF K
  fy : XF K
  diagnostic : XF K
  gradients : Option (List (XF K) × List (XF K))
  deriving DecidableEq, Repr

/-- `self.get_…(masked)[y, x, r]`. -/
def lookup (c : Cube) (masked : PyVal K) (y x r : ℤ) : Meth (Shallot K) (XF K) := do
  let d ← getCube c masked
  Meth.lift (d.get3 y x r)

/-- A flat vector of the grid at an index that is not negative. -/
def vectorAt (l : List (XF K)) (i : ℤ) : Except Err (XF K) :=
  match l[i.toNat]? with
  | some x => .ok x
  | none => .error .indexError

/-- A validated grid index, L2082-2088. -/
def gridIndex (i : PyVal K) (n : ℕ) : Except Err ℤ := do
  let i ← number i (.bool true) (.int 0) (.int n)
  match i with
  | .bool _ => .error .typeError
  | i => .ok i.toInt

/-- The loop of L2110-2113 for the `n` gradients from `k` on. -/
def gradientValues (masked : PyVal K) (y x r : ℤ) : ℕ → ℕ → Meth (Shallot K) (List (XF K) × List (XF K))
  | 0, _ => pure ([], [])
  | n + 1, k => do
    let self ← Meth.get
    let position := match (self.gradients.getD [])[k]? with
      | some g => g.position.num
      | none => .nan
    let d ← onGradient k (onGradData masked)
    let v ← Meth.lift (d.get3 y x r)
    let rest ← gradientValues masked y x r n (k + 1)
    pure (position :: rest.1, v :: rest.2)
where
  /-- `gradient.get_data(masked)`. -/
  onGradData (masked : PyVal K) : Meth (GGrad K) (Nd K) := fun g =>
    let q := GProp.getData masked g.prop
    (q.1, { g with prop := q.2 })

/-- L2106-2118. -/
def gradientsAt (masked : PyVal K) (y x r : ℤ) :
    Meth (Shallot K) (Option (List (XF K) × List (XF K))) := do
  let self ← Meth.get
  match self.gradients with
  | none => pure none
  | some gs => do
    let v ← gradientValues masked y x r gs.length 0
    pure (some v)

/-- L2035-2120 `get_grid_point_data`. -/
def gridPoint (y x r : PyVal K) (masked : PyVal K := .bool true) : Meth (Shallot K) (Point K) := do
  let self ← Meth.get
  let y ← Meth.lift (gridIndex y self.params.gridShape.1)
  let x ← Meth.lift (gridIndex x self.params.gridShape.2.1)
  let r ← Meth.lift (gridIndex r self.params.gridShape.2.2)
  let radius ← lookup .diskRadius masked y x r
  let inclination ← lookup .inclination masked y x r
  let tilt ← lookup .tilt masked y x r
  let dx ← Meth.lift (vectorAt self.params.dx.data x)
  let dy ← Meth.lift (vectorAt self.params.dy.data y)
  let rf ← Meth.lift (vectorAt self.params.rfArray.data r)
  let fx ← lookup .fxMap masked y x r
  let fy ← lookup .fyMap masked y x r
  let diagnostic ← lookup .diagnosticMap masked y x r
  let gradients ← gradientsAt masked y x r
  pure ⟨radius, inclination, tilt, dx, dy, rf, fx, fy, diagnostic, gradients⟩

/-- One row of the six arrays of `extract_solutions`. -/
structure Solution (K : Type) where
  rms : XF K
  diskRadius : XF K
  inclination : XF K
  tilt : XF K
  dx : XF K
  dy : XF K
  deriving DecidableEq, Repr

/-- `gradient_fit[y, x, r] = np.nan` on the stored array. -/
def eraseAt (i : ℕ) : Meth (GProp K) Unit :=
  Meth.modify fun p => { p with data := ⟨p.data.shape, p.data.data.set i .nan⟩ }

/-- One round of the loop of L1856-1870.  The local `gradient_fit` is the array stored in
`self.gradient_fit`. -/
def solution : Meth (Shallot K) (Solution K) := do
  let self ← Meth.get
  match self.gradientFit with
  | none => Meth.throw .attributeError
  | some fit => do
    let i ← Meth.lift (nanargmin fit.data.data)
    let (y, x, r) := unravel self.params.gridShape.2.1 self.params.gridShape.2.2 i
    let p ← gridPoint (.npInt .w64 y) (.npInt .w64 x) (.npInt .w64 r) (.bool false)
    onProp .gradientFit (eraseAt i)
    pure ⟨fit.data.data.getD i .nan, p.diskRadius, p.inclination, p.tilt, p.dx, p.dy⟩

/-- The loop of L1856-1870. -/
def solutionLoop : ℕ → Meth (Shallot K) (List (Solution K))
  | 0 => pure []
  | n + 1 => do
    let s ← solution
    let rest ← solutionLoop n
    pure (s :: rest)

/-- L1838-1843: how many solutions are to be extracted. -/
def solutionCount (num : PyVal K) (m : Mask) : Except Err ℕ := do
  let most : PyVal K := .npInt .w64 ((m.data.filter fun b => !b).length : ℕ)
  let n ← number (if num = .none then most else num) (.bool true) (.int 0) most
  .ok n.toInt.toNat

/-- L1804-1872 `extract_solutions`. -/
def extractSolutions (num : PyVal K := .none) : Meth (Shallot K) (List (Solution K)) := do
  let self ← Meth.get
  let m ← Meth.lift self.combinedMask
  let n ← Meth.lift (solutionCount num m)
  let _ ← getGradientFit
  solutionLoop n

variable [RealFns K]

/-- L1339-1358: the gradients of all grid points at one position. -/
def gradientCube (s : Shallot K) (position : XF K) : Nd K :=
  cubeOf s.params.gridShape.1 s.params.gridShape.2.1 s.params.gridShape.2.2 fun y x r =>
    Geometry.diskGradient position (s.params.dx.data.getD x .nan) (s.params.dy.data.getD y .nan)
      (s.shear.at3 y x 0) (s.fxMap.data.at3 y x r) (s.fyMap.data.at3 y x r)

/-- The loop of L1338-1360. -/
def appendGradients : List (XF K) → Meth (Shallot K) Unit
  | [] => pure ()
  | position :: ps => do
    let self ← Meth.get
    let d := self.gradientCube position
    let g ← Meth.lift (GGrad.new (.arr ⟨"float64", d.shape, d.data⟩) self.params
      (.npFloat .w64 position))
    Meth.set { self with gradients := some (self.gradients.getD [] ++ [g]) }
    appendGradients ps

/-- L1316-1360 `_determine_disk_gradients`. -/
def determineDiskGradients (positions : NpArr K) : Meth (Shallot K) Unit := do
  let a ← Meth.lift (array (.arr positions) (dtype := .str "float64") (numDimensions := .int 1))
  Meth.modify fun s => { s with gradients := some (s.gradients.getD []) }
  appendGradients a.data

/-- Is it a Python number (and not a numpy number)? -/
def isPython : PyVal K → Bool
  | .bool _ | .int _ | .float _ => true
  | _ => false

/-- Does arithmetic work on it? -/
def isNumeric : PyVal K → Bool
  | .bool _ | .int _ | .float _ | .npBool _ | .npInt _ _ | .npUInt _ | .npFloat _ _ => true
  | _ => false

/-- An attribute used in arithmetic. -/
def operand (v : Option (PyVal K)) : Except Err (PyVal K) := do
  let v ← needNumber v
  if isNumeric v then .ok v else .error .typeError

/-- The denominator of L1378. -/
def limbDenominator (u : XF K) : XF K :=
  ((XF.fin 12).sub ((XF.fin 12).mul u)).add (((XF.fin 3).mul XF.pi).mul u)

/-- L1363-1382 `_determine_orbital_scale`: Python numbers raise on division by zero. -/
def orbital (s : Shallot K) : Except Err (PyVal K) := do
  let u ← operand s.limb
  if isPython u && XF.eqb (limbDenominator u.num) (.fin 0) then .error .zeroDivisionError
  else do
    let v ← operand s.velocity
    if isPython v && XF.eqb v.num (.fin 0) then .error .zeroDivisionError
    else
      let x := Geometry.orbitalScale u.num v.num
      .ok (if isPython u && isPython v then .float x else .npFloat .w64 x)

/-- The loop of L1446-1449, from gradient `k` on; `zip` stops when the gradients end. -/
def measureLoop (scale : PyVal K) : ℕ → List (XF K × XF K × XF K) → Meth (Shallot K) Unit
  | _, [] => pure ()
  | k, (m, e, t) :: rest => do
    let self ← Meth.get
    if k < (self.gradients.getD []).length then do
      onGradient k (GGrad.determineMask (.npFloat .w64 m) scale (.npFloat .w64 t) (.npFloat .w64 e))
      measureLoop scale (k + 1) rest
    else pure ()

/-- `np.ones_like(a)` if the argument is missing, L1421-1428. -/
def orOnes (v : PyVal K) (a : NpArr K) : PyVal K :=
  if v = .none then .arr ⟨a.dtype, a.shape, a.data.map fun _ => .fin 1⟩ else v

/-- Where `self.gradients[-n:]` begins. -/
def sliceStart (length n : ℕ) : ℕ := if n = 0 then 0 else length - n

/-- L1385-1449 `_set_measured_gradients_and_masks`. -/
def setMeasured (lc : NpArr K) (errors transmissions : PyVal K) : Meth (Shallot K) Unit := do
  let errors ← Meth.lift (array (orOnes errors lc) (lower := .float (.fin 0))
    (dtype := .str "float64") (numDimensions := .int 1))
  let transmissions ← Meth.lift (array (orOnes transmissions lc) (lower := .int 0) (upper := .int 1)
    (dtype := .str "float64") (numDimensions := .int 1))
  Meth.lift (sameShapeArrays [.arr lc, .arr errors, .arr transmissions] 3)
  let self ← Meth.get
  let scale ← Meth.lift self.orbital
  measureLoop scale (sliceStart (self.gradients.getD []).length lc.data.length)
    ((lc.data.map XF.abs).zip (errors.data.zip transmissions.data))

/-- The dtype of `-times / self._eclipse_duration`. -/
def quotientType : PyVal K → String
  | .npFloat .w128 _ => "float128"
  | _ => "float64"

/-- `-times / self._eclipse_duration`, L1522. -/
def positionsOf (times : NpArr K) (duration : PyVal K) : NpArr K :=
  ⟨quotientType duration, times.shape, times.data.map fun t => t.neg.div duration.num⟩

/-- L1462-1528 `add_gradients`. -/
def addGradients (times lc : PyVal K) (errors : PyVal K := .none) (transmissions : PyVal K := .none) :
    Meth (Shallot K) Unit := do
  let self ← Meth.get
  if self.ready then do
    let times ← Meth.lift (array times (dtype := .str "float64") (numDimensions := .int 1))
    let lc ← Meth.lift (array lc (lower := .float (.fin 0)) (dtype := .str "float64")
      (numDimensions := .int 1))
    Meth.lift (sameShapeArrays [.arr times, .arr lc] 2)
    let duration ← Meth.lift (needNumber self.eclipseDuration)
    determineDiskGradients (positionsOf times duration)
    setMeasured lc errors transmissions
    resetFit
  else pure ()

/-- `np.array(self.gradients)`: its shape. -/
def gradientsShape (s : Shallot K) : List ℕ :=
  match s.gradients with
  | some l => [l.length]
  | none => []

/-- L1641-1651: the transmission changes, if there are any. -/
def newTransmissions (s : Shallot K) (transmissions : PyVal K) : Except Err (Option (List (XF K))) :=
  if transmissions = .none then .ok none
  else do
    let a ← array transmissions (lower := .int (-1)) (upper := .int 1) (dtype := .str "float64")
      (numDimensions := .int 1)
    sameShapeArrays [.arr a, .arr ⟨"object", s.gradientsShape, []⟩] 2
    .ok (some a.data)

/-- An attribute as an argument. -/
def argOf (v : Option (PyVal K)) : PyVal K := v.getD .none

/-- The loop of L1657-1672 for the `n` gradients from `k` on. -/
def rescaleLoop (updateOrbital : Bool) (transmissions : Option (List (XF K))) :
    ℕ → ℕ → Meth (Shallot K) Unit
  | 0, _ => pure ()
  | n + 1, k => do
    let self ← Meth.get
    match (self.gradients.getD [])[k]? with
    | none => pure ()
    | some g => do
      let scale ← Meth.lift (if updateOrbital then self.orbital else .ok (argOf g.orbital))
      let t := match transmissions with
        | some l => .npFloat .w64 (l.getD k .nan)
        | none => argOf g.transmission
      onGradient k (GGrad.determineMask (argOf g.measured) scale t (argOf g.error))
      rescaleLoop updateOrbital transmissions n (k + 1)

/-- L1630-1639: velocity and limb darkening are stored as they come. -/
def storeScaling (velocity limb : PyVal K) (s : Shallot K) : Shallot K :=
  { s with
    velocity := if velocity = .none then s.velocity else some velocity
    limb := if limb = .none then s.limb else some limb }

/-- L1590-1674 `update_gradient_scaling`. -/
def updateScaling (velocity : PyVal K := .none) (limb : PyVal K := .none)
    (transmissions : PyVal K := .none) : Meth (Shallot K) Unit := do
  Meth.modify (storeScaling velocity limb)
  let updateOrbital := decide (velocity ≠ .none ∨ limb ≠ .none)
  let self ← Meth.get
  let t ← Meth.lift (self.newTransmissions transmissions)
  if !updateOrbital && t.isNone then pure ()
  else match self.gradients with
    | none => Meth.throw .typeError
    | some l => do
      rescaleLoop updateOrbital t l.length 0
      resetFit

/-- What `get_gradients` returns. -/
structure Gradients (K : Type) where
  positions : List (XF K)
  scaled : List (XF K)
  errors : List (XF K)
  cubes : List (Nd K)
  deriving DecidableEq, Repr

/-- `None` stored into a float array is NaN. -/
def floatOf (v : Option (XF K)) : XF K := v.getD .nan

/-- The loop of L1722-1728 for the `n` gradients from `k` on. -/
def gradientLoop (m : Mask) (propertyMasked : PyVal K) : ℕ → ℕ → Meth (Shallot K) (Gradients K)
  | 0, _ => pure ⟨[], [], [], []⟩
  | n + 1, k => do
    let self ← Meth.get
    match (self.gradients.getD [])[k]? with
    | none => pure ⟨[], [], [], []⟩
    | some g => do
      let s ← Meth.lift g.scaled
      let d ← onGradient k (gradientValues.onGradData propertyMasked)
      let rest ← gradientLoop m propertyMasked n (k + 1)
      pure ⟨g.position.num :: rest.positions, floatOf s :: rest.scaled,
        floatOf (g.error.map PyVal.num) :: rest.errors, d.putNan m :: rest.cubes⟩

/-- L1716-1720: the combined mask or nothing. -/
def maskOrNot (s : Shallot K) (masked : Bool) : Except Err Mask :=
  if masked then s.combinedMask
  else .ok ⟨GProp.shapeOf s.params, List.replicate
    (s.params.gridShape.1 * s.params.gridShape.2.1 * s.params.gridShape.2.2) false⟩

/-- L1677-1730 `get_gradients`. -/
def getGradients (masked : PyVal K := .bool false) (propertyMasked : PyVal K := .bool true) :
    Meth (Shallot K) (Gradients K) := do
  let self ← Meth.get
  match self.gradients with
  | none => Meth.throw .typeError
  | some l => do
    let masked ← Meth.lift (boolean masked)
    let m ← Meth.lift (self.maskOrNot masked)
    gradientLoop m propertyMasked l.length 0

/-! ## The closest grid point -/

/-- The position that L1993-2001 give to row `k`: the division is by the number of rows. -/
def rowPosition (dy : List (XF K)) (impact : XF K) (k : ℕ) : XF K :=
  let yMin := dy.headD .nan
  let yMax := dy.getLastD .nan
  let yy := (((XF.fin (k : K)).div (.fin (dy.length : K))).mul (yMax.sub yMin)).add yMin
  if XF.lt impact (.fin 0) then if XF.lt (.fin 0) yy then .fin (10 ^ 7) else yy
  else if XF.lt (.fin 0) impact then if XF.lt yy (.fin 0) then .fin (-(10 ^ 7)) else yy
  else yy

/-- L2004-2009: the distance of one grid point. -/
def distance (radius inclination tilt impact : XF K) (gr gi gt row : XF K) : XF K :=
  ((((gr.sub radius).sq.add (gi.sub inclination).sq).add (gt.sub tilt).sq).add
    (row.sub impact).sq).sqrt

/-- The distances of all grid points. -/
def distances (radius inclination tilt impact : XF K) (dy : List (XF K)) (a b c : ℕ)
    (gr gi gt : Nd K) : Nd K :=
  cubeOf a b c fun y x r => distance radius inclination tilt impact (gr.at3 y x r) (gi.at3 y x r)
    (gt.at3 y x r) (rowPosition dy impact y)

/-- The answer of `determine_closest_grid_point`. -/
structure Closest (K : Type) where
  coordinates : XF K × XF K × XF K
  indices : ℕ × ℕ × ℕ
  distance : XF K
  deriving DecidableEq, Repr

/-- L2012-2018. -/
def closestOf (g : GridParams K) (d : Nd K) : Except Err (Closest K) := do
  let i ← nanargmin d.data
  let (y, x, r) := unravel g.gridShape.2.1 g.gridShape.2.2 i
  .ok ⟨(g.dy.data.getD y .nan, g.dx.data.getD x .nan, g.rfArray.data.getD r .nan), (y, x, r),
    floatOf (nanmin d.data)⟩

/-- L1925-2032 `determine_closest_grid_point`. -/
def closestPoint (radius inclination tilt impact : PyVal K) (masked : PyVal K := .bool true) :
    Meth (Shallot K) (Closest K) := do
  let radius ← Meth.lift (number radius (.bool false) (.int 0))
  let inclination ← Meth.lift (number inclination (.bool false) (.int 0) (.int 90))
  let tilt ← Meth.lift (number tilt (.bool false) (.int (-180)) (.int 180))
  let impact ← Meth.lift (number impact)
  let m ← Meth.lift (boolean masked)
  let gr ← getCube .diskRadius (.bool m)
  let gi ← getCube .inclination (.bool m)
  let gt ← getCube .tilt (.bool m)
  let self ← Meth.get
  let g := self.params
  Meth.lift (closestOf g (distances radius.num inclination.num tilt.num impact.num g.dy.data
    g.gridShape.1 g.gridShape.2.1 g.gridShape.2.2 gr gi gt))

end Shallot
end
end Beyonce
