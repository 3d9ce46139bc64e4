import Verif.BuildGrid

/-!
# What a shallot grid logs, the `logger.info` calls of `/repo/Shallot.py`

A grid with its log is a `GLog`.  The methods are those of `Shallot` with the `logger.info` calls where the
code has them; a message holds the numbers that are put into it, in their order.  The messages of level
`DEBUG`, which the default level does not show, are in `BuildLog`.
-/

namespace Beyonce

section
variable {K : Type}

/-- The four lines of L2022-2029. -/
inductive Asked
  | diskRadius | inclination | tilt | impactParameter
  deriving DecidableEq, Repr

/-- A message of level `INFO`. -/
inductive GridMsg (K : Type)
  /-- L962 `building y = …/…` -/
  | building (y num : ℕ)
  /-- L1188-1189 -/
  | deviation (d : XF K)
  /-- L1459 `gradient fit has been cleared` -/
  | cleared
  /-- L1504-1505 `eclipse parameters missing` -/
  | missing
  /-- L1519 `adding … gradients` -/
  | adding (n : ℕ)
  /-- L1542 `no gradients found` -/
  | noGradients
  /-- L1585-1586 `gradients set to None due to dependency on eclipse duration` -/
  | dropped
  /-- L1654 `no changes passed` -/
  | noChanges
  /-- L1746 `no gradients present` -/
  | nothingToFit
  /-- L1751 `determining … gradient rms's` -/
  | determining (n : ℕ)
  /-- L1791 `no gradient fit found` -/
  | noFit
  /-- L1845-1846 `extracting … out of … possible solutions` -/
  | extracting (n most : ℕ)
  /-- L2021 `property_name: input_value --> grid_value` -/
  | header
  /-- L2022-2029 `…: … --> …` -/
  | closest (what : Asked) (input grid : XF K)
  /-- L2030 `'fit': …` -/
  | fit (d : XF K)
  deriving DecidableEq, Repr

/-- A grid and its messages so far. -/
structure GLog (K : Type) where
  grid : Shallot K
  log : List (GridMsg K)

namespace GLog
variable {α : Type}

/-- A part of a method without messages. -/
def quiet (m : Meth (Shallot K) α) : Meth (GLog K) α := fun st =>
  ((m st.grid).1, ⟨(m st.grid).2, st.log⟩)

/-- `self.logger.info`. -/
def say (m : GridMsg K) : Meth (GLog K) Unit := Meth.modify fun st => ⟨st.grid, st.log ++ [m]⟩

/-- The object. -/
def self : Meth (GLog K) (Shallot K) := fun st => (.ok st.grid, st)

variable [Field K] [LinearOrder K]

/-- L1452-1459 `_reset_gradient_fit`. -/
def resetFit : Meth (GLog K) Unit := do
  let s ← self
  if s.gradientFit.isSome then do
    quiet (Meth.modify ({ · with gradientFit := none }))
    say .cleared
  else pure ()

/-- L1187: the largest absolute value of the diagnostic map, without NaN. -/
def largest (s : Shallot K) : XF K :=
  match s.diagnosticMap with
  | some p => Shallot.floatOf (nanmax (p.data.data.map XF.abs))
  | none => .nan

/-- L1166-1189 `diagnose_fxfy_resolution`. -/
def diagnose : Meth (GLog K) Unit := do
  quiet Shallot.diagnose
  let s ← self
  say (.deviation (largest s))

/-- L1531-1552 `remove_gradients`. -/
def removeGradients [FloorRing K] (indices : PyVal K) : Meth (GLog K) Unit := do
  let s ← self
  match s.gradients with
  | none => say .noGradients
  | some l => do
    let a ← Meth.lift (array indices (lower := .int 0) (upper := .int ((l.length : ℤ) - 1))
      (dtype := .str "int64") (numDimensions := .int 1))
    quiet (Shallot.removeLoop ((Shallot.intsOf a).mergeSort (fun i j => decide (i ≤ j))).reverse)
    resetFit

/-- L1555-1587 `set_eclipse_parameters`. -/
def setEclipseParameters (duration velocity limb : PyVal K) : Meth (GLog K) Unit := do
  quiet (Shallot.storeEclipse duration velocity limb)
  let s ← self
  match s.gradients with
  | none => pure ()
  | some _ => do
    quiet (Meth.modify ({ · with gradients := none }))
    say .dropped
    resetFit

/-- L1733-1766 `determine_gradient_fit`. -/
def determineFit (weighted : Bool := true) : Meth (GLog K) Unit := do
  let s ← self
  match s.gradients with
  | none => say .nothingToFit
  | some gs => do
    let (a, b, c) := s.params.gridShape
    say (.determining gs.length)
    let data ← Meth.lift (Shallot.fitLoop weighted gs (List.replicate (a * b * c) (.fin 0)))
    let p ← Meth.lift (GProp.new .gradientFit .none (.arr ⟨"float64", [a, b, c], data⟩) s.params)
    quiet (Meth.modify ({ · with gradientFit := some p }))
    quiet (Shallot.onProp .gradientFit (GProp.setMask (.arr ⟨"bool", [a, b, c],
      data.map fun x => .fin (if x.isNan then 1 else 0)⟩)))

/-- L1769-1801 `get_gradient_fit`. -/
def getGradientFit (masked : PyVal K := .bool true) (propertyMasked : PyVal K := .bool true) :
    Meth (GLog K) (Option (Nd K)) := do
  let s ← self
  if s.gradientFit = none then do
    say .noFit
    pure none
  else do
    let d ← quiet (Shallot.getCube .gradientFit masked propertyMasked)
    pure (some d)

/-- L1804-1872 `extract_solutions`. -/
def extractSolutions (num : PyVal K := .none) : Meth (GLog K) (List (Shallot.Solution K)) := do
  let s ← self
  let m ← Meth.lift s.combinedMask
  let n ← Meth.lift (Shallot.solutionCount num m)
  say (.extracting n (m.data.filter fun b => !b).length)
  let _ ← getGradientFit
  quiet (Shallot.solutionLoop n)

variable [RealFns K]

/-- L1462-1528 `add_gradients`. -/
def addGradients (times lc : PyVal K) (errors : PyVal K := .none) (transmissions : PyVal K := .none) :
    Meth (GLog K) Unit := do
  let s ← self
  if s.ready then do
    let times ← Meth.lift (array times (dtype := .str "float64") (numDimensions := .int 1))
    let lc ← Meth.lift (array lc (lower := .float (.fin 0)) (dtype := .str "float64")
      (numDimensions := .int 1))
    Meth.lift (sameShapeArrays [.arr times, .arr lc] 2)
    say (.adding times.data.length)
    let duration ← Meth.lift (needNumber s.eclipseDuration)
    quiet (Shallot.determineDiskGradients (Shallot.positionsOf times duration))
    quiet (Shallot.setMeasured lc errors transmissions)
    resetFit
  else say .missing

/-- L1590-1674 `update_gradient_scaling`. -/
def updateScaling (velocity : PyVal K := .none) (limb : PyVal K := .none)
    (transmissions : PyVal K := .none) : Meth (GLog K) Unit := do
  quiet (Meth.modify (Shallot.storeScaling velocity limb))
  let updateOrbital := decide (velocity ≠ .none ∨ limb ≠ .none)
  let s ← self
  let t ← Meth.lift (s.newTransmissions transmissions)
  if !updateOrbital && t.isNone then say .noChanges
  else match s.gradients with
    | none => Meth.throw .typeError
    | some l => do
      quiet (Shallot.rescaleLoop updateOrbital t l.length 0)
      resetFit

/-- L1925-2032 `determine_closest_grid_point`. -/
def closestPoint (radius inclination tilt impact : PyVal K) (masked : PyVal K := .bool true) :
    Meth (GLog K) (Shallot.Closest K) := do
  let radius ← Meth.lift (number radius (.bool false) (.int 0))
  let inclination ← Meth.lift (number inclination (.bool false) (.int 0) (.int 90))
  let tilt ← Meth.lift (number tilt (.bool false) (.int (-180)) (.int 180))
  let impact ← Meth.lift (number impact)
  let m ← Meth.lift (boolean masked)
  let gr ← quiet (Shallot.getCube .diskRadius (.bool m))
  let gi ← quiet (Shallot.getCube .inclination (.bool m))
  let gt ← quiet (Shallot.getCube .tilt (.bool m))
  let s ← self
  let g := s.params
  let c ← Meth.lift (Shallot.closestOf g (Shallot.distances radius.num inclination.num tilt.num impact.num
    g.dy.data g.gridShape.1 g.gridShape.2.1 g.gridShape.2.2 gr gi gt))
  let (y, x, r) := c.indices
  say .header
  say (.closest .diskRadius radius.num (gr.at3 y x r))
  say (.closest .inclination inclination.num (gi.at3 y x r))
  say (.closest .tilt tilt.num (gt.at3 y x r))
  say (.closest .impactParameter impact.num (Shallot.rowPosition g.dy.data impact.num y))
  say (.fit c.distance)
  pure c

/-- The loop of L961-1001 without saving, over the `n` rows from `y` on. -/
def buildRows (num : ℕ) : ℕ → ℕ → Meth (GLog K) Unit
  | 0, _ => pure ()
  | n + 1, y => do
    say (.building (y + 1) num)
    let s ← self
    quiet (Shallot.buildRow y s.params.sliceShape.2 0)
    buildRows num n (y + 1)

/-- L925-1004 `_build_grid` without saving, from row `y`. -/
def build (y : ℕ) : Meth (GLog K) Unit := do
  if y = 0 then quiet Shallot.initialise else pure ()
  let s ← self
  buildRows s.params.sliceShape.1 (s.params.sliceShape.1 - y) y
  quiet Shallot.recolorAll

/-- L106-114: build, extend and diagnose. -/
def complete : Meth (GLog K) Unit := do
  build 0
  quiet Shallot.extendGrid
  diagnose

/-- L56-114 `__init__` without intermittent saving: what it returns, the parameters object and the
messages. -/
def new (numFxfy : PyVal K) (keepDiagnostics : PyVal K) (g : GridParams K) :
    Except Err (Shallot K) × GridParams K × List (GridMsg K) :=
  match number numFxfy (.bool true) (.int 1) with
  | .error e => (.error e, g, [])
  | .ok n => match boolean keepDiagnostics with
    | .error e => (.error e, g, [])
    | .ok keep => match complete ⟨Shallot.bare g n keep, []⟩ with
      | (.ok _, st) => (.ok st.grid, st.grid.params, st.log)
      | (.error e, st) => (.error e, st.grid.params, st.log)

end GLog
end
end Beyonce
