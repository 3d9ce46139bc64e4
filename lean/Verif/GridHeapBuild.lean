import Verif.GridHeap

/-!
# Building a grid by reference

`BuildGrid.lean` with the arrays of the grid as objects.  Rows are written into arrays in place, so
whether two attributes have one array matters.
-/

namespace Beyonce
section
variable {K : Type} [Field K] [LinearOrder K] [RealFns K]

namespace GWorld

/-- L671: `np.nan * np.ones(self.parameters.grid_shape)`. -/
def emptyArray (g : GridParams K) : NpArr K :=
  let d : Nd K := cubeOf g.gridShape.1 g.gridShape.2.1 g.gridShape.2.2 fun _ _ _ => .nan
  ⟨"float64", d.shape, d.data⟩

/-- `np.copy(a)`. -/
def copyOf (r : ℕ) : Meth (GWorld K) (NpArr K) := do
  let w ← Meth.get
  pure (arrayAt w.arrays r)

/-- `self.… = GridProperty(name, unit, np.copy(empty), self.parameters)`, L672-684. -/
def putCopy (empty : ℕ) (g : GridParams K) (c : Cube) (name : PropName) (unit : PropUnit) :
    Meth (GWorld K) Unit := do
  let a ← copyOf empty
  putNew c name unit a g

/-- L666-684 `_initialise_grid_properties`. -/
def initialise : Meth (GWorld K) Unit := do
  let s ← self
  let g := s.params
  let empty ← alloc (emptyArray g)
  putCopy empty g .diskRadius .diskRadius .eclipseDuration
  putCopy empty g .inclination .inclination .degree
  putCopy empty g .tilt .tilt .degree
  putCopy empty g .fxMap .fxMap .none
  putCopy empty g .fyMap .fyMap .none

/-- `self.….data[y, x] = v`: in place. -/
def setColumn (c : Cube) (y x : ℕ) (v : List (XF K)) : Meth (GWorld K) Unit := fun w =>
  match w.grid.prop c with
  | none => (.error .attributeError, w)
  | some p => match Shallot.putColumn (ndAt w.arrays p.data) y x v with
    | .error e => (.error e, w)
    | .ok d => (.ok (), { w with arrays := storeData w.arrays p.data d.data })

/-- L990-994. -/
def storeColumn (y x : ℕ) (c : Shallot.Column K) : Meth (GWorld K) Unit := do
  setColumn .diskRadius y x c.diskRadius
  setColumn .inclination y x c.inclination
  setColumn .tilt y x c.tilt
  setColumn .fxMap y x c.fx
  setColumn .fyMap y x c.fyValid

/-- L996-998; the diagnostics are values. -/
def storeDiagnostic (y x : ℕ) (c : Shallot.Column K) : Meth (GWorld K) Unit := fun w =>
  match w.grid.diagnostics with
  | none => (.ok (), w)
  | some d =>
    let q := Diagnostics.save (.int y) (.int x) (.arr ⟨"float64", [c.fy.length], c.fy⟩)
      (.arr ⟨"float64", [c.radius.length], c.radius⟩) d
    (q.1, { w with grid := { w.grid with diagnostics := some q.2 } })

/-- L964-998: one cell. -/
def buildCell (y x : ℕ) : Meth (GWorld K) Unit := do
  let s ← self
  if (s.shear.at3 y x 0).isNan then pure ()
  else do
    let c ← Meth.lift (Shallot.column (s.cellOf y x) s.params.rf.data)
    storeColumn y x c
    storeDiagnostic y x c

/-- The loop of L964-998 over the `n` cells of row `y` from `x` on. -/
def buildRow (y : ℕ) : ℕ → ℕ → Meth (GWorld K) Unit
  | 0, _ => pure ()
  | n + 1, x => do
    buildCell y x
    buildRow y n (x + 1)

/-- A property after `set_contrast_parameters` (GridProperty.py L171-217), which changes no array. -/
def contrast (p : HProp K) (q : GProp K) : HProp K :=
  { p with vmin := q.vmin, vmax := q.vmax, colorMap := q.colorMap, numColors := q.numColors }

/-- `self.….set_contrast_parameters(color_map=cmap)`. -/
def recolor (c : Cube) (cmap : PyVal K) : Meth (GWorld K) Unit := fun w =>
  match w.grid.prop c with
  | none => (.error .attributeError, w)
  | some p =>
    let q := GProp.setContrast .none .none cmap .none (p.view w.arrays)
    (q.1, { w with grid := w.grid.setProp (contrast p q.2) c })

/-- The loop of L920-922 over the `n` gradients from `k` on. -/
def recolorGradients : ℕ → ℕ → Meth (GWorld K) Unit
  | 0, _ => pure ()
  | n + 1, k => do
    (fun w => match w.grid.gradient k with
      | none => (.error .indexError, w)
      | some g =>
        let q := GProp.setContrast .none .none .none .none (g.prop.view w.arrays)
        (q.1, { w with grid := w.grid.setGradient k { g with prop := contrast g.prop q.2 } }))
    recolorGradients n (k + 1)

/-- L917-918. -/
def recolorDiagnostic : Meth (GWorld K) Unit := do
  let s ← self
  match s.diagnosticMap with
  | none => pure ()
  | some _ => recolor .diagnosticMap .none

/-- L905-922 `_set_grid_property_contrast_parameters`. -/
def recolorAll : Meth (GWorld K) Unit := do
  recolor .diskRadius (.str "viridis")
  recolor .inclination (.str "viridis")
  recolor .tilt (.str "twilight")
  recolor .fxMap (.str "viridis")
  recolor .fyMap (.str "viridis")
  recolorDiagnostic
  let s ← self
  recolorGradients (s.gradients.getD []).length 0

/-- `self.… = self._fill_quadrants(…)`, L1224-1286: the property has a new array. -/
def place (c : Cube) (e : Except Err (GProp K)) : Meth (GWorld K) Unit := do
  let q ← Meth.lift e
  let r ← alloc ⟨"float64", q.data.shape, q.data.data⟩
  assign c ⟨q.name, q.unit, q.params, r, none, q.vmin, q.vmax, q.colorMap, q.numColors⟩

/-- L1304-1309. -/
def fillAll : Meth (GWorld K) Unit := do
  let s ← self
  let g := s.params
  place .diskRadius (Shallot.fillQuadrants g s.diskRadius)
  place .inclination (Shallot.fillQuadrants g s.inclination)
  place .tilt (Shallot.fillQuadrants g s.tilt true)
  place .fxMap (Shallot.fillQuadrants g s.fxMap)
  place .fyMap (Shallot.fillQuadrants g s.fyMap)

/-- L354-390 `_determine_circular_radius` and `_determine_shear`, which are values. -/
def helpers (w : GWorld K) : GWorld K :=
  { w with grid := { w.grid with circularRadius := (Shallot.helpers w.view).circularRadius,
                                 shear := (Shallot.helpers w.view).shear } }

/-- L1289-1313 `_extend_grid`. -/
def extendGrid : Meth (GWorld K) Unit := fun w =>
  match GridParams.extendGrid w.grid.params with
  | (.error .attributeError, g) => (.ok (), { w with grid := { w.grid with params := g } })
  | (.error e, g) => (.error e, { w with grid := { w.grid with params := g } })
  | (.ok _, g) => (do
      fillAll
      adjust fun h => { h with diagnostics := h.diagnostics.map Diagnostics.extend })
        (helpers { w with grid := { w.grid with params := g } })

/-- The loop of L961-1001 without saving, over the `n` rows from `y` on. -/
def buildRows : ℕ → ℕ → Meth (GWorld K) Unit
  | 0, _ => pure ()
  | n + 1, y => do
    let s ← self
    buildRow y s.params.sliceShape.2 0
    buildRows n (y + 1)

/-- L925-1004 `_build_grid` without saving, from row `y`. -/
def build (y : ℕ) : Meth (GWorld K) Unit := do
  if y = 0 then initialise else pure ()
  let s ← self
  buildRows (s.params.sliceShape.1 - y) y
  recolorAll

/-- L106-114: build, extend and diagnose. -/
def complete : Meth (GWorld K) Unit := do
  build 0
  extendGrid
  diagnose

/-- A property that stands for an attribute that is not there yet, with array `r`. -/
def absent (g : GridParams K) (r : ℕ) : HProp K :=
  ⟨.diskRadius, .none, g, r, none, none, none, "", 0⟩

/-- L86-104: the object before `_build_grid`.  The five attributes that are not there yet have arrays
of no use, each its own. -/
def bare (arrays : List (NpArr K)) (g : GridParams K) (numFxfy : PyVal K) (keep : Bool) : GWorld K :=
  helpers ⟨arrays ++ List.replicate 5 ⟨"float64", [], []⟩,
    ⟨g, numFxfy, if keep then some (Diagnostics.new g) else none, [], ⟨[], []⟩,
      absent g arrays.length, absent g (arrays.length + 1), absent g (arrays.length + 2),
      absent g (arrays.length + 3), absent g (arrays.length + 4), none, none, none, none, none, none⟩⟩

/-- L56-114 `__init__` without intermittent saving, as a method of the parameters object; `arrays` are
the arrays there are already. -/
def new (arrays : List (NpArr K)) (numFxfy : PyVal K) (keepDiagnostics : PyVal K := .bool false) :
    Meth (GridParams K) (GWorld K) := fun g =>
  match number numFxfy (.bool true) (.int 1) with
  | .error e => (.error e, g)
  | .ok n => match boolean keepDiagnostics with
    | .error e => (.error e, g)
    | .ok keep => match complete (bare arrays g n keep) with
      | (.ok _, w) => (.ok w, w.grid.params)
      | (.error e, w) => (.error e, w.grid.params)

end GWorld
end
end Beyonce
