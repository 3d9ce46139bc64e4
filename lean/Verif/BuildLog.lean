import Verif.ShallotFiles
import Verif.ShallotLog

/-!
# Building and loading a shallot grid as one run: attributes, files and all messages

`ShallotFiles` has a build as the pure build beside the list of its file operations, and `ShallotLog` has
only messages of level `INFO`.  Here `__init__` and `load` of `/repo/Shallot.py` are executed statement by
statement on a grid, a file system and a log, with the messages of both levels.  That the results and the
files are those of `ShallotFiles` is proved (`C131_build_files`, `C131_new_files`, `C131_load_files`).

Simplifications.
* A logger is its level: nobody else has the same one (C99 is about those who do).  The level is one that
  `_set_logger` accepts.
* `tqdm` is left out.
-/

namespace Beyonce

section
variable {K : Type}

/-- A message of level `DEBUG`. -/
inductive DebugMsg
  /-- Shallot.py L243 `no diagnostics found` -/
  | noDiagnostics
  /-- L258 `no gradients found` -/
  | noGradients
  /-- L387 `origin corrected`, in `_determine_shear` -/
  | originShear
  /-- L489 `origin corrected`, in `_determine_fy` -/
  | originFy
  /-- L693 `cleared temp folder` -/
  | cleared
  /-- L705 `deleted temp folder` -/
  | deleted
  /-- L1298: the text of the exception of `extend_grid`, GridParameters.py L223-224 -/
  | notExtended
  deriving DecidableEq, Repr

/-- A message of either level. -/
inductive Line (K : Type)
  | debug (m : DebugMsg)
  | info (m : GridMsg K)
  deriving DecidableEq

/-- `logging.DEBUG` and `logging.INFO`. -/
def Line.level : Line K → ℕ
  | .debug _ => 10
  | .info _ => 20

/-- A grid, the files, the level of the logger of the grid, and what was said: each message with the level
that the logger had at that time. -/
structure Site (K : Type) where
  grid : Shallot K
  fs : FS K
  level : ℕ
  log : List (ℕ × Line K)

/-- The messages that are printed: those that are not below the level of the logger. -/
def Site.shown (w : Site K) : List (Line K) :=
  (w.log.filter fun e => decide (e.1 ≤ e.2.level)).map Prod.snd

namespace Site
variable {α : Type}

/-- A part of a method that has neither messages nor files. -/
def onGrid (m : Meth (Shallot K) α) : Meth (Site K) α := fun w =>
  ((m w.grid).1, { w with grid := (m w.grid).2 })

/-- `self.logger.debug` or `self.logger.info`. -/
def say (l : Line K) : Meth (Site K) Unit := Meth.modify fun w => { w with log := w.log ++ [(w.level, l)] }

/-- Several messages. -/
def sayAll (ls : List (Line K)) : Meth (Site K) Unit :=
  Meth.modify fun w => { w with log := w.log ++ ls.map fun l => (w.level, l) }

/-- File operations, until one raises. -/
def files (ss : List (Step K)) : Meth (Site K) Unit := fun w =>
  ((w.fs.run ss).1, { w with fs := (w.fs.run ss).2 })

variable [Field K] [LinearOrder K]

/-- L383-387, `np.sum((dy_grid == 0) * (dx_grid == 0)) == 1`. -/
def shearLines (g : GridParams K) : List (Line K) :=
  let origin := g.dy.data.flatMap fun dy => g.dx.data.map fun dx => XF.eqb dy (.fin 0) && XF.eqb dx (.fin 0)
  if origin.countP id = 1 then [.debug .originShear] else []

/-- L485-489, `np.sum((self.parameters.dy == 0) * (fx == 1)) == 1`: all rows of the grid are looked at. -/
def fyLines (g : GridParams K) (fx : List (XF K)) : List (Line K) :=
  let origin := g.dy.data.flatMap fun dy => fx.map fun f => XF.eqb dy (.fin 0) && XF.eqb f (.fin 1)
  if origin.countP id = 1 then [.debug .originFy] else []

variable [RealFns K]

/-- L354-390 `_determine_circular_radius` and `_determine_shear`. -/
def helpers : Meth (Site K) Unit := do
  let w ← Meth.get
  sayAll (shearLines w.grid.params)
  onGrid (Meth.modify Shallot.helpers)

/-- The messages of the loop of L753-775, of which every round calls `_determine_fy`. -/
def horizontalLines (g : GridParams K) (c : Shallot.Cell K) (shift : ℕ) (fy radius : List (XF K)) :
    Option (List (Line K)) :=
  let scales := Shallot.horizontalScales c shift
  let r := Shallot.radii c scales
  let fy := scales.map Prod.snd ++ fy
  let radius := r ++ radius
  let said := fyLines g (Shallot.fxyArray c.maxX shift c.num)
  if XF.lt ((r.headD .nan).div (nanminOf radius)) c.maxRf then
    if Shallot.tooFar c.maxX (shift + 1) then some said
    else do
      let rest ← horizontalLines g c (shift + 1) fy radius
      some (said ++ rest)
  else some said
partial_fixpoint

/-- L964-998: one cell. -/
def buildCell (y x : ℕ) : Meth (Site K) Unit := do
  let w ← Meth.get
  if (w.grid.shear.at3 y x 0).isNan then pure ()
  else do
    sayAll ((horizontalLines w.grid.params (w.grid.cellOf y x) 1 [] []).getD [])
    onGrid (Shallot.buildCell y x)

/-- The loop of L964-998 over the `n` cells of row `y` from `x` on. -/
def buildRow (y : ℕ) : ℕ → ℕ → Meth (Site K) Unit
  | 0, _ => pure ()
  | n + 1, x => do
    buildCell y x
    buildRow y n (x + 1)

variable [FloorRing K]

/-- L1000-1001: the save after a row. -/
def saveRow (saving : Bool) (y : ℕ) : Meth (Site K) Unit := do
  let w ← Meth.get
  if saving then files (w.grid.saveSteps .temp (.int y)) else pure ()

/-- The loop of L961-1001 over the `n` rows from `y` on. -/
def buildRows (saving : Bool) (num : ℕ) : ℕ → ℕ → Meth (Site K) Unit
  | 0, _ => pure ()
  | n + 1, y => do
    say (.info (.building (y + 1) num))
    let w ← Meth.get
    buildRow y w.grid.params.sliceShape.2 0
    saveRow saving y
    buildRows saving num n (y + 1)

/-- L687-695 `_create_temp_save_dir`. -/
def createTemp : Meth (Site K) Unit := do
  let w ← Meth.get
  if w.fs.exists? tempDir then do
    files [.rmtreeIfExists tempDir]
    say (.debug .cleared)
  else pure ()
  files [.mkdir tempDir]

/-- L698-705 `_delete_temp_save_dir`. -/
def deleteTemp : Meth (Site K) Unit := do
  let w ← Meth.get
  if w.fs.exists? tempDir then do
    files [.rmtreeIfExists tempDir]
    say (.debug .deleted)
  else pure ()

/-- L947-1004 `_build_grid` from row `y`, after the validation. -/
def build (saving : Bool) (y : ℕ) : Meth (Site K) Unit := do
  if y = 0 then onGrid Shallot.initialise else pure ()
  if saving then createTemp else pure ()
  let w ← Meth.get
  buildRows saving w.grid.params.sliceShape.1 (w.grid.params.sliceShape.1 - y) y
  onGrid Shallot.recolorAll
  deleteTemp

/-- L1289-1313 `_extend_grid`. -/
def extendGrid : Meth (Site K) Unit := fun w =>
  match GridParams.extendGrid w.grid.params with
  | (.error .attributeError, g) => (do
      onGrid (Meth.modify ({ · with params := g }))
      say (.debug .notExtended)) w
  | (.error e, g) => (do
      onGrid (Meth.modify ({ · with params := g }))
      Meth.throw e) w
  | (.ok _, g) => (do
      onGrid (Meth.modify ({ · with params := g }))
      helpers
      onGrid Shallot.fillAll
      onGrid (Meth.modify fun s => { s with diagnostics := s.diagnostics.map Diagnostics.extend })) w

/-- L1166-1189 `diagnose_fxfy_resolution`. -/
def diagnose : Meth (Site K) Unit := do
  onGrid Shallot.diagnose
  let w ← Meth.get
  say (.info (.deviation (GLog.largest w.grid)))

/-- L112-114 and L295-296: `_extend_grid` and `diagnose_fxfy_resolution`. -/
def finish : Meth (Site K) Unit := do
  extendGrid
  diagnose

/-- L80-114 `__init__` from the line after `_set_logger` on: `w.level` is the level of the new logger. -/
def new (numFxfy keepDiagnostics saving : PyVal K) (g : GridParams K) : Meth (Site K) Unit := do
  let n ← Meth.lift (number numFxfy (.bool true) (.int 1))
  let keep ← Meth.lift (boolean keepDiagnostics)
  Meth.modify fun w => { w with grid := Shallot.bare g n keep }
  helpers
  let saving ← Meth.lift (boolean saving)
  build saving 0
  finish

/-- L215-263 `_load_grid_attributes`.  There is no `GridGradient.load_gradient`: `AttributeError`, which
`except LoadError` does not catch, if an entry of the directory has no extension. -/
def loadAttributes (d : Path) : Meth (Site K) Unit := fun w =>
  (do
    let n ← Meth.lift (loadScalar w.fs (d ++ ["num_fxfy.npy"]))
    onGrid (Meth.modify ({ · with numFxfy := n }))
    let g ← Meth.lift (GridParams.load w.fs d)
    onGrid (Meth.modify ({ · with params := g }))
    let a ← Meth.lift (GProp.load w.fs d .diskRadius .eclipseDuration)
    onGrid (Meth.modify ({ · with diskRadius := a }))
    let b ← Meth.lift (GProp.load w.fs d .inclination .degree)
    onGrid (Meth.modify ({ · with inclination := b }))
    let c ← Meth.lift (GProp.load w.fs d .tilt .degree)
    onGrid (Meth.modify ({ · with tilt := c }))
    let x ← Meth.lift (GProp.load w.fs d .fxMap .none)
    onGrid (Meth.modify ({ · with fxMap := x }))
    let y ← Meth.lift (GProp.load w.fs d .fyMap .none)
    onGrid (Meth.modify ({ · with fyMap := y }))
    match Diagnostics.load w.fs d with
    | .ok diag => onGrid (Meth.modify ({ · with diagnostics := some diag }))
    | .error .loadError => say (.debug .noDiagnostics)
    | .error e => Meth.throw e
    if (w.fs.listdir d).all hasExtension then onGrid (Meth.modify ({ · with gradients := none }))
    else do
      onGrid (Meth.modify ({ · with gradients := some [] }))
      match (Err.attributeError : Err) with
      | .loadError => say (.debug .noGradients)
      | e => Meth.throw e : Meth (Site K) Unit) w

/-- L291-297 of `load`. -/
def resume (d : Path) : Meth (Site K) Unit := do
  let w ← Meth.get
  if w.fs.exists? (d ++ ["y_value.npy"]) then do
    let v ← Meth.lift (loadScalar w.fs (d ++ ["y_value.npy"]))
    let y ← Meth.lift (number v (.bool true) (.int 0) (.int (w.grid.params.dy.shape.headD 0 : ℕ)))
    build true y.toInt.toNat
  else pure ()
  finish

/-- L266-297 `load`, on a desk with any grid: first with a logger of level `logging.CRITICAL`, then with
one of level `level`. -/
def load (d : Path) (level : ℕ) : Meth (Site K) Unit := do
  let g ← Meth.lift (GridParams.new (K := K) (.int 0) (.int 1) (.int 2) (.int 0) (.int 1) (.int 2) (.int 2)
    (.int 2))
  Meth.modify fun w => { w with level := 50 }
  new (.int 100) (.bool false) (.bool false) g
  loadAttributes d
  helpers
  Meth.modify fun w => { w with level := level }
  resume d

end Site
end
end Beyonce
