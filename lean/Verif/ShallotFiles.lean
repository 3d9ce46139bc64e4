import Verif.BuildGrid
import Verif.Files

/-!
# `/repo/Shallot.py`: saving, loading, and builds that save as they go

A build with intermittent saving computes between its file operations but never reads a file, so it
is modelled as the pure build of `BuildGrid` together with the list of file operations that it
carries out; an exception of the computation is a `.raise` at its place in that list.

Simplifications.
* A `directory` argument is the path it stands for, together with whether it is the string
  `TEMP_SAVE_DIR` (the same path can be spelled otherwise).
* The temporary path is not a file, and `shutil.rmtree` is one step.
* `num_fxfy` and `y_value` fit into 64 bits.
* Strings passed as directories and the logging level are not validated here.
-/

namespace Beyonce

/-- A `directory` argument. -/
inductive DirArg
  /-- the string `TEMP_SAVE_DIR`, L21 -/
  | temp
  /-- any other string -/
  | other (p : Path)
  deriving DecidableEq, Repr

/-- L21 `TEMP_SAVE_DIR = "./.temp_shallot"`. -/
def tempDir : Path := [".temp_shallot"]

/-- The path that a `directory` argument stands for. -/
def DirArg.path : DirArg → Path
  | .temp => tempDir
  | .other p => p

/-- `os.path.splitext(f)[1] != ""`: there is a dot after the leading dots. -/
def hasExtension (f : String) : Bool := (f.toList.dropWhile (· = '.')).contains '.'

section
variable {K : Type} [Field K] [LinearOrder K]

/-- `np.load(p)[0]` of an array of numbers. -/
def loadScalar (fs : FS K) (p : Path) : Except Err (PyVal K) := do
  let b ← fs.load p
  let l ← GGrad.blobScalars b
  match l with
  | x :: _ => .ok x
  | [] => .error .indexError

namespace Shallot

/-- L193-197: the row number, if one is given. -/
def yValueSteps (s : Shallot K) (d : Path) (y : PyVal K) : List (Step K) :=
  match y with
  | .none => []
  | y => match number y (.bool true) (.int 0) (.int s.params.dy.data.length) with
    | .ok v => [.write (d ++ ["y_value.npy"]) (GGrad.npArray [v])]
    | .error e => [.raise e]

/-- L172-212 `save`, as steps.  `self.diagnostics.save()` lacks an argument: `TypeError`. -/
def saveSteps [FloorRing K] (s : Shallot K) (dir : DirArg) (y : PyVal K := .none) : List (Step K) :=
  let d := dir.path
  (match dir with
    | .temp => .mkdirIfMissing d
    | .other _ => .mkdir d) ::
  (s.yValueSteps d y ++
   .write (d ++ ["num_fxfy.npy"]) (GGrad.npArray [s.numFxfy]) ::
   (s.params.saveSteps d ++
    (s.diskRadius.saveSteps d ++
     (s.inclination.saveSteps d ++
      (s.tilt.saveSteps d ++
       (s.fxMap.saveSteps d ++
        (s.fyMap.saveSteps d ++
         ((s.gradients.getD []).flatMap (fun g => g.saveSteps d) ++
          if s.diagnostics.isSome then [.raise .typeError] else []))))))))

/-- L215-263 `_load_grid_attributes`.  There is no `GridGradient.load_gradient`: `AttributeError` if
an entry of the directory has no extension. -/
def loadAttributes (fs : FS K) (d : Path) (s : Shallot K) : Except Err (Shallot K) := do
  let n ← loadScalar fs (d ++ ["num_fxfy.npy"])
  let g ← GridParams.load fs d
  let a ← GProp.load fs d .diskRadius .eclipseDuration
  let b ← GProp.load fs d .inclination .degree
  let c ← GProp.load fs d .tilt .degree
  let x ← GProp.load fs d .fxMap .none
  let y ← GProp.load fs d .fyMap .none
  let diagnostics := match Diagnostics.load fs d with
    | .ok diag => some diag
    | .error _ => s.diagnostics
  if (fs.listdir d).all hasExtension then
    .ok { s with numFxfy := n, params := g, diskRadius := a, inclination := b, tilt := c, fxMap := x,
                 fyMap := y, diagnostics := diagnostics, gradients := none }
  else .error .attributeError

variable [RealFns K] [FloorRing K]

/-- The file operations of L961-1004: after each row a save, at the end the contrast parameters. -/
def rowsTrace (saving : Bool) : ℕ → ℕ → Shallot K → List (Step K)
  | 0, _, s => match recolorAll s with
    | (.ok _, _) => []
    | (.error e, _) => [.raise e]
  | n + 1, y, s => match buildRow y s.params.sliceShape.2 0 s with
    | (.error e, _) => [.raise e]
    | (.ok _, s') =>
      (if saving then s'.saveSteps .temp (.int y) else []) ++ rowsTrace saving n (y + 1) s'

/-- The file operations of `_build_grid`, L925-1004, from row `y`: `_create_temp_save_dir`
(L686-695), the rows, `_delete_temp_save_dir` (L698-705). -/
def trace (saving : Bool) (y : ℕ) (s : Shallot K) : List (Step K) :=
  match (if y = 0 then initialise s else (.ok (), s)) with
  | (.error e, _) => [.raise e]
  | (.ok _, s') =>
    (if saving then [.rmtreeIfExists tempDir, .mkdir tempDir] else []) ++
    (rowsTrace saving (s'.params.sliceShape.1 - y) y s' ++ [.rmtreeIfExists tempDir])

/-- L925-1004 `_build_grid` from row `y`, on a file system. -/
def buildIn (saving : Bool) (y : ℕ) (s : Shallot K) (fs : FS K) : Except Err (Shallot K) × FS K :=
  match fs.run (trace saving y s) with
  | (.error e, fs') => (.error e, fs')
  | (.ok _, fs') => match build y s with
    | (.ok _, s') => (.ok s', fs')
    | (.error e, _) => (.error e, fs')

/-- L107-114 and L293-295: extend and diagnose. -/
def finish (s : Shallot K) : Except Err (Shallot K) :=
  match (do extendGrid; diagnose : Meth (Shallot K) Unit) s with
  | (.ok _, s') => .ok s'
  | (.error e, _) => .error e

/-- L56-114 `__init__` on a file system.  (What becomes of the parameters object is in
`Shallot.new`.) -/
def newIn (numFxfy keepDiagnostics saving : PyVal K) (g : GridParams K) (fs : FS K) :
    Except Err (Shallot K) × FS K :=
  match number numFxfy (.bool true) (.int 1) with
  | .error e => (.error e, fs)
  | .ok n => match boolean keepDiagnostics with
    | .error e => (.error e, fs)
    | .ok keep => match boolean saving with
      | .error e => (.error e, fs)
      | .ok saving => match buildIn saving 0 (bare g n keep) fs with
        | (.error e, fs') => (.error e, fs')
        | (.ok s, fs') => (finish s, fs')

/-- L290-295 of `load`: a row number means that the build is to go on from there. -/
def resume (d : Path) (s : Shallot K) (fs : FS K) : Except Err (Shallot K) × FS K :=
  if fs.exists? (d ++ ["y_value.npy"]) then
    match loadScalar fs (d ++ ["y_value.npy"]) with
    | .error e => (.error e, fs)
    | .ok v => match number v (.bool true) (.int 0) (.int (s.params.dy.shape.headD 0 : ℕ)) with
      | .error e => (.error e, fs)
      | .ok y => match buildIn true y.toInt.toNat s fs with
        | (.error e, fs') => (.error e, fs')
        | (.ok s', fs') => (finish s', fs')
  else (finish s, fs)

/-- L266-297 `load`. -/
def load (d : Path) (fs : FS K) : Except Err (Shallot K) × FS K :=
  match GridParams.new (K := K) (.int 0) (.int 1) (.int 2) (.int 0) (.int 1) (.int 2) (.int 2)
      (.int 2) with
  | .error e => (.error e, fs)
  | .ok g => match newIn (.int 100) (.bool false) (.bool false) g fs with
    | (.error e, fs') => (.error e, fs')
    | (.ok t, fs') => match loadAttributes fs' d t with
      | .error e => (.error e, fs')
      | .ok s => resume d (helpers s) fs'

end Shallot
end
end Beyonce
