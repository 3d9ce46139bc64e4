import Verif.ShallotFiles
import Verif.RingLog

/-!
# The loggers of shallot grids, `_set_logger` in `/repo/Shallot.py`

`ShallotGrid._set_logger` (L320-351) is the text of `RingSystem._set_logger`, so `setLogger` is used for
both.  A process has the loggers of the `logging` module and a file system.  The constructor sets the logger
before it does anything else; `load` makes a grid that it throws its attributes away of, and sets the logger a
second time.
-/

namespace Beyonce

/-- The loggers and the files. -/
structure Process (K N : Type) where
  log : LogWorld N
  fs : FS K

section
variable {K N : Type} [Field K] [LinearOrder K] [DecidableEq N] [RealFns K] [FloorRing K]

/-- Shallot.py L56-114 `__init__`: the grid and the name of its logger. -/
def Shallot.newLogged (level numFxfy keepDiagnostics saving : PyVal K) (g : GridParams K) :
    Meth (Process K N) (Shallot K × N) := fun p =>
  match setLogger level p.log with
  | (.error e, w) => (.error e, ⟨w, p.fs⟩)
  | (.ok name, w) => match Shallot.newIn numFxfy keepDiagnostics saving g p.fs with
    | (.error e, fs) => (.error e, ⟨w, fs⟩)
    | (.ok s, fs) => (.ok (s, name), ⟨w, fs⟩)

/-- Shallot.py L289: the second logger, and what follows it. -/
def Shallot.resumeLogged (d : Path) (level : PyVal K) (s : Shallot K) :
    Meth (Process K N) (Shallot K × N) := fun p =>
  match setLogger level p.log with
  | (.error e, w) => (.error e, ⟨w, p.fs⟩)
  | (.ok name, w) => match Shallot.resume d (Shallot.helpers s) p.fs with
    | (.error e, fs) => (.error e, ⟨w, fs⟩)
    | (.ok s, fs) => (.ok (s, name), ⟨w, fs⟩)

/-- Shallot.py L266-297 `load` (`logging.CRITICAL` is 50). -/
def Shallot.loadLogged (d : Path) (level : PyVal K) : Meth (Process K N) (Shallot K × N) := fun p =>
  match GridParams.new (K := K) (.int 0) (.int 1) (.int 2) (.int 0) (.int 1) (.int 2) (.int 2)
      (.int 2) with
  | .error e => (.error e, p)
  | .ok g => match Shallot.newLogged (.int 50) (.int 100) (.bool false) (.bool false) g p with
    | (.error e, p) => (.error e, p)
    | (.ok (t, _), p) => match Shallot.loadAttributes p.fs d t with
      | .error e => (.error e, p)
      | .ok s => Shallot.resumeLogged d level s p

end
end Beyonce
