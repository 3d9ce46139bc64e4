import Verif.Num

/-!
# Files and directories

The part of the operating system and of `np.save`/`np.load` that the code relies on.
This models the environment, not a file of `/repo`.

* A path is the list of its components; a file system is an association list from paths to
  nodes, the newest entry first.
* A saving method is a *list* of primitive steps, so that a crash is a prefix of it, possibly
  followed by a torn write.
* `np.load` of a file written by `np.save` gives back the saved value (trusted); a torn file
  cannot be loaded.
-/

namespace Beyonce

/-- Path components below the working directory. -/
abbrev Path := List String

/-- A number inside an f-string: an integer, or a Boolean, which is printed as a word. (Python and
numpy integers of the same value print the same; different integers print differently.) -/
inductive KeyPart
  | int (n : ℤ)
  | bool (b : Bool)
  deriving DecidableEq, Repr

/-- A dictionary key of the form `f"({y}, {x})"`. -/
abbrev Key := KeyPart × KeyPart

/-- What `np.save` wrote. -/
inductive Blob (K : Type)
  /-- float array: shape and C-order data -/
  | floats (shape : List ℕ) (data : List (XF K))
  /-- boolean array -/
  | bools (shape : List ℕ) (data : List Bool)
  /-- integer array -/
  | ints (data : List ℤ)
  /-- pickled dictionary from keys to float vectors -/
  | dict (entries : List (Key × List (XF K)))
  /-- a file whose write was interrupted -/
  | torn
  deriving DecidableEq, Repr

/-- A directory or a file. -/
inductive Node (K : Type)
  | dir
  | file (b : Blob K)
  deriving DecidableEq, Repr

/-- A file system. -/
abbrev FS (K : Type) := List (Path × Node K)

/-- Primitive steps of the saving methods. -/
inductive Step (K : Type)
  /-- `os.mkdir(p)` -/
  | mkdir (p : Path)
  /-- `if not os.path.exists(p): os.mkdir(p)` -/
  | mkdirIfMissing (p : Path)
  /-- `np.save(p, …)` -/
  | write (p : Path) (b : Blob K)
  /-- `if os.path.exists(p): shutil.rmtree(p)` -/
  | rmtreeIfExists (p : Path)
  /-- any statement that raises without touching a file -/
  | raise (e : Err)
  deriving DecidableEq, Repr

section
variable {K : Type}

namespace FS

/-- The node at a path. -/
def at? (fs : FS K) (p : Path) : Option (Node K) := List.lookup p fs

/-- Replace one entry. -/
def put (fs : FS K) (p : Path) (n : Node K) : FS K := (p, n) :: fs

/-- `shutil.rmtree(d)`: everything at or below `d` goes. -/
def rmtree (fs : FS K) (d : Path) : FS K := fs.filter fun e => !d.isPrefixOf e.1

/-- `os.path.exists`. -/
def exists? (fs : FS K) (p : Path) : Bool := (fs.at? p).isSome

/-- Is `p` a directory? The working directory always is. -/
def isDir (fs : FS K) (p : Path) : Bool :=
  match p with
  | [] => true
  | _ => match fs.at? p with
    | some .dir => true
    | _ => false

/-- `os.listdir(d)`, in some order. -/
def listdir (fs : FS K) (d : Path) : List String :=
  (fs.filterMap fun e => match e.1.getLast? with
    | some f => if e.1.dropLast = d then some f else none
    | none => none).eraseDups

/-- `os.mkdir`. -/
def mkdir (fs : FS K) (p : Path) : Except Err (FS K) :=
  if fs.exists? p then .error .fileExistsError
  else if fs.isDir p.dropLast then .ok (fs.put p .dir)
  else .error .fileNotFoundError

/-- `np.save`: the directory has to exist; an existing file is replaced. -/
def write (fs : FS K) (p : Path) (b : Blob K) : Except Err (FS K) :=
  if fs.isDir p.dropLast then
    if fs.isDir p then .error .fileError else .ok (fs.put p (.file b))
  else .error .fileNotFoundError

/-- `np.load`. -/
def load (fs : FS K) (p : Path) : Except Err (Blob K) :=
  match fs.at? p with
  | none => .error .fileNotFoundError
  | some .dir => .error .fileError
  | some (.file .torn) => .error .valueError
  | some (.file b) => .ok b

/-- One step. -/
def step (fs : FS K) : Step K → Except Err (FS K)
  | .mkdir p => fs.mkdir p
  | .mkdirIfMissing p => if fs.exists? p then .ok fs else fs.mkdir p
  | .write p b => fs.write p b
  | .rmtreeIfExists p => .ok (if fs.exists? p then fs.rmtree p else fs)
  | .raise e => .error e

/-- Carry out steps in order until one raises; the files written before stay. -/
def run (fs : FS K) : List (Step K) → Except Err Unit × FS K
  | [] => (.ok (), fs)
  | s :: ss => match fs.step s with
    | .ok fs' => run fs' ss
    | .error e => (.error e, fs)

/-- The file system after a crash: the first `k` steps are done; if `tear` then the next step, if
it is a write, has left a torn file. -/
def crash (fs : FS K) (ss : List (Step K)) (k : ℕ) (tear : Bool) : FS K :=
  let fs' := (fs.run (ss.take k)).2
  if tear && ((fs.run (ss.take k)).1).isOk then
    match ss[k]? with
    | some (.write p _) => (fs'.run [.write p .torn]).2
    | _ => fs'
  else fs'

end FS
end
end Beyonce
