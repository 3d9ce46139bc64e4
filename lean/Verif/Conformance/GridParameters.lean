import Verif.GridParameters

/-!
# `/repo/test_grid_parameters.py` on the model

The tests that the authors wrote for `GridParameters.py`, one `example` for each, in rational numbers.
`test_repr` and `test_str` are in `Verif/Conformance/Texts.lean`.
-/

namespace Beyonce.Conformance.GridParameters
open Beyonce

/-- A float argument. -/
abbrev f (x : ℚ) : PyVal ℚ := .float (.fin x)

/-- An argument that is written as an integer. -/
abbrev i (n : ℤ) : PyVal ℚ := .int n

/-- The elements of a float array. -/
abbrev v (l : List ℚ) : List (XF ℚ) := l.map .fin

/-- The object of most tests; `numY` is 4 or 5. -/
def grid (minX : PyVal ℚ) (numY : ℤ) : Except Err (GridParams ℚ) :=
  GridParams.new minX (i 1) (i 2) (i 0) (i 1) (i numY) (i 5) (i 4)

/-- `np.linspace(1, 5, 4)`. -/
def rf : List (XF ℚ) := v [1, 7/3, 11/3, 5]

/-- `np.concatenate((np.flip(rf), rf[1:]), 0)`. -/
def rfArray : List (XF ℚ) := v [5, 11/3, 7/3, 1, 7/3, 11/3, 5]

/-- Extend the object. -/
def extended (g : Except Err (GridParams ℚ)) : Except Err (GridParams ℚ) :=
  match g with
  | .error e => .error e
  | .ok g => match GridParams.extendGrid g with
    | (.ok _, g) => .ok g
    | (.error e, _) => .error e

/-- The files after saving into `test_data`. -/
def saved (g : Except Err (GridParams ℚ)) : Except Err (FS ℚ) :=
  match g with
  | .error e => .error e
  | .ok g => match FS.run [] (g.saveSteps ["test_data"]) with
    | (.ok _, fs) => .ok fs
    | (.error e, _) => .error e

/-- L26-29 test_ymin_greater_than_ymax -/
example : GridParams.new (i 0) (i 1) (i 2) (i 2) (i 1) (i 2) (i 2) (i 2) = .error .valueError := by
  decide +kernel
/-- L32-35 test_xmin_greater_than_xmax -/
example : GridParams.new (i 1) (i 0) (i 2) (i 0) (i 1) (i 2) (i 2) (i 2) = .error .valueError := by
  decide +kernel
/-- L38-60 test_extendable_init -/
example : grid (i 0) 4 = .ok ⟨⟨[1, 2, 1], v [0, 1]⟩, ⟨[4, 1, 1], v [0, 1/3, 2/3, 1]⟩, ⟨[4], rf⟩,
    ⟨[7], rfArray⟩, (4, 2, 2 * 4 - 1), (4, 2), true⟩ := by decide +kernel
/-- L63-85 test_non_extendable_init -/
example : grid (f (1/2)) 4 = .ok ⟨⟨[1, 2, 1], v [1/2, 1]⟩, ⟨[4, 1, 1], v [0, 1/3, 2/3, 1]⟩, ⟨[4], rf⟩,
    ⟨[7], rfArray⟩, (4, 2, 2 * 4 - 1), (4, 2), false⟩ := by decide +kernel
/-- L88-108 test_get_vectors -/
example : (grid (i 0) 5).map GridParams.getVectors = .ok (v [0, 1/4, 1/2, 3/4, 1], v [0, 1], rfArray) := by
  decide +kernel
/-- L111-127 test_extend_grid_invalid -/
example : extended (grid (f (1/2)) 4) = .error .attributeError := by decide +kernel
/-- L129-153 test_extend_grid_valid -/
example : extended (grid (i 0) 5) = .ok ⟨⟨[1, 3, 1], v [-1, 0, 1]⟩,
    ⟨[9, 1, 1], v [-1, -3/4, -1/2, -1/4, 0, 1/4, 1/2, 3/4, 1]⟩, ⟨[4], rf⟩, ⟨[7], rfArray⟩,
    (2 * 5 - 1, 2 * 2 - 1, 2 * 4 - 1), (2 * 5 - 1, 2 * 2 - 1), false⟩ := by decide +kernel
/-- L155-180 test_save -/
example : (saved (grid (i 0) 5)).bind (fun fs => do
      let dx ← fs.load ["test_data", "dx.npy"]
      let dy ← fs.load ["test_data", "dy.npy"]
      let rf ← fs.load ["test_data", "rf.npy"]
      let rfArray ← fs.load ["test_data", "rf_array.npy"]
      .ok (dx, dy, rf, rfArray))
    = (grid (i 0) 5).map (fun g => (.floats g.dx.shape g.dx.data, .floats g.dy.shape g.dy.data,
      .floats g.rf.shape g.rf.data, .floats g.rfArray.shape g.rfArray.data)) ∧
    (grid (i 0) 5).isOk := by decide +kernel
/-- L183-190 test_load_invalid -/
example : GridParams.load ([] : FS ℚ) ["invalid directory"] = .error .loadError := by decide +kernel
/-- L193-217 test_load_valid -/
example : (match FS.run [] [.mkdirIfMissing ["test_data"],
      .write ["test_data", "dx.npy"] (.floats [2] (v [0, 1])),
      .write ["test_data", "dy.npy"] (.floats [3] (v [0, 1, 2])),
      .write ["test_data", "rf.npy"] (.floats [2] (v [1, 3])),
      .write ["test_data", "rf_array.npy"] (.floats [3] (v [3, 1, 3]))] with
    | (.ok _, fs) => GridParams.load fs ["test_data"]
    | (.error e, _) => .error e)
    = .ok ⟨⟨[2], v [0, 1]⟩, ⟨[3], v [0, 1, 2]⟩, ⟨[2], v [1, 3]⟩, ⟨[3], v [3, 1, 3]⟩, (3, 2, 3), (3, 2),
      true⟩ := by decide +kernel

end Beyonce.Conformance.GridParameters
