import Verif.GridDiagnostics
import Verif.Report

/-!
# `/repo/test_grid_diagnostics.py` on the model

The tests that the authors wrote for `GridDiagnostics.py`, one `example` for each, in rational numbers.
(Two pairs of tests have the same text but for their names.)  The texts of `test_repr` and `test_str` are in `Verif/Conformance/Texts.lean`.
-/

namespace Beyonce.Conformance.GridDiagnostics
open Beyonce

/-- An argument that is written as an integer. -/
abbrev i (n : ℤ) : PyVal ℚ := .int n

/-- A float vector as argument. -/
abbrev a (l : List ℚ) : PyVal ℚ := .arr ⟨"float64", [l.length], l.map .fin⟩

/-- The elements of a float array. -/
abbrev v (l : List ℚ) : List (XF ℚ) := l.map .fin

/-- `GridDiagnostics(GRID_PARAMETERS)`. -/
def diag : Except Err (Diagnostics ℚ) :=
  (GridParams.new (i 0) (i 1) (i 2) (i 0) (i 1) (i 2) (i 2) (i 1)).map Diagnostics.new

/-- `diag.save_diagnostic(…)`. -/
def stored (d : Except Err (Diagnostics ℚ)) (y x : ℤ) (fy r : List ℚ) : Except Err (Diagnostics ℚ) :=
  match d with
  | .error e => .error e
  | .ok d => match Diagnostics.save (i y) (i x) (a fy) (a r) d with
    | (.ok _, d) => .ok d
    | (.error e, _) => .error e

/-- The object after `save_diagnostic(1, 0, np.linspace(0, 1, 3), np.ones(3))`. -/
def one : Except Err (Diagnostics ℚ) := stored diag 1 0 [0, 1/2, 1] [1, 1, 1]

/-- The files after saving into `test_data`. -/
def saved (d : Except Err (Diagnostics ℚ)) : Except Err (FS ℚ) :=
  match d with
  | .error e => .error e
  | .ok d => match FS.run [] (d.saveSteps ["test_data"]) with
    | (.ok _, fs) => .ok fs
    | (.error e, _) => .error e

/-- L29-34 test_repr_with_diagnostics -/
example : (stored diag 0 0 [0] [1]).map Diagnostics.report = .ok 1 ∧ diag.map Diagnostics.report = .ok 0 := by
  decide +kernel
/-- L52-55 test_generate_key_none -/
example : diag.bind (·.generateKey (i 1) (i 0)) = .ok (.int 1, .int 0) := by decide +kernel
/-- L58-61 test_generate_key_valid -/
example : diag.bind (·.generateKey (i 0) (i 1)) = .ok (.int 0, .int 1) := by decide +kernel
/-- L64-70 test_generate_key_y_invalid -/
example : diag.bind (·.generateKey (i 2) (i 0)) = .error .valueError := by decide +kernel
/-- L73-79 test_generate_key_x_invalid -/
example : diag.bind (·.generateKey (i 0) (i 2)) = .error .valueError := by decide +kernel
/-- L82-88 test_generate_key_both_invalid -/
example : diag.bind (·.generateKey (i 10) (i 10)) = .error .valueError := by decide +kernel
/-- L91-100 test_save_diagnostic -/
example : one.bind (fun d => do
      let key ← d.generateKey (i 1) (i 0)
      let fy ← d.fyDict.get key
      let r ← d.radiusDict.get key
      .ok (fy, r)) = .ok (v [0, 1/2, 1], v [1, 1, 1]) := by decide +kernel
/-- L115-125 test_get_diagnostic_valid -/
example : one.bind (·.get (i 1) (i 0)) = .ok (v [0, 1/2, 1], v [1, 1, 1]) := by decide +kernel
/-- L127-137 test_get_diagnostic_invalid -/
example : one.bind (·.get (i 0) (i 1)) = .error .keyError := by decide +kernel
/-- L140-161 test_save_without_allowed -/
example : (saved one).bind (·.load ["test_data", "fy_dict.npy"])
      = .ok (.dict [((.int 1, .int 0), v [0, 1/2, 1])]) ∧
    (saved one).bind (·.load ["test_data", "disk_radius_dict.npy"])
      = .ok (.dict [((.int 1, .int 0), v [1, 1, 1])]) ∧
    one.map (·.fyDict) = .ok [((.int 1, .int 0), v [0, 1/2, 1])] ∧
    one.map (·.radiusDict) = .ok [((.int 1, .int 0), v [1, 1, 1])] := by
  refine ⟨?_, ?_, ?_, ?_⟩ <;> decide +kernel
/-- L187-190 test_extend -/
example : diag.map (fun d => d.extend.extended) = .ok true := by decide +kernel
/-- L193-201 test_extended_save -/
example : stored (diag.map Diagnostics.extend) 0 0 [0] [1] = .error .runtimeError := by decide +kernel
/-- L204-212 test_generate_key_extended_invalid -/
example : (stored diag 0 0 [0] [1]).bind (·.extend.get (i 0) (i 0)) = .error .keyError ∧
    (stored diag 0 0 [0] [1]).bind (·.extend.generateKey (i 0) (i 0)) = .ok (.int 2, .int 2) := by
  decide +kernel
/-- L215-221 test_generate_key_extended_valid -/
example : (stored diag 1 1 [0] [1]).bind (·.extend.generateKey (i 0) (i 0)) = .ok (.int 2, .int 2) := by
  decide +kernel
/-- L224-231 test_load_invalid -/
example : Diagnostics.load ([] : FS ℚ) ["invalid"] = .error .loadError := by decide +kernel
/-- L234-257 test_load_valid -/
example : (match FS.run [] [.mkdir ["test_data"],
      .write ["test_data", "fy_dict.npy"] (.dict [((.int 1, .int 0), v [0, 0])]),
      .write ["test_data", "disk_radius_dict.npy"] (.dict [((.int 1, .int 0), v [1, 1])]),
      .write ["test_data", "max_yx.npy"] (.ints [3, 2])] with
    | (.ok _, fs) => Diagnostics.load fs ["test_data"]
    | (.error e, _) => .error e)
    = .ok ⟨3, 2, [((.int 1, .int 0), v [0, 0])], [((.int 1, .int 0), v [1, 1])], false⟩ := by decide +kernel

end Beyonce.Conformance.GridDiagnostics
