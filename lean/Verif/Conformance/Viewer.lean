import Verif.PlotSlice

/-!
# `/repo/test_grid_property_viewer.py` on the model

The tests that the authors wrote for `GridPropertyViewer`, one `example` for each, in rational numbers and
with their array of 1089 elements.  `test_repr`, `test_str`, the prefix of the title and the name of the
slices are in `Verif/Conformance/Texts.lean`.
-/

namespace Beyonce.Conformance.Viewer
open Beyonce

/-- An argument that is written as an integer. -/
abbrev i (n : ℤ) : PyVal ℚ := .int n

/-- `np.arange(1089).astype(float)`. -/
def arange : List (XF ℚ) := (List.range 1089).map fun k => .fin (k : ℚ)

/-- The fixture. -/
def fixture : Except Err (GProp ℚ) := do
  let g ← GridParams.new (i 0) (i 1) (i 11) (i 0) (i 2) (i 11) (i 5) (i 5)
  let p ← GProp.new .diskRadius .eclipseDuration (.arr ⟨"float64", [11, 11, 9], arange⟩) g
  match GProp.setMask (.arr ⟨"bool", [11, 11, 9],
      List.replicate 100 (.fin 1) ++ List.replicate 989 (.fin 0)⟩) p with
  | (.ok _, p) => .ok p
  | (.error e, _) => .error e

/-- What `get_data(True)` gives. -/
def maskedData : List (XF ℚ) := List.replicate 100 .nan ++ arange.drop 100

/-- A viewer of the fixture. -/
def viewer (axis : ℤ) (masked : Bool) (index : PyVal ℚ := .none) (frozen : Bool := false)
    (coordinates : Option (List (List (XF ℚ))) := none) : Except Err (Viewer ℚ) :=
  fixture.bind fun p => (Viewer.new (i axis) (.bool masked) index (.bool frozen) coordinates p).1

/-- A viewer after `onscroll`. -/
def scrolled (v : Except Err (Viewer ℚ)) (button : String) : Except Err (Viewer ℚ) :=
  v.bind fun v => match Viewer.onscroll button v with
    | (.ok _, v) => .ok v
    | (.error e, _) => .error e

/-- What the tests look at. -/
structure Seen where
  axis : ℕ
  index : ℤ
  coordinates : Option (List (List (XF ℚ)))
  frozen : Bool
  sliceValues : List (XF ℚ)
  data : List (XF ℚ)
  deriving DecidableEq

/-- What the tests look at. -/
def seen (v : Viewer ℚ) : Seen := ⟨v.axis, v.index, v.coordinates, v.frozen, v.sliceValues, v.data.data⟩

/-- `rf_array` of the fixture. -/
def rfArray : List (XF ℚ) := [5, 4, 3, 2, 1, 2, 3, 4, 5].map .fin

/-- `dy.flatten()`. -/
def dy : List (XF ℚ) := [0, 1/5, 2/5, 3/5, 4/5, 1, 6/5, 7/5, 8/5, 9/5, 2].map .fin

/-- `dx.flatten()`. -/
def dx : List (XF ℚ) := [0, 1/10, 1/5, 3/10, 2/5, 1/2, 3/5, 7/10, 4/5, 9/10, 1].map .fin

/-- The list of two coordinates. -/
def two : List (List (XF ℚ)) := [[.fin (1/10), .fin (3/10), .fin 1], [.fin (1/5), .fin (1/5), .fin 3]]

/-- L30-48 test_init_defaults -/
example : (viewer 2 false).map seen = .ok ⟨2, 9 / 2, none, false, rfArray, arange⟩ := by
  decide +kernel
/-- L51-72 test_init_masked -/
example : (viewer 2 true).map seen = .ok ⟨2, 9 / 2, none, false, rfArray, maskedData⟩ ∧
    fixture.bind (fun p => Viewer.determineExtent 2 p.params) = .ok [.fin 0, .fin 1, .fin 0, .fin 2] := by
  refine ⟨?_, ?_⟩ <;> decide +kernel
/-- L75-96 test_init_index -/
example : (viewer 2 true (i 0)).map seen = .ok ⟨2, 0, none, false, rfArray, maskedData⟩ := by
  decide +kernel
/-- L99-120 test_init_axis0 -/
example : (viewer 0 true (i 0)).map seen = .ok ⟨0, 0, none, false, dy, maskedData⟩ := by
  decide +kernel
/-- L123-144 test_init_axis1 -/
example : (viewer 1 true (i 0)).map seen = .ok ⟨1, 0, none, false, dx, maskedData⟩ := by
  decide +kernel
/-- L147-168 test_init_axis2 -/
example : (viewer 2 true (i 0)).map seen = .ok ⟨2, 0, none, false, rfArray, maskedData⟩ := by
  decide +kernel
/-- L171-196 test_init_axis2_scroll_up_successful -/
example : (scrolled (viewer 2 true (i 0)) "up").map seen = .ok ⟨2, 1, none, false, rfArray, maskedData⟩ := by
  decide +kernel
/-- L199-225 test_init_axis2_scroll_up_unsuccessful -/
example : (scrolled (viewer 2 true (i 8)) "up").map seen = .ok ⟨2, 8, none, false, rfArray, maskedData⟩ := by
  decide +kernel
/-- L228-255 test_init_axis2_scroll_down_successful -/
example : (scrolled (viewer 2 true (i 8)) "down").map seen = .ok ⟨2, 7, none, false, rfArray, maskedData⟩ := by
  decide +kernel
/-- L258-285 test_init_axis2_scroll_down_unsuccessful -/
example : (scrolled (viewer 2 true (i 0)) "down").map seen = .ok ⟨2, 0, none, false, rfArray, maskedData⟩ := by
  decide +kernel
/-- L288-312 test_init_frozen -/
example : (viewer 2 true (i 0) true).map seen = .ok ⟨2, 0, none, true, rfArray, maskedData⟩ := by
  decide +kernel
/-- L315-341 test_init_frozen_scroll -/
example : (scrolled (viewer 2 true (i 0) true) "up").map seen = .ok ⟨2, 0, none, true, rfArray, maskedData⟩ := by
  decide +kernel
/-- L344-368 test_init_with_coodinates -/
example : (viewer 2 true (i 8) false (some two)).map seen = .ok ⟨2, 8, some two, false, rfArray, maskedData⟩ := by
  decide +kernel
/-- L371-397 test_init_with_coodinates_tolerance_exceeded -/
example : (viewer 2 true (i 4) false (some two)).map seen = .ok ⟨2, 4, some two, false, rfArray, maskedData⟩ := by
  decide +kernel
/-- L400-413 test_init_with_invalid_coodinates -/
example : viewer 2 true (i 8) false (some [[.fin 12]]) = .error .valueError := by decide +kernel

end Beyonce.Conformance.Viewer
