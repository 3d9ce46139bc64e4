import Verif.GridProperty
import Verif.PlotSlice

/-!
# `/repo/test_grid_property.py` on the model

The tests that the authors wrote for `GridProperty`, one `example` for each, in rational numbers and
with their array of 847 elements.  `test_str`, `test_repr`, `test_repr_mask` and the title of
`test_plot_slice` are in `Verif/Conformance/Texts.lean`.
-/

namespace Beyonce.Conformance.GridProperty
open Beyonce

/-- A float argument. -/
abbrev f (x : ℚ) : PyVal ℚ := .float (.fin x)

/-- An argument that is written as an integer. -/
abbrev i (n : ℤ) : PyVal ℚ := .int n

/-- `np.arange(n).astype(float)`. -/
def arange (n : ℕ) : List (XF ℚ) := (List.range n).map fun k => .fin (k : ℚ)

/-- The fixture. -/
def fixture : Except Err (GProp ℚ) := do
  let g ← GridParams.new (i 0) (i 1) (i 11) (i 0) (i 1) (i 11) (i 5) (i 4)
  GProp.new .diskRadius .eclipseDuration (.arr ⟨"float64", [11, 11, 7], arange 847⟩) g

/-- A call on an object: the object afterwards. -/
def called {α : Type} (p : Except Err (GProp ℚ)) (m : Meth (GProp ℚ) α) : Except Err (GProp ℚ) :=
  match p with
  | .error e => .error e
  | .ok p => match m p with
    | (.ok _, p) => .ok p
    | (.error e, _) => .error e

/-- A call on an object: what it returns. -/
def returned {α : Type} (p : Except Err (GProp ℚ)) (m : Meth (GProp ℚ) α) : Except Err α :=
  match p with
  | .error e => .error e
  | .ok p => (m p).1

/-- A mask as argument. -/
def maskOf (shape : List ℕ) (l : List Bool) : PyVal ℚ :=
  .arr ⟨"bool", shape, l.map fun b => if b then .fin 1 else .fin 0⟩

/-- `np.ones_like(data).astype(bool)`. -/
def ones : PyVal ℚ := maskOf [11, 11, 7] (List.replicate 847 true)

/-- `data < 37`. -/
def below37 : PyVal ℚ := maskOf [11, 11, 7] (List.replicate 37 true ++ List.replicate 810 false)

/-- L56-59 test_set_mask_valid -/
example : (called fixture (GProp.setMask ones)).map (·.mask) = .ok (some ⟨[11, 11, 7], List.replicate 847 true⟩) := by
  decide +kernel
/-- L62-76 test_set_mask_invalid -/
example : called fixture (GProp.setMask (maskOf [3] [true, true, true])) = .error .invalidShapeError := by decide +kernel
/-- L79-84 test_get_data_unmasked -/
example : returned fixture (GProp.setMask ones *> GProp.getData (.bool false)) = .ok ⟨[11, 11, 7], arange 847⟩ := by
  decide +kernel
/-- L87-95 test_get_data_masked -/
example : (returned fixture (GProp.setMask below37 *> GProp.getData (.bool true))).map
    (fun d => d.data.map XF.isNan) = .ok (List.replicate 37 true ++ List.replicate 810 false) := by
  decide +kernel
/-- L98-101 test_get_data_masked_no_mask -/
example : returned fixture (GProp.getData (.bool true)) = .ok ⟨[11, 11, 7], arange 847⟩ := by decide +kernel
/-- L104-108 test_set_contrast_parameters_none -/
example : fixture.map (fun p => (p.vmin, p.vmax, p.colorMap, p.numColors))
    = .ok (some (.fin 0), some (.fin 846), "viridis", 11) := by decide +kernel
/-- L111-117 test_set_contrast_parameters_all_nan -/
example : (called fixture (Meth.modify (fun p => { p with data := ⟨p.data.shape, p.data.data.map fun x => XF.nan.mul x⟩ }) *>
      GProp.setContrast .none .none .none .none)).map
      (fun p => (p.vmin, p.vmax, p.colorMap, p.numColors)) = .ok (none, none, "viridis", 11) := by
  decide +kernel
/-- L120-125 test_set_contrast_parameters -/
example : (called fixture (GProp.setContrast (i 0) (i 2) (.str "twilight") (i 3))).map
    (fun p => (p.vmin, p.vmax, p.colorMap, p.numColors))
    = .ok (some (.fin 0), some (.fin 2), "twilight", 3) := by decide +kernel

/-- The files after saving into `test_data`. -/
def saved (p : Except Err (GProp ℚ)) : Except Err (FS ℚ) :=
  match p with
  | .error e => .error e
  | .ok p => match FS.run [] (p.saveSteps ["test_data"]) with
    | (.ok _, fs) => .ok fs
    | (.error e, _) => .error e

/-- The property with the mask of ones. -/
def masked : Except Err (GProp ℚ) := called fixture (GProp.setMask ones)

/-- `GridProperty.load("test_data", …)`. -/
def loaded (fs : Except Err (FS ℚ)) : Except Err (GProp ℚ) :=
  fs.bind fun fs => GProp.load fs ["test_data"] .diskRadius .eclipseDuration

/-- L128-136 test_save_no_mask -/
example : (saved fixture).bind (·.load ["test_data", "DISK_RADIUS_ECLIPSE_DURATION.npy"])
    = .ok (.floats [11, 11, 7] (arange 847)) := by decide +kernel
/-- L139-152 test_save_with_mask -/
example : (saved masked).bind (·.load ["test_data", "DISK_RADIUS_ECLIPSE_DURATION.npy"])
      = .ok (.floats [11, 11, 7] (arange 847)) ∧
    (saved masked).bind (·.load ["test_data", "DISK_RADIUS_ECLIPSE_DURATION_mask.npy"])
      = .ok (.bools [11, 11, 7] (List.replicate 847 true)) := by
  refine ⟨?_, ?_⟩ <;> decide +kernel
/-- L155-161 test_load_invalid -/
example : GProp.load ([] : FS ℚ) ["invalid"] .diskRadius .eclipseDuration = .error .loadError := by
  decide +kernel
/-- L164-172 test_load_valid_no_mask -/
example : (loaded (saved fixture)).map (fun p => (p.data, p.mask)) = .ok (⟨[11, 11, 7], arange 847⟩, none) := by
  decide +kernel
/-- L175-186 test_load_valid_with_mask -/
example : (loaded (saved masked)).map (fun p => (p.data, p.mask))
    = .ok (⟨[11, 11, 7], arange 847⟩, some ⟨[11, 11, 7], List.replicate 847 true⟩) := by decide +kernel
/-- L189-196 test_plot_cube -/
example : (returned fixture GProp.plotCube).isOk := by decide +kernel
/-- L199-208 test_plot_slice -/
example : (returned fixture (GProp.plotSlice (i 2) (i 0))).map
    (fun p => (p.viewer.title, p.viewer.image.length)) = .ok ((.fin 5, some .horizontal), 11 * 11) := by
  decide +kernel

end Beyonce.Conformance.GridProperty
