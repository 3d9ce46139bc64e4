import Verif.GridProperty
import Mathlib.Data.Rat.Floor
import Mathlib.Data.List.Sort

/-!
# `/repo/test_grid_gradient.py` on the model

The tests that the authors wrote for `GridGradient`, one `example` for each, in rational numbers and
with their array of 847 elements.  `test_str`, `test_repr` and `test_repr_mask` are in
`Verif/Conformance/Texts.lean`.
-/

namespace Beyonce.Conformance.GridGradient
open Beyonce

/-- A float argument. -/
abbrev f (x : ℚ) : PyVal ℚ := .float (.fin x)

/-- An argument that is written as an integer. -/
abbrev i (n : ℤ) : PyVal ℚ := .int n

/-- `np.arange(n).astype(float)`. -/
def arange (n : ℕ) : List (XF ℚ) := (List.range n).map fun k => .fin (k : ℚ)

/-- The fixture. -/
def fixture : Except Err (GGrad ℚ) := do
  let g ← GridParams.new (i 0) (i 1) (i 11) (i 0) (i 1) (i 11) (i 5) (i 4)
  GGrad.new (.arr ⟨"float64", [11, 11, 7], arange 847⟩) g (f (1/5))

/-- A call on an object: the object afterwards. -/
def called {α : Type} (p : Except Err (GGrad ℚ)) (m : Meth (GGrad ℚ) α) : Except Err (GGrad ℚ) :=
  match p with
  | .error e => .error e
  | .ok p => match m p with
    | (.ok _, p) => .ok p
    | (.error e, _) => .error e

/-- A call on an object: what it returns. -/
def returned {α : Type} (p : Except Err (GGrad ℚ)) (m : Meth (GGrad ℚ) α) : Except Err α :=
  match p with
  | .error e => .error e
  | .ok p => (m p).1

/-- A mask as argument. -/
def maskOf (shape : List ℕ) (l : List Bool) : PyVal ℚ :=
  .arr ⟨"bool", shape, l.map fun b => if b then .fin 1 else .fin 0⟩

/-- `np.ones_like(data).astype(bool)`. -/
def ones : PyVal ℚ := maskOf [11, 11, 7] (List.replicate 847 true)

/-- `data < 37`. -/
def below37 : PyVal ℚ := maskOf [11, 11, 7] (List.replicate 37 true ++ List.replicate 810 false)

/-- A method that the class inherits. -/
def inherited {α : Type} (m : Meth (GProp ℚ) α) : Meth (GGrad ℚ) α := fun g =>
  ((m g.prop).1, { g with prop := (m g.prop).2 })

/-- L56-59 test_set_mask_valid -/
example : (called fixture (inherited <| GProp.setMask ones)).map (·.prop.mask) = .ok (some ⟨[11, 11, 7], List.replicate 847 true⟩) := by
  decide +kernel
/-- L62-76 test_set_mask_invalid -/
example : called fixture (inherited <| GProp.setMask (maskOf [3] [true, true, true])) = .error .invalidShapeError := by decide +kernel
/-- L115-120 test_get_data_unmasked -/
example : returned fixture ((inherited <| GProp.setMask ones) *> (inherited <| GProp.getData (.bool false))) = .ok ⟨[11, 11, 7], arange 847⟩ := by
  decide +kernel
/-- L123-131 test_get_data_masked -/
example : (returned fixture ((inherited <| GProp.setMask below37) *> (inherited <| GProp.getData (.bool true)))).map
    (fun d => d.data.map XF.isNan) = .ok (List.replicate 37 true ++ List.replicate 810 false) := by
  decide +kernel
/-- L134-137 test_get_data_masked_no_mask -/
example : returned fixture ((inherited <| GProp.getData (.bool true))) = .ok ⟨[11, 11, 7], arange 847⟩ := by decide +kernel
/-- L140-144 test_set_contrast_parameters_none -/
example : fixture.map (fun p => (p.prop.vmin, p.prop.vmax, p.prop.colorMap, p.prop.numColors))
    = .ok (some (.fin 0), some (.fin 846), "viridis", 11) := by decide +kernel
/-- L147-153 test_set_contrast_parameters_all_nan -/
example : (called fixture ((inherited <| Meth.modify (fun p => { p with data := ⟨p.data.shape, p.data.data.map fun x => XF.nan.mul x⟩ })) *>
      (inherited <| GProp.setContrast .none .none .none .none))).map
      (fun p => (p.prop.vmin, p.prop.vmax, p.prop.colorMap, p.prop.numColors)) = .ok (none, none, "viridis", 11) := by
  decide +kernel
/-- L156-161 test_set_contrast_parameters -/
example : (called fixture (inherited <| GProp.setContrast (i 0) (i 2) (.str "twilight") (i 3))).map
    (fun p => (p.prop.vmin, p.prop.vmax, p.prop.colorMap, p.prop.numColors))
    = .ok (some (.fin 0), some (.fin 2), "twilight", 3) := by decide +kernel
/-- L79-89 test_get_scaled_gradient -/
example : (called fixture (GGrad.determineMask (f (1/2)) (f (6/5)) (f (9/10)))).bind GGrad.scaled
    = .ok (some (.fin (1/2 * (6/5) / (9/10)))) := by decide +kernel
/-- L92-103 test_determine_mask_defaults -/
example : (called fixture (GGrad.determineMask (f (1/2)) (f (3/2)))).map (·.prop.mask)
      = .ok (some ⟨[11, 11, 7], true :: List.replicate 846 false⟩) ∧
    (called fixture (GGrad.determineMask (f (1/2)) (f (3/2)))).map
      (fun g => [g.measured, g.orbital, g.error, g.transmission])
      = .ok [some (f (1/2)), some (f (3/2)), some (i 1), some (i 1)] := by
  refine ⟨?_, ?_⟩ <;> decide +kernel
/-- L106-112 test_determine_mask_invalid -/
example : called fixture (GGrad.determineMask (i 2) (i 2) (f (1/100))) = .error .valueError := by
  decide +kernel
/-- L164-166 test_get_scaled_gradient_none_set -/
example : fixture.bind GGrad.scaled = .ok none := by decide +kernel
/-- L169-175 test_get_scaled_gradient_set_properly -/
example : (called fixture (GGrad.determineMask (f (1/5)) (f (13/10)) (f (4/5)))).bind GGrad.scaled
    = .ok (some (.fin (325/1000))) := by decide +kernel
/-- L178-194 test_sorting -/
example : fixture.map (fun g => ([g, { g with position := f (-1/5) }].insertionSort
    fun a b => !(b.lt a)).map (·.position)) = .ok [f (-1/5), f (1/5)] := by decide +kernel

/-- The files after saving into an existing directory `test_data`. -/
def saved (g : Except Err (GGrad ℚ)) : Except Err (FS ℚ) :=
  match g with
  | .error e => .error e
  | .ok g => match FS.run [] (.mkdirIfMissing ["test_data"] :: g.saveSteps ["test_data"]) with
    | (.ok _, fs) => .ok fs
    | (.error e, _) => .error e

/-- The gradient with the mask of ones. -/
def masked : Except Err (GGrad ℚ) := called fixture (inherited <| GProp.setMask ones)

/-- `GridGradient.load("test_data/gradient_0.2000/")`. -/
def loaded (fs : Except Err (FS ℚ)) : Except Err (GGrad ℚ) :=
  fs.bind fun fs => GGrad.load fs ["test_data", "gradient_0.2000"]

/-- The mask of the last test. -/
def determined : Except Err (GGrad ℚ) :=
  called fixture (GGrad.determineMask (f (3/10)) (f (6/5)) (f (9/10)))

/-- L199-210 test_save_no_mask -/
example : (saved fixture).bind (·.load ["test_data", "gradient_0.2000", "GRADIENT_NONE.npy"])
    = .ok (.floats [11, 11, 7] (arange 847)) := by decide +kernel
/-- L213-230 test_save_with_mask -/
example : (saved masked).bind (·.load ["test_data", "gradient_0.2000", "GRADIENT_NONE.npy"])
      = .ok (.floats [11, 11, 7] (arange 847)) ∧
    (saved masked).bind (·.load ["test_data", "gradient_0.2000", "GRADIENT_NONE_mask.npy"])
      = .ok (.bools [11, 11, 7] (List.replicate 847 true)) := by
  refine ⟨?_, ?_⟩ <;> decide +kernel
/-- L233-238 test_load_invalid -/
example : GGrad.load ([] : FS ℚ) ["invalid"] = .error .loadError := by decide +kernel
/-- L241-253 test_load_valid_no_mask -/
example : (loaded (saved fixture)).map (fun g => (g.prop.data, g.prop.mask))
    = .ok (⟨[11, 11, 7], arange 847⟩, none) := by decide +kernel
/-- L256-269 test_load_valid_with_mask -/
example : (loaded (saved determined)).map (fun g => (g.prop.data, g.prop.mask))
      = .ok (⟨[11, 11, 7], arange 847⟩, some ⟨[11, 11, 7], true :: List.replicate 846 false⟩) ∧
    determined.map (·.prop.mask) = .ok (some ⟨[11, 11, 7], true :: List.replicate 846 false⟩) := by
  refine ⟨?_, ?_⟩ <;> decide +kernel

end Beyonce.Conformance.GridGradient
