import Verif.Messages
import Verif.Conformance.Validate

/-!
# The messages in the tests of `/repo`

`test_validate.py` again, with the messages, and the messages of the other test files that the model has.
They are no claims.
-/

namespace Beyonce.Conformance
open Beyonce

/-- `NAME` of test_validate.py L6. -/
abbrev NAME : String := "parameter"

/-- L15-21 test_boolean_invalid_number -/
example (n : ℤ) : Said.boolean (.int n : PyVal ℚ) NAME = .error (.typeError, "parameter is not of type boolean") := rfl
/-- L24-30 test_boolean_invalid_boolean_collection -/
example : Said.boolean (aList : PyVal ℚ) NAME = .error (.typeError, "parameter is not of type boolean") := rfl
/-- L45-51 test_string_invalid_number -/
example (n : ℤ) : Said.string (.int n : PyVal ℚ) NAME = .error (.typeError, "parameter is not of type string") := rfl
/-- L54-60 test_string_invalid_string_collection -/
example : Said.string (aList : PyVal ℚ) NAME = .error (.typeError, "parameter is not of type string") := rfl
/-- L96-102 test_number_type_float_check_true -/
example (x : ℚ) : Said.number (.float (.fin x)) NAME (.bool true)
    = .error (.typeError, "parameter is not of type integer") := rfl
/-- L105-111 test_number_type_any_check_invalid -/
example (x : ℚ) : Said.number (.float (.fin x)) NAME (.str "invalid")
    = .error (.typeError, "check_integer is not of type boolean") := rfl
/-- L114-120 test_number_type_any_check_invalid_like -/
example (x : ℚ) : Said.number (.float (.fin x)) NAME (.int 0)
    = .error (.typeError, "check_integer is not of type boolean") := rfl
/-- L126-131 test_number_bounds_invalid_lower -/
example : Said.number (.int 1 : PyVal ℚ) NAME (lower := .str "invalid")
    = .error (.typeError, "lower_bound is not of type 'number'") := by decide +kernel
/-- L134-139 test_number_bounds_invalid_upper -/
example : Said.number (.int 1 : PyVal ℚ) NAME (upper := .str "invalid")
    = .error (.typeError, "upper_bound is not of type 'number'") := by decide +kernel
/-- L142-147 test_number_bounds_invalid_exclusive -/
example : Said.number (.int 1 : PyVal ℚ) NAME (exclusive := .str "invalid")
    = .error (.typeError, "exclusive is not of type boolean") := by decide +kernel
/-- L150-160 test_number_bounds_lower_greater_than_upper -/
example : Said.number (.int 1 : PyVal ℚ) NAME (lower := .int 0) (upper := .int (-1)) = .error (.valueError,
    "The upper_bound argument (-1.0000) must be greater than the lower_bound (0.0000) argument.") := by
  decide +kernel
/-- L163-170 test_number_bounds_value_low_exclusive_false -/
example : Said.number (.int 1 : PyVal ℚ) NAME (lower := .int 2)
    = .error (.valueError, "The parameter argument must be greater than or equal to 2.0000") := by decide +kernel
/-- L173-181 test_number_bounds_value_low_exclusive_true -/
example : Said.number (.int 1 : PyVal ℚ) NAME (lower := .int 1) (exclusive := .bool true)
    = .error (.valueError, "The parameter argument must be greater than 1.0000") := by decide +kernel
/-- L184-191 test_number_bounds_value_high_exclusive_false -/
example : Said.number (.int 1 : PyVal ℚ) NAME (upper := .int 0)
    = .error (.valueError, "The parameter argument must be less than or equal to 0.0000") := by decide +kernel
/-- L194-202 test_number_bounds_value_high_exclusive_true -/
example : Said.number (.int 1 : PyVal ℚ) NAME (upper := .int 1) (exclusive := .bool true)
    = .error (.valueError, "The parameter argument must be less than 1.0000") := by decide +kernel
/-- L251-257 test_array_invalid -/
example (n : ℤ) : Said.array (.int n : PyVal ℚ) NAME = .error (.typeError, "parameter is not of type np.ndarray") := rfl
/-- L260-266 test_array_invalid_collection -/
example : Said.array (aList : PyVal ℚ) NAME = .error (.typeError, "parameter is not of type np.ndarray") := rfl
/-- L280-285 test_array_bounds_invalid_lower -/
example : Said.array ones3 NAME (lower := .str "invalid")
    = .error (.typeError, "lower_bound is not of type 'number'") := by decide +kernel
/-- L288-293 test_array_bounds_invalid_upper -/
example : Said.array ones3 NAME (upper := .str "invalid")
    = .error (.typeError, "upper_bound is not of type 'number'") := by decide +kernel
/-- L296-301 test_array_bounds_invalid_exclusive -/
example : Said.array ones3 NAME (lower := .int 0) (exclusive := .str "invalid")
    = .error (.typeError, "exclusive is not of type boolean") := by decide +kernel
/-- L304-314 test_array_bounds_lower_greater_than_upper -/
example : Said.array ones3 NAME (lower := .int 0) (upper := .int (-1)) = .error (.valueError,
    "The upper_bound argument (-1.0000) must be greater than the lower_bound (0.0000) argument.") := by
  decide +kernel
/-- L327-335 test_array_bounds_single_value_low_exclusive_false -/
example : Said.array around NAME (lower := .float (.fin (-1/2))) (exclusive := .bool false) = .error (.valueError,
    "The parameter argument must contain solely values greater than or equal to -0.5000") := by decide +kernel
/-- L349-357 test_array_bounds_single_value_low_exclusive_true -/
example : Said.array around NAME (lower := .int (-1)) (exclusive := .bool true) = .error (.valueError,
    "The parameter argument must contain solely values greater than -1.0000") := by decide +kernel
/-- L370-378 test_array_bounds_single_value_high_exclusive_false -/
example : Said.array around NAME (upper := .float (.fin (1/2))) (exclusive := .bool false) = .error (.valueError,
    "The parameter argument must contain solely values less than or equal to 0.5000") := by decide +kernel
/-- L392-400 test_array_bounds_single_value_high_exclusive_true -/
example : Said.array around NAME (upper := .int 1) (exclusive := .bool true) = .error (.valueError,
    "The parameter argument must contain solely values less than 1.0000") := by decide +kernel
/-- L443-448 test_array_dimensions_invalid_number -/
example : Said.array (ones 10) NAME (numDimensions := .str "invalid")
    = .error (.typeError, "num_dimensions is not of type integer") := by decide +kernel
/-- L469-478 test_array_dimensions_invalid_params -/
example : Said.array ones11 NAME (numDimensions := .int 1)
    = .error (.invalidDimensionsError, "The parameter (2 dimensions) should have 1 dimensions") := by decide +kernel
/-- L502-510 test_array_type_invalid -/
example : Said.array (ones 12) NAME (dtype := .str "<U32")
    = .error (.typeError, "parameter (float64) is not of type <U32") := by decide +kernel
/-- L513-520 test_array_type_invalid_input -/
example : Said.array (ones 12) NAME (dtype := .bool true)
    = .error (.typeError, "dtype is not of type string") := by decide +kernel
/-- L536-544 test_same_shape_arrays_arrays_list_size_1 -/
example : Said.sameShapeArrays [(floats [1] [.fin 0] : PyVal ℚ)] [NAME]
    = .error (.attributeError, "arrays_list argument should contain at least two arrays") := by decide +kernel
/-- L547-555 test_same_shape_arrays_names_list_wrong_length -/
example : Said.sameShapeArrays [floats [1] [.fin 0], ones 1] [NAME] = .error (.attributeError,
    "arrays_list (2) should have the same length as names_list (1)") := by decide +kernel
/-- L558-570 test_same_shape_arrays_wrong_shapes -/
example : Said.sameShapeArrays [floats [2] [.fin 0, .fin 0], ones 1] [NAME, NAME ++ NAME] = .error
    (.invalidShapeError, "parameter (2,), parameterparameter (1,) should all have the same shape.") := by
  decide +kernel
/-- L573-580 test_same_shape_arrays_not_array -/
example : Said.sameShapeArrays [floats [2] [.fin 0, .fin 0], (.str "string" : PyVal ℚ)] [NAME, NAME ++ NAME]
    = .error (.typeError, "parameterparameter is not of type np.ndarray") := by decide +kernel
/-- L613-621 test_class_unequal_class -/
example : Said.classObject (.int 4 : PyVal ℚ) NAME .str "string"
    = .error (.typeError, "parameter is not of type string") := rfl

/-- test_grid_diagnostics.py L64-70 -/
example : Said.number (.int 2 : PyVal ℚ) "y" (.bool true) (.int 0) (.int 1)
    = .error (.valueError, "The y argument must be less than or equal to 1.0000") := by decide +kernel
/-- test_grid_diagnostics.py L230 -/
example (dir : String) : loadText .diagnostics dir = "failed to load grid diagnostics from " ++ dir := by
  unfold loadText
  exact congrArg (· ++ dir) (by decide)
/-- test_grid_parameters.py L189 -/
example (dir : String) : loadText .parameters dir = "failed to load grid parameters from " ++ dir := by
  unfold loadText
  exact congrArg (· ++ dir) (by decide)
/-- test_grid_property.py L160 -/
example : loadText (.property .diskRadius .eclipseDuration) "invalid"
    = "failed to load Disk Radius [Eclipse Duration] from invalid" := by decide +kernel
/-- test_grid_gradient.py L237 -/
example : loadText (.property .gradient .none) "invalid" = "failed to load Gradient [None] from invalid" := by
  decide +kernel

end Beyonce.Conformance
