import Verif.Validate
import Verif.Props.RingSystemEdit

/-!
# `/repo/test_validate.py` on the model

The tests that the authors wrote for `validate.py`, one `example` for each.  They check that the model agrees
with the code where the authors say what it does; they are no claims.  A random parameter of a test is a
variable here.  Messages are in `Conformance/Messages.lean`.
-/

namespace Beyonce.Conformance
open Beyonce

section
variable {K : Type} [Field K] [LinearOrder K] [IsStrictOrderedRing K]

/-- A list; `validate.py` sees that it is none of its types. -/
abbrev aList : PyVal K := .obj "list"

/-- A float array. -/
abbrev floats (shape : List ℕ) (l : List (XF K)) : PyVal K := .arr ⟨"float64", shape, l⟩

/-! ## `boolean` -/

/-- L15-21 test_boolean_invalid_number -/
example (n : ℤ) : boolean (.int n : PyVal K) = .error .typeError := rfl
/-- L24-30 test_boolean_invalid_boolean_collection -/
example : boolean (aList : PyVal K) = .error .typeError := rfl
/-- L33-36 test_boolean_valid -/
example : boolean (.bool true : PyVal K) = .ok true := rfl

/-! ## `string` -/

/-- L45-51 test_string_invalid_number -/
example (n : ℤ) : string (.int n : PyVal K) = .error .typeError := rfl
/-- L54-60 test_string_invalid_string_collection -/
example : string (aList : PyVal K) = .error .typeError := rfl
/-- L63-66 test_string_valid -/
example : string (.str "test" : PyVal K) = .ok "test" := rfl

/-! ## `number`, the type -/

/-- L78-81 test_number_type_integer_check_false -/
example (n : ℤ) : number (.int n : PyVal K) (.bool false) = .ok (.int n) := rfl
/-- L84-87 test_number_type_float_check_false -/
example (x : K) : number (.float (.fin x)) (.bool false) = .ok (.float (.fin x)) := rfl
/-- L90-93 test_number_type_integer_check_true -/
example (n : ℤ) : number (.int n : PyVal K) (.bool true) = .ok (.int n) := rfl
/-- L96-102 test_number_type_float_check_true -/
example (x : K) : number (.float (.fin x)) (.bool true) = .error .typeError := rfl
/-- L105-111 test_number_type_any_check_invalid -/
example (x : K) : number (.float (.fin x)) (.str "invalid") = .error .typeError := rfl
/-- L114-120 test_number_type_any_check_invalid_like -/
example (x : K) : number (.float (.fin x)) (.int 0) = .error .typeError := rfl

/-! ## `number`, the bounds -/

/-- L126-131 test_number_bounds_invalid_lower -/
example : number (.int 1 : PyVal K) (lower := .str "invalid") = .error .typeError := rfl
/-- L134-139 test_number_bounds_invalid_upper -/
example : number (.int 1 : PyVal K) (upper := .str "invalid") = .error .typeError := rfl
/-- L142-147 test_number_bounds_invalid_exclusive -/
example : number (.int 1 : PyVal K) (exclusive := .str "invalid") = .error .typeError := rfl
/-- L150-160 test_number_bounds_lower_greater_than_upper -/
example : number (.int 1 : PyVal ℚ) (lower := .int 0) (upper := .int (-1)) = .error .valueError := by
  decide +kernel
/-- L163-170 test_number_bounds_value_low_exclusive_false -/
example : number (.int 1 : PyVal ℚ) (lower := .int 2) = .error .valueError := by decide +kernel
/-- L173-181 test_number_bounds_value_low_exclusive_true -/
example : number (.int 1 : PyVal ℚ) (lower := .int 1) (exclusive := .bool true) = .error .valueError := by
  decide +kernel
/-- L184-191 test_number_bounds_value_high_exclusive_false -/
example : number (.int 1 : PyVal ℚ) (upper := .int 0) = .error .valueError := by decide +kernel
/-- L194-202 test_number_bounds_value_high_exclusive_true -/
example : number (.int 1 : PyVal ℚ) (upper := .int 1) (exclusive := .bool true) = .error .valueError := by
  decide +kernel
/-- L205-210 test_number_bounds_valid_defaults -/
example : number (.int 1 : PyVal ℚ) = .ok (.int 1) := by decide +kernel
/-- L213-219 test_number_bounds_valid_lower_exclusive_false -/
example : number (.int 1 : PyVal ℚ) (lower := .int 1) = .ok (.int 1) := by decide +kernel
/-- L222-228 test_number_bounds_valid_upper_exclusive_false -/
example : number (.int 1 : PyVal ℚ) (upper := .int 1) = .ok (.int 1) := by decide +kernel
/-- L231-239 test_number_bounds_equal_exclusive_false -/
example : number (.int 0 : PyVal ℚ) (lower := .int 0) (upper := .int 0) (exclusive := .bool false)
    = .ok (.int 0) := by decide +kernel

/-! ## `array`, the type -/

/-- L251-257 test_array_invalid -/
example (n : ℤ) : array (.int n : PyVal K) = .error .typeError := rfl
/-- L260-266 test_array_invalid_collection -/
example : array (aList : PyVal K) = .error .typeError := rfl
/-- L269-274 test_array_valid -/
example : array (floats [2] [.fin 0, .fin 0] : PyVal ℚ) = .ok ⟨"float64", [2], [.fin 0, .fin 0]⟩ := by
  decide +kernel

/-! ## `array`, the bounds -/

/-- `np.ones(3)` -/
abbrev ones3 : PyVal ℚ := floats [3] [.fin 1, .fin 1, .fin 1]
/-- `np.array([-1, 0, 1])` -/
abbrev around : PyVal ℚ := .arr ⟨"int64", [3], [.fin (-1), .fin 0, .fin 1]⟩

/-- L280-285 test_array_bounds_invalid_lower -/
example : array ones3 (lower := .str "invalid") = .error .typeError := by decide +kernel
/-- L288-293 test_array_bounds_invalid_upper -/
example : array ones3 (upper := .str "invalid") = .error .typeError := by decide +kernel
/-- L296-301 test_array_bounds_invalid_exclusive -/
example : array ones3 (lower := .int 0) (exclusive := .str "invalid") = .error .typeError := by decide +kernel
/-- L304-314 test_array_bounds_lower_greater_than_upper -/
example : array ones3 (lower := .int 0) (upper := .int (-1)) = .error .valueError := by decide +kernel
/-- L317-324 test_array_bounds_value_low_exclusive_false -/
example (x y z : ℚ) (h : x < 200) : array (floats [3] [.fin x, .fin y, .fin z]) (lower := .int 200)
    = .error .valueError := by
  simp [array, arrayLike, classObject, isinstance, arrayBounds, numberType, boolean, integerType, floatType,
    anyType, bind, Except.bind, XF.lt, h, Except.isOk, Except.toBool]
/-- L327-335 test_array_bounds_single_value_low_exclusive_false -/
example : array around (lower := .float (.fin (-1/2))) (exclusive := .bool false) = .error .valueError := by
  decide +kernel
/-- L338-346 test_array_bounds_value_low_exclusive_true -/
example (x y z : ℚ) : array (floats [3] [.fin x, .fin y, .fin z]) (lower := .npFloat .w64 (.fin x))
    (exclusive := .bool true) = .error .valueError := by
  simp [array, arrayLike, classObject, isinstance, arrayBounds, numberType, boolean, integerType, floatType,
    anyType, bind, Except.bind, XF.lt, XF.le, Except.isOk, Except.toBool]
/-- L349-357 test_array_bounds_single_value_low_exclusive_true -/
example : array around (lower := .int (-1)) (exclusive := .bool true) = .error .valueError := by decide +kernel
/-- L360-367 test_array_bounds_value_high_exclusive_false -/
example (x y z : ℚ) (h : -200 < x) : array (floats [3] [.fin x, .fin y, .fin z]) (upper := .int (-200))
    = .error .valueError := by
  simp [array, arrayLike, classObject, isinstance, arrayBounds, numberType, boolean, integerType, floatType,
    anyType, bind, Except.bind, XF.lt, h, Except.isOk, Except.toBool]
/-- L370-378 test_array_bounds_single_value_high_exclusive_false -/
example : array around (upper := .float (.fin (1/2))) (exclusive := .bool false) = .error .valueError := by
  decide +kernel
/-- L381-389 test_array_bounds_value_high_exclusive_true -/
example (x y z : ℚ) : array (floats [3] [.fin x, .fin y, .fin z]) (upper := .npFloat .w64 (.fin x))
    (exclusive := .bool true) = .error .valueError := by
  simp [array, arrayLike, classObject, isinstance, arrayBounds, numberType, boolean, integerType, floatType,
    anyType, bind, Except.bind, XF.lt, XF.le, Except.isOk, Except.toBool]
/-- L392-400 test_array_bounds_single_value_high_exclusive_true -/
example : array around (upper := .int 1) (exclusive := .bool true) = .error .valueError := by decide +kernel
/-- L403-408 test_array_bounds_valid_defaults -/
example (a : NpArr ℚ) : array (.arr a) = .ok a := by
  simp [array, arrayLike, classObject, isinstance, bind, Except.bind, pure, Except.pure]
/-- L411-417 test_array_bounds_valid_lower_exclusive_false -/
example (x y z : ℚ) (hx : -200 ≤ x) (hy : -200 ≤ y) (hz : -200 ≤ z) :
    array (floats [3] [.fin x, .fin y, .fin z]) (lower := .int (-200))
      = .ok ⟨"float64", [3], [.fin x, .fin y, .fin z]⟩ := by
  simp [array, arrayLike, classObject, isinstance, arrayBounds, numberType, boolean, integerType, floatType,
    anyType, bind, Except.bind, XF.lt, not_lt.2 hx, not_lt.2 hy, not_lt.2 hz, Except.isOk, Except.toBool, pure,
    Except.pure]
/-- L420-426 test_array_bounds_valid_upper_exclusive_false -/
example (x y z : ℚ) (hx : x ≤ 200) (hy : y ≤ 200) (hz : z ≤ 200) :
    array (floats [3] [.fin x, .fin y, .fin z]) (upper := .int 200)
      = .ok ⟨"float64", [3], [.fin x, .fin y, .fin z]⟩ := by
  simp [array, arrayLike, classObject, isinstance, arrayBounds, numberType, boolean, integerType, floatType,
    anyType, bind, Except.bind, XF.lt, not_lt.2 hx, not_lt.2 hy, not_lt.2 hz, Except.isOk, Except.toBool, pure,
    Except.pure]
/-- L429-437 test_array_bounds_equal_exclusive_false -/
example : array (floats [3] [.fin 0, .fin 0, .fin 0] : PyVal ℚ) (lower := .int 0) (upper := .int 0)
    (exclusive := .bool false) = .ok ⟨"float64", [3], [.fin 0, .fin 0, .fin 0]⟩ := by decide +kernel

/-! ## `array`, the dimensions -/

/-- `np.ones(n)` -/
abbrev ones (n : ℕ) : PyVal ℚ := floats [n] (List.replicate n (.fin 1))
/-- `np.ones((1,1))` -/
abbrev ones11 : PyVal ℚ := floats [1, 1] [.fin 1]

/-- L443-448 test_array_dimensions_invalid_number -/
example : array (ones 10) (numDimensions := .str "invalid") = .error .typeError := by decide +kernel
/-- L451-457 test_array_dimensions_valid_params_1D -/
example : (array (ones 10) (numDimensions := .int 1)).map (fun a => a.shape.length) = .ok 1 := by decide +kernel
/-- L460-466 test_array_dimensions_valid_params_2D -/
example : (array ones11 (numDimensions := .int 2)).map (fun a => a.shape.length) = .ok 2 := by decide +kernel
/-- L469-478 test_array_dimensions_invalid_params -/
example : array ones11 (numDimensions := .int 1) = .error .invalidDimensionsError := by decide +kernel

/-! ## `array`, the dtype -/

/-- `np.ones(12).astype(str)`; the data of string arrays is not modelled -/
abbrev strings12 : PyVal ℚ := .arr ⟨"<U32", [12], []⟩

/-- L484-490 test_array_type_valid -/
example : (array (ones 12) (dtype := .str "float64")).isOk = true := by decide +kernel
/-- L493-499 test_array_type_valid_string_type -/
example : (array strings12 (dtype := .str "<U32")).isOk = true := by decide +kernel
/-- L502-510 test_array_type_invalid -/
example : array (ones 12) (dtype := .str "<U32") = .error .typeError := by decide +kernel
/-- L513-520 test_array_type_invalid_input -/
example : array (ones 12) (dtype := .bool true) = .error .typeError := by decide +kernel

/-! ## `same_shape_arrays` -/

/-- L529-533 test_same_shape_arrays -/
example : sameShapeArrays [floats [1] [.fin 0], ones 1] 2 = .ok () := by decide +kernel
/-- L536-544 test_same_shape_arrays_arrays_list_size_1 -/
example : sameShapeArrays [(floats [1] [.fin 0] : PyVal ℚ)] 1 = .error .attributeError := by decide +kernel
/-- L547-555 test_same_shape_arrays_names_list_wrong_length -/
example : sameShapeArrays [floats [1] [.fin 0], ones 1] 1 = .error .attributeError := by decide +kernel
/-- L558-570 test_same_shape_arrays_wrong_shapes -/
example : sameShapeArrays [floats [2] [.fin 0, .fin 0], ones 1] 2 = .error .invalidShapeError := by
  decide +kernel
/-- L573-580 test_same_shape_arrays_not_array -/
example : sameShapeArrays [floats [2] [.fin 0, .fin 0], (.str "string" : PyVal ℚ)] 2 = .error .typeError := by
  decide +kernel

/-! ## `class_object` -/

/-- L589-594 test_class_int_object -/
example : classObject (.int 4 : PyVal K) .int = .ok (.int 4) := rfl
/-- L597-602 test_class_float_object -/
example : classObject (.float (.fin 4) : PyVal K) .float = .ok (.float (.fin 4)) := rfl
/-- L605-610 test_class_array_object -/
example : classObject (floats [1] [.fin 4] : PyVal K) .ndarray = .ok (floats [1] [.fin 4]) := rfl
/-- L613-621 test_class_unequal_class -/
example : classObject (.int 4 : PyVal K) .str = .error .typeError := rfl

end
end Beyonce.Conformance
