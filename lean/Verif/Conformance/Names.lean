import Verif.Report

/-!
# `/repo/test_grid_property_name.py` and `/repo/test_grid_property_unit.py` on the model
-/

namespace Beyonce.Conformance.Names
open Beyonce

/-- L4-7 test_disk_radius -/
example : pretty (PropName.str .diskRadius) = "Disk Radius" := by decide +kernel
/-- L10-13 test_inclination -/
example : pretty (PropName.str .inclination) = "Inclination" := by decide +kernel
/-- L16-19 test_tilt -/
example : pretty (PropName.str .tilt) = "Tilt" := by decide +kernel
/-- L22-25 test_fx_map -/
example : pretty (PropName.str .fxMap) = "Fx Map" := by decide +kernel
/-- L28-31 test_fy_map -/
example : pretty (PropName.str .fyMap) = "Fy Map" := by decide +kernel
/-- L34-37 test_diagnostic_map -/
example : pretty (PropName.str .diagnosticMap) = "Diagnostic Map" := by decide +kernel
/-- L40-43 test_gradient -/
example : pretty (PropName.str .gradient) = "Gradient" := by decide +kernel
/-- L46-49 test_gradient_fit -/
example : pretty (PropName.str .gradientFit) = "Gradient Fit" := by decide +kernel

/-! ## Units -/

/-- L4-6 test_eclipse_duration_unit -/
example : PropUnit.symbol .eclipseDuration = "$t_{ecl}$" := rfl
/-- L9-12 test_eclipse_duration -/
example : pretty (PropUnit.str .eclipseDuration) = "Eclipse Duration" := by decide +kernel
/-- L15-17 test_degree_unit -/
example : PropUnit.symbol .degree = "$^o$" := rfl
/-- L20-23 test_degree -/
example : pretty (PropUnit.str .degree) = "Degree" := by decide +kernel
/-- L26-28 test_none_unit -/
example : PropUnit.symbol .none = "-" := rfl
/-- L31-34 test_eclipse_none -/
example : pretty (PropUnit.str .none) = "None" := by decide +kernel

end Beyonce.Conformance.Names
