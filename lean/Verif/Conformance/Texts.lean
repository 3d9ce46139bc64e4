import Verif.Texts
import Verif.Conformance.Ring
import Verif.Conformance.RingSystem
import Verif.Conformance.GridDiagnostics
import Verif.Conformance.GridProperty
import Verif.Conformance.GridGradient
import Verif.Conformance.Viewer

/-!
# The texts that the tests in `/repo` expect

`test_print`, `test_repr` and `test_str` of all test files, letter by letter.
-/

namespace Beyonce.Conformance.Texts
open Beyonce

/-- `/repo/test_ring.py` L241-250 test_print -/
example : (newRing (.int 0) (.int 1) (.float (.fin (1/2 : ℚ)))).map RingObj.text = .ok (
      "\n============================\n***** RING INFORMATION *****\n==========================" ++
      "==\n\nInner Radius:   0.0000 [R*]\nOuter Radius:   1.0000 [R*]\nTransmission:   0.5000 [" ++
      "-]\nInclination:    0.0000 [deg]\nTilt:           0.0000 [deg]\n\n======================" ++
      "======") := by decide +kernel
/-- `/repo/test_ring_system.py` L288-340 test_repr -/
example : (RingSystem.system).report.text =
      "\n======================================================================\n**************" ++
      "******** RING SYSTEM INFORMATION ***********************\n==============================" ++
      "========================================\n\nGeometric Parameters\n--------------------\n" ++
      "\nPlanet Radius:    0.50 [R*]\nInclination:     75.00 [deg]\nTilt:            37.00 [deg" ++
      "]\n\n\nRing Parameters\n---------------\n\nRing #     Inner Radius     Outer Radius     " ++
      "Transmission\n   1            1.00            6.00              0.20\n   2            6." ++
      "00           10.00              0.80\n   3           10.00           15.00              " ++
      "0.30\n   4           20.00           30.00              0.70\n\n========================" ++
      "==============================================" := by decide +kernel
/-- `/repo/test_grid_parameters.py` L10-23 test_repr and test_str -/
example : ((GridParams.new (.int 0) (.int 1) (.int 2) (.int 0) (.int 1) (.int 2) (.int 2) (.int 2)
      : Except Err (GridParams ℚ)).bind GridParams.report).map ParamsReport.text = .ok (
      "\nGrid Parameters\n----------------------------\ndx:   0.00 ->   1.00 (2)\ndy:   0.00 ->" ++
      "   1.00 (2)\nrf:   2.00 ->   1.00 ->   2.00 (3)\ngrid_shape: (2, 2, 3)") := by decide +kernel
/-- `/repo/test_grid_diagnostics.py` L22-49 test_repr, test_str -/
example : GridDiagnostics.diag.map (fun d => diagnosticsText d.report) = .ok
      "\nGrid Diagnostics\n----------------------------\ndiagnostics saved: 0" := by
  decide +kernel
/-- `/repo/test_grid_diagnostics.py` L22-49 test_repr_with_diagnostics, test_str_with_diagnostics -/
example : (GridDiagnostics.stored GridDiagnostics.diag 0 0 [0] [1]).map (fun d => diagnosticsText d.report) = .ok
      "\nGrid Diagnostics\n----------------------------\ndiagnostics saved: 1" := by
  decide +kernel
/-- `/repo/test_grid_property.py` L37-42 test_repr -/
example : (GridProperty.fixture.bind GProp.report).map PropReport.text = .ok (
      "\nDisk Radius [$t_{ecl}$]\n----------------------------\nmin value:           0.0000\nma" ++
      "x value:         846.0000\nmean value:        423.0000\nmedian value:      423.0000") := by decide +kernel
/-- `/repo/test_grid_property.py` L27-34 test_str -/
example : (GridProperty.fixture.bind fun p => do
      let r ← p.report
      let g ← p.params.report
      .ok (r.textWith g)) = .ok (
      "\nDisk Radius [$t_{ecl}$]\n----------------------------\nmin value:           0.0000\nma" ++
      "x value:         846.0000\nmean value:        423.0000\nmedian value:      423.0000\n\nG" ++
      "rid Parameters\n----------------------------\ndx:   0.00 ->   1.00 (11)\ndy:   0.00 ->  " ++
      " 1.00 (11)\nrf:   5.00 ->   1.00 ->   5.00 (7)\ngrid_shape: (11, 11, 7)") := by decide +kernel
/-- `/repo/test_grid_property.py` L45-54 test_repr_mask -/
example : (GridProperty.masked.bind GProp.report).map PropReport.text = .ok (
      "\nDisk Radius [$t_{ecl}$]\n----------------------------\nmin value:           0.0000\nma" ++
      "x value:         846.0000\nmean value:        423.0000\nmedian value:      423.0000\n\nm" ++
      "ask [out]:        100.0000%") := by decide +kernel
/-- `/repo/test_grid_property.py` L199-208 test_plot_slice -/
example : (GridProperty.returned GridProperty.fixture (GProp.plotSlice (.int 2) (.int 0))).map
      (fun p => p.viewer.titleText .diskRadius .eclipseDuration) = .ok
      "Disk Radius [$t_{ecl}$] - $R_f$ = 5.0000 - horizontal" := by decide +kernel
/-- `/repo/test_grid_gradient.py` L36-41 test_repr -/
example : (GridGradient.fixture.bind GGrad.report).map GradReport.text = .ok (
      "\nGradient [-] @ pos =  0.2000\n----------------------------\nmin value:           0.000" ++
      "0\nmax value:         846.0000\nmean value:        423.0000\nmedian value:      423.0000") := by decide +kernel
/-- `/repo/test_grid_gradient.py` L26-33 test_str -/
example : (GridGradient.fixture.bind fun g => do
      let r ← g.report
      let p ← g.prop.params.report
      .ok (r.textWith p)) = .ok (
      "\nGradient [-] @ pos =  0.2000\n----------------------------\nmin value:           0.000" ++
      "0\nmax value:         846.0000\nmean value:        423.0000\nmedian value:      423.0000" ++
      "\n\nGrid Parameters\n----------------------------\ndx:   0.00 ->   1.00 (11)\ndy:   0.00" ++
      " ->   1.00 (11)\nrf:   5.00 ->   1.00 ->   5.00 (7)\ngrid_shape: (11, 11, 7)") := by decide +kernel
/-- `/repo/test_grid_gradient.py` L44-54 test_repr_mask -/
example : ((GridGradient.called GridGradient.fixture (GGrad.determineMask (.float (.fin (3/10))) (.float
      (.fin (6/5))))).bind GGrad.report).map GradReport.text = .ok (
      "\nGradient [-] @ pos =  0.2000\n----------------------------\nmin value:           0.000" ++
      "0\nmax value:         846.0000\nmean value:        423.0000\nmedian value:      423.0000" ++
      "\n\nmask [out]:          0.1181%\nmeasured gradient:   0.3000\nmeasured error:      1.00" ++
      "00\norbital scale:       1.2000\ntransmission change: 1.0000") := by decide +kernel
/-- `/repo/test_grid_property_viewer.py` L416-435 test_repr -/
example : (Viewer.viewer 2 true (.int 0) true).map (·.text .diskRadius .eclipseDuration) = .ok (
      "\nGrid Property Viewer\n----------------------------\nDisk Radius [$t_{ecl}$] - $R_f$ = " ++
      "5.0000 - horizontal") := by decide +kernel
/-- `/repo/test_grid_property_viewer.py` L438-457 test_str -/
example : (Viewer.viewer 2 true (.int 8) true).map (·.text .diskRadius .eclipseDuration) = .ok (
      "\nGrid Property Viewer\n----------------------------\nDisk Radius [$t_{ecl}$] - $R_f$ = " ++
      "5.0000 - vertical") := by decide +kernel

end Beyonce.Conformance.Texts
