import Mathlib.Analysis.SpecialFunctions.Trigonometric.Basic
import Verif.Ring

/-!
# `Ring.get_patch`, `/repo/Ring.py` L218-291

Over the real numbers.  Matplotlib is represented by the list of path vertices of its
normalised ellipse (a parameter of the model) and by the numbers handed to `PathPatch`.
-/

namespace Beyonce

/-- A point of the plane: a row of a vertex array. -/
abbrev Pt := ℝ × ℝ

/-- What `PathPatch` is given, Ring.py L282-289: the vertices (outer, then inner boundary),
the path codes and the opacity. -/
structure Patch (C : Type) where
  outer : List Pt
  inner : List Pt
  codes : List C
  alpha : ℝ

/-- `np.deg2rad`. -/
noncomputable def deg2rad (x : ℝ) : ℝ := x * (Real.pi / 180)

/-- A row of `np.dot(annulus, rotation_matrix)` with the matrix of Ring.py L270-271. -/
noncomputable def rotateRow (phi : ℝ) (p : Pt) : Pt :=
  (p.1 * Real.cos phi + p.2 * Real.sin phi, p.1 * Real.sin phi + p.2 * -Real.cos phi)

/-- A vertex of the outer boundary, Ring.py L274, L278. -/
noncomputable def outerVertex (radius inc phi : ℝ) (centre p : Pt) : Pt :=
  let q := rotateRow phi (radius * p.1 * 1, radius * p.2 * Real.cos inc)
  (centre.1 + q.1, centre.2 + q.2)

/-- A vertex of the inner boundary, Ring.py L275, L279. -/
noncomputable def innerVertex (radius inc phi : ℝ) (centre p : Pt) : Pt :=
  let q := rotateRow phi (radius * p.1 * -1, radius * p.2 * Real.cos inc)
  (centre.1 + q.1, centre.2 + q.2)

/-- The numeric part of `get_patch`; `none` if some number is not finite (not modelled). -/
noncomputable def patchOf {C : Type} (verts : List Pt) (codes : List C) (r : RingObj ℝ)
    (xs ys : XF ℝ) : Option (Patch C) :=
  match r.inner, r.outer, r.transmission, r.inclination, r.tilt, xs, ys with
  | .fin ri, .fin ro, .fin t, .fin i, .fin phi, .fin x, .fin y =>
    some { outer := verts.map (outerVertex ro (deg2rad i) (deg2rad phi) (x, y))
           inner := verts.map (innerVertex ri (deg2rad i) (deg2rad phi) (x, y))
           codes := codes ++ codes
           alpha := 1 - t }
  | _, _, _, _, _, _, _ => none

/-- Ring.py L218-291 `get_patch`; `verts`/`codes` are those of `Ellipse(…).get_path()`. -/
noncomputable def getPatch {C : Type} (verts : List Pt) (codes : List C) (r : RingObj ℝ)
    (xShift yShift faceColor : PyVal ℝ) : Except Err (Option (Patch C)) := do
  let x ← number xShift
  let y ← number yShift
  let _ ← string faceColor
  .ok (patchOf verts codes r x.num y.num)

end Beyonce
