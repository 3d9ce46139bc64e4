import Verif.RingPatch
import Verif.GeometryRounded

/-!
# `Ring.get_patch` with rounding

`RingPatch.lean` once more, with a rounding function after every float operation and with the functions that
the library really computes.  Overflow and underflow are not modelled.
-/

namespace Beyonce
namespace PatchRounded
variable (L : FloatLib ℝ)

/-- `np.deg2rad`: `x * (NPY_PI / 180.0)` in numpy. -/
noncomputable def deg2rad (x : ℝ) : ℝ := L.rnd (x * L.rnd (L.pi / 180))

/-- One element of `np.dot` of rows of two; a processor may add the second product without rounding it. -/
noncomputable def dot (fused : Bool) (a b c d : ℝ) : ℝ :=
  if fused then L.rnd (L.rnd (a * c) + b * d) else L.rnd (L.rnd (a * c) + L.rnd (b * d))

/-- A vertex of either boundary, Ring.py L270-279; `sign` is 1 for the outer and -1 for the inner one. -/
noncomputable def vertex (fused : Bool) (sign radius inc phi : ℝ) (centre p : Pt) : Pt :=
  let a := L.rnd (L.rnd (radius * p.1) * sign)
  let b := L.rnd (L.rnd (radius * p.2) * L.cos inc)
  (L.rnd (centre.1 + dot L fused a b (L.cos phi) (L.sin phi)),
    L.rnd (centre.2 + dot L fused a b (L.sin phi) (-L.cos phi)))

/-- The numeric part of `get_patch`; `none` if some number is not finite (not modelled). -/
noncomputable def patchOf {C : Type} (fused : Bool) (verts : List Pt) (codes : List C) (r : RingObj ℝ)
    (xs ys : XF ℝ) : Option (Patch C) :=
  match r.inner, r.outer, r.transmission, r.inclination, r.tilt, xs, ys with
  | .fin ri, .fin ro, .fin t, .fin i, .fin phi, .fin x, .fin y =>
    some { outer := verts.map (vertex L fused 1 ro (deg2rad L i) (deg2rad L phi) (x, y))
           inner := verts.map (vertex L fused (-1) ri (deg2rad L i) (deg2rad L phi) (x, y))
           codes := codes ++ codes
           alpha := L.rnd (1 - t) }
  | _, _, _, _, _, _, _ => none

/-- Ring.py L218-291 `get_patch`; `verts`/`codes` are those of `Ellipse(…).get_path()`. -/
noncomputable def getPatch {C : Type} (fused : Bool) (verts : List Pt) (codes : List C) (r : RingObj ℝ)
    (xShift yShift faceColor : PyVal ℝ) : Except Err (Option (Patch C)) := do
  let x ← number xShift
  let y ← number yShift
  let _ ← string faceColor
  .ok (patchOf L fused verts codes r x.num y.num)

end PatchRounded
end Beyonce
