import Verif.RingDraw
import Verif.PatchRounded

/-!
# `RingSystem.plot` with rounding

`RingDraw.lean` once more, with a rounding function after every float operation.  Overflow is not modelled, nor
the wider limits that matplotlib chooses when the two limits of an axis are equal.
-/

namespace Beyonce
namespace DrawRounded

section
variable {K : Type} [Field K] [LinearOrder K] (L : FloatLib K)

/-- The limits of RingSystem.py L698-700; the upper y limit is made from `x_shift`, as there. -/
def plotLimits (s : RSys K) (xShift yShift : XF K) : Except Err ((XF K × XF K) × (XF K × XF K)) :=
  match s.rings.getLast? with
  | none => .error .indexError
  | some r =>
    .ok ((L.sub (L.sub xShift r.outer) (.fin 2), L.add (L.add xShift r.outer) (.fin 2)),
         (L.sub (L.sub yShift r.outer) (.fin 2), L.add (L.add xShift r.outer) (.fin 2)))

end

section
variable {C : Type} (L : FloatLib ℝ)

/-- The loop of RingSystem.py L649-651. -/
noncomputable def ringPatches (fused : Bool) (verts : List Pt) (codes : List C) (x y color : PyVal ℝ) :
    List (RingObj ℝ) → Except Err (List (Artist C))
  | [] => .ok []
  | r :: rest => do
    let p ← PatchRounded.getPatch L fused verts codes r x y color
    let ps ← ringPatches fused verts codes x y color rest
    .ok (.ring p :: ps)

/-- RingSystem.py L610-653 `_get_patches`. -/
noncomputable def systemPatches (fused : Bool) (verts : List Pt) (codes : List C) (s : RSys ℝ)
    (xShift yShift faceColor : PyVal ℝ) : Except Err (List (Artist C)) := do
  let x ← number xShift
  let y ← number yShift
  let color ← string faceColor
  let rings ← ringPatches L fused verts codes x y (.str color) s.rings
  .ok (.disc x.num y.num s.planet :: rings)

/-- RingSystem.py L655-703 `plot`. -/
noncomputable def plotSystem (fused : Bool) (verts : List Pt) (codes : List C) (s : RSys ℝ)
    (xShift yShift faceColor : PyVal ℝ) : Meth (Axes C) Unit := do
  let ps ← Meth.lift (systemPatches L fused verts codes s xShift yShift faceColor)
  Meth.modify fun ax => { ax with patches := ax.patches ++ ps }
  let lims ← Meth.lift (plotLimits L s xShift.num yShift.num)
  setXLim lims.1
  setYLim lims.2

end
end DrawRounded
end Beyonce
