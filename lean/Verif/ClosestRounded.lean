import Verif.Shallot
import Verif.GeometryRounded

/-!
# The closest grid point with rounding

`Shallot.closestPoint` once more, with a rounding function after every float operation.  The numbers of rows are
converted to floats exactly, and the choice of the smallest distance only compares.  Overflow and underflow are
not modelled.
-/

namespace Beyonce
namespace ClosestRounded

section
variable {K : Type} [Field K] [LinearOrder K] (L : FloatLib K)

/-- Shallot.py L1993-2001: the position of row `k`. -/
def rowPosition (dy : List (XF K)) (impact : XF K) (k : ℕ) : XF K :=
  let yMin := dy.headD .nan
  let yMax := dy.getLastD .nan
  let yy := L.add (L.mul (L.div (.fin (k : K)) (.fin (dy.length : K))) (L.sub yMax yMin)) yMin
  if XF.lt impact (.fin 0) then if XF.lt (.fin 0) yy then .fin (10 ^ 7) else yy
  else if XF.lt (.fin 0) impact then if XF.lt yy (.fin 0) then .fin (-(10 ^ 7)) else yy
  else yy

/-- L2004-2009: the distance of one grid point. -/
def distance (radius inclination tilt impact : XF K) (gr gi gt row : XF K) : XF K :=
  L.sqrtX (L.add (L.add (L.add (L.sq (L.sub gr radius)) (L.sq (L.sub gi inclination))) (L.sq (L.sub gt tilt)))
    (L.sq (L.sub row impact)))

/-- The distances of all grid points. -/
def distances (radius inclination tilt impact : XF K) (dy : List (XF K)) (a b c : ℕ)
    (gr gi gt : Nd K) : Nd K :=
  cubeOf a b c fun y x r => distance L radius inclination tilt impact (gr.at3 y x r) (gi.at3 y x r)
    (gt.at3 y x r) (rowPosition L dy impact y)

/-- L1925-2032 `determine_closest_grid_point`. -/
def closestPoint (radius inclination tilt impact : PyVal K)
    (masked : PyVal K := .bool true) : Meth (Shallot K) (Shallot.Closest K) := do
  let radius ← Meth.lift (number radius (.bool false) (.int 0))
  let inclination ← Meth.lift (number inclination (.bool false) (.int 0) (.int 90))
  let tilt ← Meth.lift (number tilt (.bool false) (.int (-180)) (.int 180))
  let impact ← Meth.lift (number impact)
  let m ← Meth.lift (boolean masked)
  let gr ← Shallot.getCube .diskRadius (.bool m)
  let gi ← Shallot.getCube .inclination (.bool m)
  let gt ← Shallot.getCube .tilt (.bool m)
  let self ← Meth.get
  let g := self.params
  Meth.lift (Shallot.closestOf g (distances L radius.num inclination.num tilt.num impact.num g.dy.data
    g.gridShape.1 g.gridShape.2.1 g.gridShape.2.2 gr gi gt))

end
end ClosestRounded
end Beyonce
