import Verif.RingPatch
import Verif.RingSystem

/-!
# Drawing and reading a ring system, `/repo/RingSystem.py` L267-356, L610-703

Over the real numbers.  Axes are the list of their patches and their limits.  Left out: the type
check of `ax`, `plt.gca()`, the labels, and that matplotlib widens limits that coincide.  A patch of a
ring with numbers that are not finite is `none` (see `patchOf`).
-/

namespace Beyonce

section
variable {K : Type}

/-- RingSystem.py L267-282 `get_inner_radii`. -/
def RSys.innerRadii (s : RSys K) : List (XF K) := s.rings.map (·.inner)

/-- RingSystem.py L284-299 `get_outer_radii`. -/
def RSys.outerRadii (s : RSys K) : List (XF K) := s.rings.map (·.outer)

/-- RingSystem.py L301-316 `get_transmissions`. -/
def RSys.transmissions (s : RSys K) : List (XF K) := s.rings.map (·.transmission)

/-- RingSystem.py L318-345 `get_rings_data`: three one-dimensional arrays of dtype float64. -/
def RSys.ringsData (s : RSys K) : NpArr K × NpArr K × NpArr K :=
  (⟨"float64", [s.rings.length], s.innerRadii⟩, ⟨"float64", [s.rings.length], s.outerRadii⟩,
    ⟨"float64", [s.rings.length], s.transmissions⟩)

end

/-- A patch on the axes: a `Circle` with its centre and radius, or that of a ring. -/
inductive Artist (C : Type)
  | disc (x y radius : XF ℝ)
  | ring (patch : Option (Patch C))

/-- The state of matplotlib axes. -/
structure Axes (C : Type) where
  patches : List (Artist C)
  xlim : XF ℝ × XF ℝ
  ylim : XF ℝ × XF ℝ

section
variable {C : Type}

/-- The loop of RingSystem.py L649-651. -/
noncomputable def ringPatches (verts : List Pt) (codes : List C) (x y color : PyVal ℝ) :
    List (RingObj ℝ) → Except Err (List (Artist C))
  | [] => .ok []
  | r :: rest => do
    let p ← getPatch verts codes r x y color
    let ps ← ringPatches verts codes x y color rest
    .ok (.ring p :: ps)

/-- RingSystem.py L610-653 `_get_patches`. -/
noncomputable def systemPatches (verts : List Pt) (codes : List C) (s : RSys ℝ)
    (xShift yShift faceColor : PyVal ℝ) : Except Err (List (Artist C)) := do
  let x ← number xShift
  let y ← number yShift
  let color ← string faceColor
  let rings ← ringPatches verts codes x y (.str color) s.rings
  .ok (.disc x.num y.num s.planet :: rings)

/-- `ax.set_xlim`: limits have to be finite. -/
def setXLim (l : XF ℝ × XF ℝ) : Meth (Axes C) Unit :=
  match l with
  | (.fin _, .fin _) => Meth.modify ({ · with xlim := l })
  | _ => Meth.throw .valueError

/-- `ax.set_ylim`. -/
def setYLim (l : XF ℝ × XF ℝ) : Meth (Axes C) Unit :=
  match l with
  | (.fin _, .fin _) => Meth.modify ({ · with ylim := l })
  | _ => Meth.throw .valueError

/-- RingSystem.py L655-703 `plot`. -/
noncomputable def plotSystem (verts : List Pt) (codes : List C) (s : RSys ℝ)
    (xShift yShift faceColor : PyVal ℝ) : Meth (Axes C) Unit := do
  let ps ← Meth.lift (systemPatches verts codes s xShift yShift faceColor)
  Meth.modify fun ax => { ax with patches := ax.patches ++ ps }
  let lims ← Meth.lift (plotLimits s xShift.num yShift.num)
  setXLim lims.1
  setYLim lims.2

end
end Beyonce
