import Verif.Viewer

/-!
# `/repo/GridProperty.py`, `plot_cube` L220-245 and `plot_slice` L248-285

A figure is the viewer that draws it and what `imshow` is given besides the slice.  The window, its
colour bar, and what matplotlib makes of the name of a colour map are not modelled.
-/

namespace Beyonce

/-- What is drawn. -/
structure Picture (K : Type) where
  viewer : Viewer K
  extent : List (XF K)
  vmin : Option (XF K)
  vmax : Option (XF K)
  colorMap : String
  numColors : ℤ
  deriving DecidableEq, Repr

section
variable {K : Type} [Field K] [LinearOrder K]

/-- The viewer with the arguments of `imshow`, L667-676. -/
def pictureOf (v : Viewer K) : Meth (GProp K) (Picture K) := do
  let p ← Meth.get
  let extent ← Meth.lift (Viewer.determineExtent v.axis p.params)
  pure ⟨v, extent, p.vmin, p.vmax, p.colorMap, p.numColors⟩

/-- L248-285 `plot_slice`.  (The class of `ax` is a Lean type.) -/
def GProp.plotSlice (axis index : PyVal K) (masked : PyVal K := .bool true) :
    Meth (GProp K) (Picture K) := do
  let v ← Viewer.new axis masked index (.bool true) none
  pictureOf v

/-- L220-245 `plot_cube`. -/
def GProp.plotCube (axis : PyVal K := .int 2) (coordinates : Option (List (List (XF K))) := none)
    (masked : PyVal K := .bool true) : Meth (GProp K) (Picture K) := do
  let v ← Viewer.new axis masked .none (.bool false) coordinates
  pictureOf v

end
end Beyonce
