import Verif.Viewer
import Verif.GridRounded

/-!
# `GridPropertyViewer` with rounding

`Viewer.lean` once more (the lines are those of `/repo/GridProperty.py`), with a rounding function after every float
operation.  What does not compute with floats is taken from there.
-/

namespace Beyonce
section
variable {K : Type} [Field K] [LinearOrder K] (rnd : K → K)

namespace ViewerRounded

/-- One coordinate in the loop of L845-853: its mark if it is near the slice. -/
def mark (self : Viewer K) (coordinate : List (XF K)) : Except Err (Option (XF K × XF K)) := do
  let value ← pyIndex self.sliceValues self.index
  let c ← pyIndex coordinate self.axis
  let distance := ((value.sub c).round rnd).abs
  if XF.lt distance self.tolerance then
    let m ← markOf coordinate self.axis
    .ok (some m)
  else .ok none

/-- The loop of L845-853; `plotted` is whether any mark was made. -/
def plotLoop : List (List (XF K)) → Bool → Meth (Viewer K) Bool
  | [], plotted => pure plotted
  | c :: cs, plotted => do
    let self ← Meth.get
    let m ← Meth.lift (mark rnd self c)
    match m with
    | some p => do
      Meth.modify fun v => { v with lines := v.lines ++ [p] }
      plotLoop cs true
    | none => plotLoop cs plotted

/-- L837-856 `plot_coordinates`; the lines are only cleared if nothing was plotted. -/
def plotCoordinates : Meth (Viewer K) Unit := do
  let self ← Meth.get
  match self.coordinates with
  | none => pure ()
  | some cs => do
    let plotted ← plotLoop rnd cs false
    if plotted then pure () else Meth.modify ({ · with lines := [] })

/-- L824-834 `update`. -/
def update : Meth (Viewer K) Unit := do
  let self ← Meth.get
  let slice ← Meth.lift (npTake self.data self.index self.axis)
  Meth.modify ({ · with image := slice })
  plotCoordinates rnd
  Viewer.updateTitle

/-- L800-821 `onscroll`. -/
def onscroll (button : String) : Meth (Viewer K) Unit := do
  let self ← Meth.get
  if self.frozen then pure ()
  else do
    Meth.set { self with index := self.scrolled button }
    update rnd

/-- L652: a third of the distance of the first two slices. -/
def toleranceOf (values : List (XF K)) : Except Err (XF K) := do
  let b ← pyIndex values 1
  let a ← pyIndex values 0
  .ok (((((b.sub a).round rnd).abs).div (.fin 3)).round rnd)

/-- L738-770 `determine_extent`. -/
def determineExtent (axis : ℕ) (g : GridParams K) : Except Err (List (XF K)) := do
  let x0 ← pyIndex g.dx.data 0
  let x1 ← pyIndex g.dx.data (-1)
  let y0 ← pyIndex g.dy.data 0
  let y1 ← pyIndex g.dy.data (-1)
  let r0 ← pyIndex g.rf.data 0
  let r1 ← pyIndex g.rf.data (-1)
  let r := [.fin 0, ((XF.fin 2).mul ((r1.sub r0).round rnd)).round rnd]
  .ok (match axis with
    | 0 => r ++ [x0, x1]
    | 1 => r ++ [y0, y1]
    | _ => [x0, x1, y0, y1])

/-- The label at a location of the horizontal axis, `set_rf_ticklabels` L773-797. -/
def rfLabel (rf0 rf1 location : XF K) : XF K :=
  ((XF.fin 1).add ((location.sub ((rf1.sub rf0).round rnd)).round rnd).abs).round rnd

/-- The viewer as far as it is built before the first `update`, L639-677. -/
def start (data : Nd K) (g : GridParams K) (axis : PyVal K) (index : PyVal K)
    (coordinates : Option (List (List (XF K)))) : Except Err (Viewer K) := do
  let values := Viewer.vectorOf g axis.toInt.toNat
  let index ← Viewer.indexOf index values.length
  Viewer.checkCoordinates coordinates
  let tolerance ← toleranceOf rnd values
  Viewer.noBool index
  let value ← pyIndex values index.toInt
  let _ ← determineExtent rnd axis.toInt.toNat g
  Viewer.noBool axis
  let slice ← npTake data index.toInt axis.toInt.toNat
  .ok ⟨axis.toInt.toNat, data, values, index.toInt, coordinates, tolerance, false, slice,
    (value, none), []⟩

/-- L679-682: the first update, and `frozen`. -/
def finish (frozen : PyVal K) (v : Viewer K) : Except Err (Viewer K) :=
  match update rnd v with
  | (.error e, _) => .error e
  | (.ok _, v) => if frozen = .none then .ok v else do
    let f ← boolean frozen
    .ok { v with frozen := f }

/-- L600-682 `__init__` as a method of the property that is shown: `get_data` may write NaN into it.
(The classes of `ax` and `grid_property` are Lean types.) -/
def new (axis : PyVal K) (masked : PyVal K) (index : PyVal K := .none)
    (frozen : PyVal K := .bool false) (coordinates : Option (List (List (XF K))) := none) :
    Meth (GProp K) (Viewer K) := do
  let axis ← Meth.lift (number axis (.bool true) (.int 0) (.int 2))
  let data ← GProp.getData masked
  let p ← Meth.get
  let v ← Meth.lift (start rnd data p.params axis index coordinates)
  Meth.lift (finish rnd frozen v)

end ViewerRounded
end
end Beyonce
