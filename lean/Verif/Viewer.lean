import Verif.GridProperty

/-!
# `/repo/GridProperty.py`, `GridPropertyViewer` L591-856

The state of the viewer without matplotlib: the image is the list of its elements, the title is its
value and direction (prefix and slice name are fixed), the lines of the axes are the marked points.
`print` and `canvas.draw` are dropped.  `self.data` is the property's own array; the model copies it,
so writes to the property after the viewer is made are not shown.
-/

namespace Beyonce

/-- The word at the end of the title, L720-723. -/
inductive Direction | horizontal | vertical deriving DecidableEq, Repr

/-- The attributes of a viewer, L628-680, with the state of its axes. -/
structure Viewer (K : Type) where
  axis : ℕ
  data : Nd K
  sliceValues : List (XF K)
  index : ℤ
  coordinates : Option (List (List (XF K)))
  tolerance : XF K
  frozen : Bool
  image : List (XF K)
  title : XF K × Option Direction
  lines : List (XF K × XF K)
  deriving DecidableEq, Repr

section
variable {K : Type}

/-- `a[i]` of a list, with Python's negative indices. -/
def pyIndex {α : Type} (l : List α) (i : ℤ) : Except Err α :=
  match l[(if i < 0 then i + l.length else i).toNat]? with
  | some x => if i < 0 ∧ i + l.length < 0 then .error .indexError else .ok x
  | none => .error .indexError

/-- The flat positions of slice `i` along `axis` of a cube of shape `(a, b, c)`, in C order. -/
def slicePositions (a b c : ℕ) (axis : ℕ) (i : ℕ) : List ℕ :=
  match axis with
  | 0 => (List.range b).flatMap fun j => (List.range c).map fun k => (i * b + j) * c + k
  | 1 => (List.range a).flatMap fun j => (List.range c).map fun k => (j * b + i) * c + k
  | _ => (List.range a).flatMap fun j => (List.range b).map fun k => (j * b + k) * c + i

/-- `np.take(data, i, axis)` of a cube (`i ≥ 0` here). -/
def npTake [Zero K] (d : Nd K) (i : ℤ) (axis : ℕ) : Except Err (List (XF K)) :=
  match d.shape with
  | [a, b, c] =>
    if 0 ≤ i ∧ i < ([a, b, c].getD axis 0 : ℕ) then
      .ok ((slicePositions a b c axis i.toNat).map fun j => d.data.getD j .nan)
    else .error .indexError
  | _ => .error .indexError

/-- `np.delete(coordinate, axis)` unpacked to `y, x`, L851. -/
def markOf (coordinate : List (XF K)) (axis : ℕ) : Except Err (XF K × XF K) :=
  match coordinate.eraseIdx axis with
  | [y, x] => .ok (x, y)
  | _ => .error .valueError

variable [Field K] [LinearOrder K]

namespace Viewer

/-- L711-725 `update_title`. -/
def updateTitle : Meth (Viewer K) Unit := do
  let self ← Meth.get
  let value ← Meth.lift (pyIndex self.sliceValues self.index)
  let middle : ℤ := (self.sliceValues.length / 2 : ℕ)
  let direction :=
    if self.axis = 2 then
      if self.index < middle then some .horizontal
      else if middle < self.index then some .vertical else none
    else none
  Meth.modify ({ · with title := (value, direction) })

/-- One coordinate in the loop of L845-853: its mark if it is near the slice. -/
def mark (self : Viewer K) (coordinate : List (XF K)) : Except Err (Option (XF K × XF K)) := do
  let value ← pyIndex self.sliceValues self.index
  let c ← pyIndex coordinate self.axis
  let distance := (value.sub c).abs
  if XF.lt distance self.tolerance then
    let m ← markOf coordinate self.axis
    .ok (some m)
  else .ok none

/-- The loop of L845-853; `plotted` is whether any mark was made. -/
def plotLoop : List (List (XF K)) → Bool → Meth (Viewer K) Bool
  | [], plotted => pure plotted
  | c :: cs, plotted => do
    let self ← Meth.get
    let m ← Meth.lift (self.mark c)
    match m with
    | some p => do
      Meth.modify fun v => { v with lines := v.lines ++ [p] }
      plotLoop cs true
    | none => plotLoop cs plotted

/-- L837-856 `plot_coordinates`; the lines are only cleared if nothing was plotted. -/
def plotCoordinates : Meth (Viewer K) Unit := do
  let self ← Meth.get
  match self.coordinates with
  | none => pure ()
  | some cs => do
    let plotted ← plotLoop cs false
    if plotted then pure () else Meth.modify ({ · with lines := [] })

/-- L824-834 `update`. -/
def update : Meth (Viewer K) Unit := do
  let self ← Meth.get
  let slice ← Meth.lift (npTake self.data self.index self.axis)
  Meth.modify ({ · with image := slice })
  plotCoordinates
  updateTitle

/-- The new index, L817-820. -/
def scrolled (self : Viewer K) (button : String) : ℤ :=
  if button = "up" ∧ self.index < (self.sliceValues.length : ℤ) - 1 then self.index + 1
  else if button ≠ "up" ∧ 0 < self.index then self.index - 1
  else self.index

/-- L800-821 `onscroll`. -/
def onscroll (button : String) : Meth (Viewer K) Unit := do
  let self ← Meth.get
  if self.frozen then pure ()
  else do
    Meth.set { self with index := self.scrolled button }
    update

/-- `get_vectors()[axis]`, L637. -/
def vectorOf (g : GridParams K) (axis : ℕ) : List (XF K) :=
  match axis with
  | 0 => g.getVectors.1
  | 1 => g.getVectors.2.1
  | _ => g.getVectors.2.2

/-- L644-650: every coordinate has three elements. -/
def checkCoordinates (coordinates : Option (List (List (XF K)))) : Except Err Unit :=
  match coordinates with
  | none => .ok ()
  | some cs => if cs.all (fun c => c.length = 3) then .ok () else .error .valueError

/-- L652: a third of the distance of the first two slices. -/
def toleranceOf (values : List (XF K)) : Except Err (XF K) := do
  let b ← pyIndex values 1
  let a ← pyIndex values 0
  .ok (((b.sub a).abs).div (.fin 3))

/-- L738-770 `determine_extent`. -/
def determineExtent (axis : ℕ) (g : GridParams K) : Except Err (List (XF K)) := do
  let x0 ← pyIndex g.dx.data 0
  let x1 ← pyIndex g.dx.data (-1)
  let y0 ← pyIndex g.dy.data 0
  let y1 ← pyIndex g.dy.data (-1)
  let r0 ← pyIndex g.rf.data 0
  let r1 ← pyIndex g.rf.data (-1)
  let r := [.fin 0, (XF.fin 2).mul (r1.sub r0)]
  .ok (match axis with
    | 0 => r ++ [x0, x1]
    | 1 => r ++ [y0, y1]
    | _ => [x0, x1, y0, y1])

/-- The label at a location of the horizontal axis, `set_rf_ticklabels` L773-797. -/
def rfLabel (rf0 rf1 location : XF K) : XF K := (XF.fin 1).add (location.sub (rf1.sub rf0)).abs

/-- L639-642. -/
def indexOf (index : PyVal K) (n : ℕ) : Except Err (PyVal K) :=
  number (if index = .none then .int ((n / 2 : ℕ) : ℤ) else index) (.bool true) (.int 0)
    (.int ((n : ℤ) - 1))

/-- `bool` passes `check_integer`, but `slice_values[True]` is an array, which the title's `:.4f`
refuses, and `np.take` refuses it as axis. -/
def noBool (v : PyVal K) : Except Err Unit :=
  match v with
  | .bool _ => .error .typeError
  | _ => .ok ()

/-- The viewer as far as it is built before the first `update`, L639-677. -/
def start (data : Nd K) (g : GridParams K) (axis : PyVal K) (index : PyVal K)
    (coordinates : Option (List (List (XF K)))) : Except Err (Viewer K) := do
  let values := vectorOf g axis.toInt.toNat
  let index ← indexOf index values.length
  checkCoordinates coordinates
  let tolerance ← toleranceOf values
  noBool index
  let value ← pyIndex values index.toInt
  let _ ← determineExtent axis.toInt.toNat g
  noBool axis
  let slice ← npTake data index.toInt axis.toInt.toNat
  .ok ⟨axis.toInt.toNat, data, values, index.toInt, coordinates, tolerance, false, slice,
    (value, none), []⟩

/-- L679-682: the first update, and `frozen`. -/
def finish (frozen : PyVal K) (v : Viewer K) : Except Err (Viewer K) :=
  match update v with
  | (.error e, _) => .error e
  | (.ok _, v) => if frozen = .none then .ok v else do
    let f ← boolean frozen
    .ok { v with frozen := f }

/-- L600-682 `__init__` as a method of the property that is shown: `get_data` may write NaN into it.
(The classes of `ax` and `grid_property` are Lean types.) -/
def new (axis : PyVal K) (masked : PyVal K) (index : PyVal K := .none)
    (frozen : PyVal K := .bool false) (coordinates : Option (List (List (XF K))) := none) :
    Meth (GProp K) (Viewer K) := do
  let axis ← Meth.lift (number axis (.bool true) (.int 0) (.int 2))
  let data ← GProp.getData masked
  let p ← Meth.get
  let v ← Meth.lift (start data p.params axis index coordinates)
  Meth.lift (finish frozen v)

end Viewer
end
end Beyonce
