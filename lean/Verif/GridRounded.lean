import Verif.GridParameters
import Verif.RingSystem

/-!
# `GridParameters` with rounding

`GridParameters.py` once more, with a rounding function applied after every float operation.
The plain model is the case of no rounding (`GridRounded.new_id`, `GridRounded.extendGrid_id` in
`Props/GridRounded`).
-/

set_option linter.unusedSectionVars false

namespace Beyonce
section
variable {K : Type} [Field K] [LinearOrder K]

namespace GridRounded

/-- `np.linspace(a, b, n)` for `n ≥ 1` (numpy/core/function_base.py), rounding after every
operation.  `start * 1.0` and `stop * 1.0` round Python integers to floats.  `arange(n)` and
`n - 1` are taken as exact, as they are below `2^53`. -/
def linspace (rnd : K → K) (a b : XF K) (n : ℕ) : List (XF K) :=
  let a := a.round rnd
  let b := b.round rnd
  let div : XF K := .fin ((n : K) - 1)
  let delta := (b.sub a).round rnd
  let step := (delta.div div).round rnd
  let y : ℕ → XF K := fun j =>
    if 1 < n then
      if XF.eqb step (.fin 0) then
        (((((XF.fin (j : K)).div div).round rnd).mul delta).round rnd |>.add a).round rnd
      else ((((XF.fin (j : K)).mul step).round rnd).add a).round rnd
    else ((((XF.fin (j : K)).mul delta).round rnd).add a).round rnd
  let l := (List.range n).map y
  if 1 < n then l.set (n - 1) b else l

/-- GridParameters.py L103-133 `_determine_dx` and L136-166 `_determine_dy`, which differ in the
shape of the vector only. -/
def determineAxis (rnd : K → K) (shape : ℕ → List ℕ) (lo hi num : PyVal K) :
    Except Err (Nd K) := do
  let lo ← number lo
  let hi ← number hi
  if XF.le hi.num lo.num then .error .valueError
  else
    let num ← number num (.bool true) (.int 1)
    let n := num.toInt.toNat
    .ok ⟨shape n, linspace rnd lo.num hi.num n⟩

/-- GridParameters.py L103-133 `_determine_dx`. -/
def determineDx (rnd : K → K) : PyVal K → PyVal K → PyVal K → Except Err (Nd K) :=
  determineAxis rnd fun n => [1, n, 1]

/-- GridParameters.py L136-166 `_determine_dy`. -/
def determineDy (rnd : K → K) : PyVal K → PyVal K → PyVal K → Except Err (Nd K) :=
  determineAxis rnd fun n => [n, 1, 1]

/-- GridParameters.py L169-196 `_determine_rf`. -/
def determineRf (rnd : K → K) (maxRf numRf : PyVal K) : Except Err (Nd K × Nd K) := do
  let maxRf ← number maxRf (.bool false) (.int 1)
  let numRf ← number numRf (.bool true) (.int 1)
  let n := numRf.toInt.toNat
  let rf := linspace rnd (.fin 1) maxRf.num n
  let rfArray := rf.reverse ++ rf.tail
  .ok (⟨[n], rf⟩, ⟨[rfArray.length], rfArray⟩)

/-- GridParameters.py L24-54 `__init__`. -/
def new (rnd : K → K) (minX maxX numX minY maxY numY maxRf numRf : PyVal K) :
    Except Err (GridParams K) := do
  let dx ← determineDx rnd minX maxX numX
  let dy ← determineDy rnd minY maxY numY
  let (rf, rfArray) ← determineRf rnd maxRf numRf
  let g := GridParams.setShapes ⟨dx, dy, rf, rfArray, (0, 0, 0), (0, 0), false⟩
  GridParams.setExtendable g

/-- GridParameters.py L217-232 `extend_grid`.  Changing a sign is exact. -/
def extendGrid (rnd : K → K) : Meth (GridParams K) Unit := do
  let self ← Meth.get
  if !self.extendable then Meth.throw .attributeError
  else
    let maxY ← Meth.lift (GridParams.lastOf self.dy)
    let maxX ← Meth.lift (GridParams.lastOf self.dx)
    let dx ← Meth.lift
      (determineDx rnd (GridParams.negVal maxX) maxX (.int (2 * self.sliceShape.2 - 1)))
    Meth.modify ({ · with dx := dx })
    let dy ← Meth.lift
      (determineDy rnd (GridParams.negVal maxY) maxY (.int (2 * self.sliceShape.1 - 1)))
    Meth.modify ({ · with dy := dy })
    Meth.modify GridParams.setShapes
    let self ← Meth.get
    let g ← Meth.lift (GridParams.setExtendable self)
    Meth.set g

end GridRounded
end
end Beyonce
