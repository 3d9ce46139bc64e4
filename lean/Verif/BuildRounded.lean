import Verif.BuildGrid
import Verif.GridRounded
import Verif.GeometryRounded

/-!
# Building a grid with rounding

`BuildGrid.lean` once more, with a rounding function after every float operation: the loops over the scale
factors, `np.interp` and the vectors of one cell.  What is stored where does not depend on rounding, so the
cubes are described here by the columns alone (`cellFor`, `layer`); the loops that fill them are those of
`BuildGrid.lean`.  Comparisons, minima, flips and concatenations are exact.

The plain model is the case of exact arithmetic (`column_exact` in `Props/BuildRounded`).  Overflow and underflow
are not modelled, nor is the contraction of `a * b + c` into one operation.
-/

namespace Beyonce
namespace BuildRounded
section
variable {K : Type} [Field K] [LinearOrder K] (L : FloatLib K)

/-! ## `np.interp` -/

/-- The value on the segment from sample `j` to the next one (`arr_interp` in numpy's compiled_base.c). -/
def segment (x : XF K) (xp fp : List (XF K)) (j : ℕ) : XF K :=
  let slope := L.div (L.sub (sampleAt fp (j + 1)) (sampleAt fp j)) (L.sub (sampleAt xp (j + 1)) (sampleAt xp j))
  let v := L.add (L.mul slope (L.sub x (sampleAt xp j))) (sampleAt fp j)
  if v.isNan then
    let v := L.add (L.mul slope (L.sub x (sampleAt xp (j + 1)))) (sampleAt fp (j + 1))
    if v.isNan && XF.eqb (sampleAt fp j) (sampleAt fp (j + 1)) then sampleAt fp j else v
  else v

/-- One value of `np.interp` and the next guess.  The search only compares. -/
def interpOne (xp fp : List (XF K)) (x : XF K) (guess : ℕ) : XF K × ℕ :=
  if xp.length = 1 then (sampleAt fp 0, guess)
  else if x.isNan then (x, guess)
  else if XF.lt (sampleAt xp (xp.length - 1)) x then (sampleAt fp (fp.length - 1), xp.length)
  else if XF.lt x (sampleAt xp 0) then (sampleAt fp 0, 0)
  else
    match searchInside x xp guess with
    | 0 => (sampleAt fp 0, 0)
    | j + 1 => (if j = xp.length - 1 then sampleAt fp j
      else if XF.eqb (sampleAt xp j) x then sampleAt fp j
      else segment L x xp fp j, j)

/-- `np.interp(xs, xp, fp)` from a guess on. -/
def interpFrom (xp fp : List (XF K)) : List (XF K) → ℕ → List (XF K)
  | [], _ => []
  | x :: xs, guess =>
    (interpOne L xp fp x guess).1 :: interpFrom xp fp xs (interpOne L xp fp x guess).2

/-- `np.interp(xs, xp, fp)`. -/
def npInterp (xs xp fp : List (XF K)) : List (XF K) := interpFrom L xp fp xs 0

/-! ## Scale factors -/

/-- L393-422 `_generate_fxy_array`. -/
def fxyArray (maxValue : XF K) (shift : ℕ) (num : ℕ) : List (XF K) :=
  let lo := if shift = 1 then .fin 1 else L.mul (.fin ((shift : K) - 1)) maxValue
  let hi := L.mul (.fin (shift : K)) maxValue
  GridRounded.linspace L.rnd lo hi num

/-- L774 and L846: has the loop gone too far? -/
def tooFar (maxValue : XF K) (shift : ℕ) : Bool :=
  XF.lt (L.mul (.fin 100) maxValue) (.fin (shift : K))

/-- The scale factors of one round of L754-759: `fx` and `fy`, flipped. -/
def horizontalScales (c : Shallot.Cell K) (shift : ℕ) : List (XF K × XF K) :=
  ((fxyArray L c.maxX shift c.num).map fun fx => (fx, GeometryRounded.determineFy L c.dy fx)).reverse

/-- The scale factors of one round of L826-831. -/
def verticalScales (c : Shallot.Cell K) (shift : ℕ) : List (XF K × XF K) :=
  (fxyArray L c.maxY shift c.num).map fun fy => (GeometryRounded.determineFx L c.dy fy, fy)

/-- The disk radii of scale factors, L760-761, L832-833. -/
def radii (c : Shallot.Cell K) (l : List (XF K × XF K)) : List (XF K) :=
  l.map fun f => (GeometryRounded.diskParameters L f.1 f.2 c.shear c.radius).1

/-- The loop of L753-775; `none` means that it does not end. -/
def horizontalLoop (c : Shallot.Cell K) (shift : ℕ) (fy radius : List (XF K)) :
    Option (Except Err (List (XF K) × List (XF K))) :=
  let scales := horizontalScales L c shift
  let r := radii L c scales
  let fy := scales.map Prod.snd ++ fy
  let radius := r ++ radius
  if XF.lt (L.div (r.headD .nan) (nanminOf radius)) c.maxRf then
    if tooFar L c.maxX (shift + 1) then some (.error .attributeError)
    else horizontalLoop c (shift + 1) fy radius
  else if tooFar L c.maxX shift then some (.error .attributeError)
  else some (.ok (fy, radius))
partial_fixpoint

/-- The loop of L825-847. -/
def verticalLoop (c : Shallot.Cell K) (shift : ℕ) (fy radius : List (XF K)) :
    Option (Except Err (List (XF K) × List (XF K))) :=
  let scales := verticalScales L c shift
  let r := radii L c scales
  let fy := fy ++ scales.map Prod.snd
  let radius := radius ++ r
  if XF.lt (L.div (r.getLastD .nan) (nanminOf radius)) c.maxRf then
    if tooFar L c.maxY (shift + 1) then some (.error .attributeError)
    else verticalLoop c (shift + 1) fy radius
  else if tooFar L c.maxY shift then some (.error .attributeError)
  else some (.ok (fy, radius))
partial_fixpoint

/-- L852-902 `_interpolate_scale_values`: `fx` and `fy`. -/
def interpolateScales (dy : XF K) (rf fy radius : List (XF K)) :
    Except Err (List (XF K) × List (XF K)) := do
  let minimum := nanminOf radius
  let fraction := radius.map fun r => L.div r minimum
  let i ← nanargmin radius
  let x := (npInterp L rf (fraction.take (i + 1)).reverse (fy.take (i + 1)).reverse).reverse
  let y := npInterp L rf (fraction.drop i) (fy.drop i)
  let fyValid := x.dropLast ++ [sampleAt fy i] ++ y.tail
  .ok (fyValid.map (GeometryRounded.determineFx L dy), fyValid)

/-- L970-987: the vectors of one cell. -/
def column (c : Shallot.Cell K) (rf : List (XF K)) : Except Err (Shallot.Column K) := do
  let h ← Shallot.ended (horizontalLoop L c 1 [] [])
  let v ← Shallot.ended (verticalLoop L c 1 h.1 h.2)
  let (fx, fy) ← interpolateScales L c.dy rf v.1 v.2
  let disks := (fx.zip fy).map fun f => GeometryRounded.diskParameters L f.1 f.2 c.shear c.radius
  .ok ⟨v.1, v.2, disks.map Prod.fst, disks.map fun d => d.2.1, disks.map fun d => d.2.2, fx, fy⟩

/-! ## The grid -/

/-- What the loops read for cell `(y, x)`: L744-747, L816-819, with L354-390. -/
def cellFor (g : GridParams K) (num y x : ℕ) : Shallot.Cell K :=
  ⟨g.dy.data.getD y .nan, GeometryRounded.shear L (g.dx.data.getD x .nan) (g.dy.data.getD y .nan),
    GeometryRounded.circularRadius L (g.dy.data.getD y .nan), npMax g.dx.data, npMax g.dy.data,
    g.rf.data.getLastD .nan, num⟩

/-- L961-994: element `(y, x, r)` of a cube after the build; a cell without shear stays NaN, as does one whose
column cannot be made (then the build raises). -/
def layer (g : GridParams K) (num : ℕ) (sel : Shallot.Column K → List (XF K)) (y x r : ℕ) : XF K :=
  if (cellFor L g num y x).shear.isNan then .nan
  else match column L (cellFor L g num y x) g.rf.data with
    | .ok c => (sel c).getD r .nan
    | .error _ => .nan

end
end BuildRounded
end Beyonce
