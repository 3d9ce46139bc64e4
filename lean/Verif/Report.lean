import Verif.Shallot
import Verif.GridDiagnostics
import Mathlib.Data.List.Sort

/-!
# What `print` shows

`__repr__` of `GridProperty`, `GridGradient`, `GridParameters`, `GridDiagnostics` and `ShallotGrid`.
A report holds the numbers that are put into the text, in the order of the text; the digits that
`f"{x:.4f}"` leaves of them and the padding are in `Texts.lean`.  A value that is `None`
raises `TypeError` there.  The methods do not change their objects, so they are plain functions.
-/

namespace Beyonce

/-- The loop of GridPropertyName.py L37-43: the words between the underscores, capitalised and joined
by spaces.  `start` tells whether a word begins. -/
def prettyChars : Bool → List Char → List Char
  | _, [] => []
  | start, c :: cs =>
    if c = '_' then ' ' :: prettyChars true cs
    else (if start then c else c.toLower) :: prettyChars false cs

/-- GridPropertyName.py L28-45 `get_name` and GridPropertyUnit.py L10-26 `__str__`. -/
def pretty (s : String) : String := String.ofList (prettyChars true s.toList)

/-- GridPropertyUnit.py L28-37 `get_unit`. -/
def PropUnit.symbol : PropUnit → String
  | eclipseDuration => "$t_{ecl}$" | degree => "$^o$" | none => "-"

section
variable {K : Type}

/-- A value in a replacement field with a number format: `None` raises. -/
def shown {α : Type} (v : Option α) : Except Err α :=
  match v with
  | some x => .ok x
  | none => .error .typeError

variable [Field K] [LinearOrder K]

/-- The elements that are not NaN. -/
def numbersOf (l : List (XF K)) : List (XF K) := l.filter fun x => !x.isNan

/-- `np.sum`. -/
def sumOf (l : List (XF K)) : XF K := l.foldr XF.add (.fin 0)

/-- `np.nanmean`: NaN (with a warning) if there is no number. -/
def nanmean (l : List (XF K)) : XF K :=
  (sumOf (numbersOf l)).div (.fin ((numbersOf l).length : K))

/-- The numbers in increasing order. -/
def sortedNumbers (l : List (XF K)) : List (XF K) :=
  (numbersOf l).insertionSort fun a b => XF.le a b = true

/-- `np.nanmedian`: NaN (with a warning) if there is no number, else the element in the middle or the
mean of the two in the middle. -/
def nanmedian (l : List (XF K)) : XF K :=
  let s := sortedNumbers l
  let n := s.length
  if n = 0 then .nan
  else if n % 2 = 1 then s.getD (n / 2) .nan
  else ((s.getD (n / 2 - 1) .nan).add (s.getD (n / 2) .nan)).div (.fin 2)

/-- `100 * np.sum(mask) / np.prod(mask.shape)`: GridProperty.py L122-123, Shallot.py L146-147. -/
def maskedPercentage (m : Mask) : XF K :=
  (XF.fin 100).mul ((XF.fin ((m.data.count true : ℕ) : K)).div (.fin ((m.shape.prod : ℕ) : K)))

/-- The text of a `GridProperty`. -/
structure PropReport (K : Type) where
  title : String
  unit : String
  minimum : XF K
  maximum : XF K
  mean : XF K
  median : XF K
  masked : Option (XF K)
  deriving DecidableEq, Repr

/-- GridProperty.py L96-127 `GridProperty.__repr__`. -/
def GProp.report (p : GProp K) : Except Err (PropReport K) := do
  let lo ← shown p.vmin
  let hi ← shown p.vmax
  .ok ⟨pretty p.name.str, p.unit.symbol, lo, hi, nanmean p.data.data, nanmedian p.data.data,
    p.mask.map maskedPercentage⟩

/-- The lines that GridProperty.py L421-429 add. -/
structure Measured (K : Type) where
  gradient : XF K
  error : XF K
  orbital : XF K
  transmission : XF K
  deriving DecidableEq, Repr

/-- The text of a `GridGradient`. -/
structure GradReport (K : Type) where
  prop : PropReport K
  position : XF K
  measured : Option (Measured K)
  deriving DecidableEq, Repr

/-- GridProperty.py L421-429: printed if there is a mask. -/
def GGrad.measuredReport (g : GGrad K) : Except Err (Option (Measured K)) :=
  match g.prop.mask with
  | none => .ok none
  | some _ => do
    let m ← shown g.measured
    let e ← shown g.error
    let o ← shown g.orbital
    let t ← shown g.transmission
    .ok (some ⟨m.num, e.num, o.num, t.num⟩)

/-- GridProperty.py L404-431 `GridGradient.__repr__`. -/
def GGrad.report (g : GGrad K) : Except Err (GradReport K) := do
  let p ← g.prop.report
  let m ← g.measuredReport
  .ok ⟨p, g.position.num, m⟩

/-- A line `a -> b (n)` of the parameters. -/
structure Range (K : Type) where
  first : XF K
  last : XF K
  count : ℕ
  deriving DecidableEq, Repr

/-- `v[0]`, `v[-1]` and `len(v)`. -/
def rangeOf (l : List (XF K)) : Except Err (Range K) :=
  match l.head?, l.getLast? with
  | some a, some b => .ok ⟨a, b, l.length⟩
  | _, _ => .error .indexError

/-- The text of a `GridParameters`. -/
structure ParamsReport (K : Type) where
  dx : Range K
  dy : Range K
  maxRf : XF K
  countRf : ℕ
  gridShape : ℕ × ℕ × ℕ
  deriving DecidableEq, Repr

/-- GridParameters.py L70-100 `__repr__`. -/
def GridParams.report (g : GridParams K) : Except Err (ParamsReport K) := do
  let dx ← rangeOf g.getVectors.2.1
  let dy ← rangeOf g.getVectors.1
  let rf ← rangeOf g.getVectors.2.2
  .ok ⟨dx, dy, rf.first, rf.count, g.gridShape⟩

/-- GridDiagnostics.py L44-57 `__repr__`: the number of keys. -/
def Diagnostics.report (d : Diagnostics K) : ℕ := (d.fyDict.map Prod.fst).dedup.length

/-- The text of a `ShallotGrid`. -/
structure GridReport (K : Type) where
  params : ParamsReport K
  diskRadius : PropReport K
  tilt : PropReport K
  inclination : PropReport K
  gradients : List (GradReport K)
  diagnostics : Option ℕ
  masked : XF K
  worst : XF K
  deriving DecidableEq, Repr

namespace Shallot

/-- L140-141: an attribute of `None`; `np.nanmax` of nothing but NaN is NaN (with a warning), of an
empty array it raises `ValueError`. -/
def worstDeviation (s : Shallot K) : Except Err (XF K) :=
  match s.diagnosticMap with
  | none => .error .attributeError
  | some p =>
    if p.data.data = [] then .error .valueError
    else .ok ((nanmax (p.data.data.map XF.abs)).getD .nan)

/-- L157-159: the loop over the gradients. -/
def gradientReports : List (GGrad K) → Except Err (List (GradReport K))
  | [] => .ok []
  | g :: gs => do
    let r ← g.report
    let rs ← gradientReports gs
    .ok (r :: rs)

/-- Shallot.py L130-172 `__repr__`. -/
def report (s : Shallot K) : Except Err (GridReport K) := do
  let worst ← s.worstDeviation
  let m ← s.combinedMask
  let params ← s.params.report
  let a ← s.diskRadius.report
  let b ← s.tilt.report
  let c ← s.inclination.report
  let gs ← gradientReports (s.gradients.getD [])
  .ok ⟨params, a, b, c, gs, s.diagnostics.map Diagnostics.report, maskedPercentage m, worst⟩

end Shallot
end
end Beyonce
