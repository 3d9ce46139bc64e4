import Verif.Report
import Verif.RingLog
import Verif.PlotSlice

/-!
# The texts themselves

The strings that `__str__` and `__repr__` of the classes return, letter by letter: the numbers of a
report (`Report.lean`, `RingLog.lean`) with their digits and padding.  Also the titles of figures and the
keys of diagnostics.

A number `f"{x:.4f}"` is the exact value of `x` rounded half to even, as Python does; there is no negative
zero in the model, which Python prints with a sign.  The lines of a text are joined and never split: the
code splits a text that it has just joined, which gives back the lines because none of them has a newline
in it.
-/

namespace Beyonce

/-- The last `d` decimal digits of a number. -/
def lastDigits : ℕ → ℕ → List Char
  | 0, _ => []
  | d + 1, n => lastDigits d (n / 10) ++ [Nat.digitChar (n % 10)]

/-- `s.rjust(n)`. -/
def rjust (n : ℕ) (s : String) : String := String.ofList (List.replicate (n - s.length) ' ') ++ s

/-- `s.center(n)` of CPython: the odd space goes to the left if the width is odd. -/
def center (n : ℕ) (s : String) : String :=
  let pad := n - s.length
  let left := pad / 2 + (if pad % 2 = 1 ∧ n % 2 = 1 then 1 else 0)
  String.ofList (List.replicate left ' ') ++ s ++ String.ofList (List.replicate (pad - left) ' ')

/-- `"\n".join(lines)`. -/
def joinLines : List String → String
  | [] => ""
  | [a] => a
  | a :: b :: l => a ++ "\n" ++ joinLines (b :: l)

/-- `28 * "-"`. -/
def dashes : String := "----------------------------"

section
variable {K : Type} [Field K] [LinearOrder K] [FloorRing K]

/-- `f"{x:.df}"` for `d ≥ 1`. -/
def fixed (d : ℕ) : XF K → String
  | .nan => "nan"
  | .pinf => "inf"
  | .ninf => "-inf"
  | .fin x =>
    let n := (GGrad.roundHalfEven (|x| * 10 ^ d)).toNat
    (if x < 0 then "-" else "") ++ toString (n / 10 ^ d) ++ "." ++
      String.ofList (lastDigits d (n % 10 ^ d))

/-- Ring.py L50-81 `__str__`. -/
def RingObj.text (r : RingObj K) : String := joinLines
  ["", "============================", "***** RING INFORMATION *****", "============================\n",
   "Inner Radius: " ++ rjust 8 (fixed 4 r.inner) ++ " [R*]",
   "Outer Radius: " ++ rjust 8 (fixed 4 r.outer) ++ " [R*]",
   "Transmission: " ++ rjust 8 (fixed 4 r.transmission) ++ " [-]",
   "Inclination: " ++ rjust 9 (fixed 4 r.inclination) ++ " [deg]",
   "Tilt: " ++ rjust 16 (fixed 4 r.tilt) ++ " [deg]",
   "\n============================"]

/-- One line of the table, RingSystem.py L135-143. -/
def RingLine.text (l : RingLine K) : String :=
  rjust 4 (toString l.number) ++ "     " ++ rjust 11 (fixed 2 l.inner) ++ "     " ++
    rjust 11 (fixed 2 l.outer) ++ "     " ++ rjust 13 (fixed 2 l.transmission)

/-- RingSystem.py L94-153 `__repr__` and L82-92 `__str__`. -/
def SysReport.text (s : SysReport K) : String := joinLines <|
  ["\n======================================================================",
   "********************** RING SYSTEM INFORMATION ***********************",
   "======================================================================\n",
   "Geometric Parameters", "--------------------\n",
   "Planet Radius: " ++ rjust 7 (fixed 2 s.planet) ++ " [R*]",
   "Inclination: " ++ rjust 9 (fixed 2 s.inclination) ++ " [deg]",
   "Tilt: " ++ rjust 16 (fixed 2 s.tilt) ++ " [deg]", "\n",
   "Ring Parameters", "---------------\n",
   "Ring #     Inner Radius     Outer Radius     Transmission"] ++
  s.lines.map RingLine.text ++
  ["", "======================================================================"]

/-- RingSystem.py L188-221 `_print_changes`. -/
def SysReport.changes (action : String) (before : Bool) (s : SysReport K) : String := joinLines <|
  "" :: (if before then
      ["======================================================================",
       center 66 ("Before: " ++ action)]
    else [center 66 ("After: " ++ action)]) ++ [String.ofList (s.text.toList.drop 1)]

/-- A line of GridParameters.py L83-89. -/
def Range.text (name : String) (r : Range K) : String :=
  name ++ ": " ++ rjust 6 (fixed 2 r.first) ++ " -> " ++ rjust 6 (fixed 2 r.last) ++ " (" ++
    toString r.count ++ ")"

/-- `str` of a tuple of three integers. -/
def tripleText (t : ℕ × ℕ × ℕ) : String :=
  "(" ++ toString t.1 ++ ", " ++ toString t.2.1 ++ ", " ++ toString t.2.2 ++ ")"

/-- GridParameters.py L70-100 `__repr__` and L57-67 `__str__`. -/
def ParamsReport.text (p : ParamsReport K) : String := joinLines
  ["", "Grid Parameters", dashes, p.dx.text "dx", p.dy.text "dy",
   "rf: " ++ rjust 6 (fixed 2 p.maxRf) ++ " -> " ++ rjust 6 (fixed 2 (.fin 1 : XF K)) ++ " -> " ++
     rjust 6 (fixed 2 p.maxRf) ++ " (" ++ toString p.countRf ++ ")",
   "grid_shape: " ++ tripleText p.gridShape]

/-- GridProperty.py L120-124. -/
def maskLines (m : Option (XF K)) : List String :=
  match m with
  | none => []
  | some x => ["", "mask [out]:  " ++ rjust 14 (fixed 4 x) ++ "%"]

/-- The lines of GridProperty.py L107-124; `after` is what a gradient adds to the second of them. -/
def PropReport.linesWith (after : String) (p : PropReport K) : List String :=
  ["", p.title ++ " [" ++ p.unit ++ "]" ++ after, dashes,
   "min value:    " ++ rjust 13 (fixed 4 p.minimum),
   "max value:    " ++ rjust 13 (fixed 4 p.maximum),
   "mean value:   " ++ rjust 13 (fixed 4 p.mean),
   "median value: " ++ rjust 13 (fixed 4 p.median)] ++ maskLines p.masked

/-- GridProperty.py L96-127 `GridProperty.__repr__`. -/
def PropReport.text (p : PropReport K) : String := joinLines (p.linesWith "")

/-- GridProperty.py L79-93 `GridProperty.__str__`. -/
def PropReport.textWith (p : PropReport K) (g : ParamsReport K) : String :=
  joinLines (p.linesWith "" ++ [g.text])

/-- GridProperty.py L421-429. -/
def measuredLines (m : Option (Measured K)) : List String :=
  match m with
  | none => []
  | some m =>
    ["measured gradient:   " ++ rjust 6 (fixed 4 m.gradient),
     "measured error:      " ++ rjust 6 (fixed 4 m.error),
     "orbital scale:    " ++ rjust 9 (fixed 4 m.orbital),
     "transmission change: " ++ rjust 6 (fixed 4 m.transmission)]

/-- The lines of GridProperty.py L416-429. -/
def GradReport.lines (g : GradReport K) : List String :=
  g.prop.linesWith (" @ pos = " ++ rjust 7 (fixed 4 g.position)) ++ measuredLines g.measured

/-- GridProperty.py L404-431 `GridGradient.__repr__`. -/
def GradReport.text (g : GradReport K) : String := joinLines g.lines

/-- `GridProperty.__str__` of a gradient, L79-93. -/
def GradReport.textWith (g : GradReport K) (p : ParamsReport K) : String := joinLines (g.lines ++ [p.text])

/-- GridDiagnostics.py L44-57 `__repr__` and L30-41 `__str__`; `n` is the number of keys. -/
def diagnosticsText (n : ℕ) : String :=
  joinLines ["", "Grid Diagnostics", dashes, "diagnostics saved: " ++ toString n]

/-- Shallot.py L130-172 `__repr__` and L117-127 `__str__`. -/
def GridReport.text (g : GridReport K) : String := joinLines <|
  ["", "==========================================", "******** SHALLOT GRID INFORMATION ********",
   "==========================================", g.params.text, g.diskRadius.text, g.tilt.text,
   g.inclination.text] ++
  g.gradients.map GradReport.text ++
  (match g.diagnostics with
    | none => []
    | some n => [diagnosticsText n]) ++
  ["", "Grid Information", dashes, "percentage masked: " ++ fixed 2 g.masked ++ "%",
   "worst interpolation fit: " ++ fixed 9 g.worst, "", "=========================================="]

/-- `["$y$", "$x$", "$R_f$"][axis]`, GridProperty.py L652. -/
def sliceName (axis : ℕ) : String :=
  match axis with
  | 0 => "$y$"
  | 1 => "$x$"
  | _ => "$R_f$"

/-- The end of the title, GridProperty.py L718-723. -/
def directionText (d : Option Direction) : String :=
  match d with
  | none => ""
  | some .horizontal => " - horizontal"
  | some .vertical => " - vertical"

/-- The title of a viewer of the property, GridProperty.py L655-657 and L711-725. -/
def Viewer.titleText (name : PropName) (unit : PropUnit) (v : Viewer K) : String :=
  pretty name.str ++ " [" ++ unit.symbol ++ "] - " ++ sliceName v.axis ++ " = " ++ fixed 4 v.title.1 ++
    directionText v.title.2

/-- GridProperty.py L692-708 `GridPropertyViewer.__repr__` and L678-689 `__str__`. -/
def Viewer.text (name : PropName) (unit : PropUnit) (v : Viewer K) : String :=
  joinLines ["", "Grid Property Viewer", dashes, v.titleText name unit]

end

/-- `str` of a number in a key. -/
def KeyPart.text : KeyPart → String
  | .int n => toString n
  | .bool b => if b then "True" else "False"

/-- `f"({y}, {x})"`, GridDiagnostics.py L96. -/
def keyText (k : Key) : String := "(" ++ k.1.text ++ ", " ++ k.2.text ++ ")"

end Beyonce
