import Verif.Geometry
import Verif.RingSystem

/-!
# The disk geometry of `/repo/Shallot.py` with rounding

`Geometry.lean` once more, with a rounding function after every float operation and with the functions
that the library really computes in place of the true ones.  The plain model is the case of exact
arithmetic (`determineFx_exact` and the like in `Props/GeometryRounded`).

Overflow and underflow are not modelled.
-/

namespace Beyonce

/-- Floating point arithmetic: the rounding of `+ - * /` and the functions of numpy on finite
arguments. -/
structure FloatLib (K : Type) where
  rnd : K → K
  sqrt : K → K
  sin : K → K
  cos : K → K
  arctan2 : K → K → K
  arccos : K → K
  hypot : K → K → K
  pi : K

section
variable {K : Type} [Field K] [LinearOrder K]

/-- Exact arithmetic. -/
def FloatLib.exact [RealFns K] : FloatLib K where
  rnd x := x
  sqrt := RealFns.sqrt
  sin := RealFns.sin
  cos := RealFns.cos
  arctan2 := RealFns.arctan2
  arccos := RealFns.arccos
  hypot x y := RealFns.sqrt (x * x + y * y)
  pi := RealFns.pi

namespace FloatLib
variable (L : FloatLib K)

/-- The functions as in `RealFns`, so that NaN and the infinities are treated as there. -/
@[reducible] def fns : RealFns K := ⟨L.sqrt, L.sin, L.cos, L.arctan2, L.arccos, L.pi⟩

/-- `a + b`. -/
def add (a b : XF K) : XF K := (a.add b).round L.rnd
/-- `a - b`. -/
def sub (a b : XF K) : XF K := (a.sub b).round L.rnd
/-- `a * b`. -/
def mul (a b : XF K) : XF K := (a.mul b).round L.rnd
/-- `a / b`. -/
def div (a b : XF K) : XF K := (a.div b).round L.rnd
/-- `a**2`. -/
def sq (a : XF K) : XF K := L.mul a a
/-- `np.sqrt`. -/
def sqrtX : XF K → XF K := @XF.sqrt K _ _ L.fns
/-- `np.sin`. -/
def sinX : XF K → XF K := @XF.sin K L.fns
/-- `np.cos`. -/
def cosX : XF K → XF K := @XF.cos K L.fns
/-- `np.arctan2`. -/
def arctan2X : XF K → XF K → XF K := @XF.arctan2 K _ _ L.fns
/-- `np.arccos`. -/
def arccosX : XF K → XF K := @XF.arccos K _ _ L.fns
/-- `np.hypot`. -/
def hypotX : XF K → XF K → XF K
  | .fin x, .fin y => .fin (L.hypot x y)
  | a, b => @XF.hypot K _ L.fns a b
/-- `np.rad2deg`: `x * (180.0 / NPY_PI)` in numpy. -/
def rad2deg (a : XF K) : XF K := L.mul a (L.div (.fin 180) (.fin L.pi))

end FloatLib

namespace GeometryRounded
variable (L : FloatLib K)

/-- L354-359 `_determine_circular_radius`, one element. -/
def circularRadius (dy : XF K) : XF K := L.hypotX (.fin (1 / 2)) dy

/-- L362-390 `_determine_shear`, one element. -/
def shear (dx dy : XF K) : XF K :=
  let s := if !XF.eqb dy (.fin 0) then L.div dx.neg dy else .nan
  if XF.eqb dy (.fin 0) && XF.eqb dx (.fin 0) then .fin 0 else s

/-- L425-455 `_determine_fx`, one element. -/
def determineFx (dy fy : XF K) : XF K :=
  let denominator := L.sub (L.mul (L.sq fy) (L.add (.fin 1) (L.mul (.fin 4) (L.sq dy))))
    (L.mul (.fin 4) (L.sq dy))
  let fx := if XF.le denominator (.fin 0) then .nan else L.sqrtX (L.div (.fin 1) denominator)
  L.mul fx fy

/-- L458-491 `_determine_fy`, one element. -/
def determineFy (dy fx : XF K) : XF K :=
  let numerator := L.mul (L.mul (.fin 4) (L.sq fx)) (L.sq dy)
  let denominator := L.sub (L.mul (L.sq fx) (L.add (.fin 1) (L.mul (.fin 4) (L.sq dy)))) (.fin 1)
  let fy := if XF.le denominator (.fin 0) then .nan else L.sqrtX (L.div numerator denominator)
  if XF.eqb dy (.fin 0) && XF.eqb fx (.fin 1) then .fin 1 else fy

/-- L494-533 `_calculate_vertex_and_covertex_angles`. -/
def vertexAngles (fx fy shear : XF K) : XF K × XF K :=
  let numerator := L.mul (L.mul (L.mul (.fin 2) fx) fy) shear
  let denominator := L.sub (L.mul (L.add (L.sq shear) (.fin 1)) (L.sq fy)) (L.sq fx)
  let vertex1 := L.mul (.fin (1 / 2)) (L.arctan2X numerator denominator)
  (vertex1, L.add vertex1 (L.div (.fin L.pi) (.fin 2)))

/-- L536-593 `_calculate_xy_from_parameteric_angle`. -/
def xyAt (fx fy angle shear radius : XF K) : XF K × XF K :=
  let xCircle := L.mul radius (L.cosX angle)
  let yCircle := L.mul radius (L.sinX angle)
  let xStretched := L.mul fx xCircle
  let yStretched := L.mul fy yCircle
  (L.sub xStretched (L.mul shear yStretched), yStretched)

/-- L596-663 `_determine_disk_parameters`: radius, inclination and tilt (in degrees). -/
def diskParameters (fx fy shear radius : XF K) : XF K × XF K × XF K :=
  let theta := vertexAngles L fx fy shear
  let p1 := xyAt L fx fy theta.1 shear radius
  let p2 := xyAt L fx fy theta.2 shear radius
  let distance1 := L.hypotX p1.1 p1.2
  let distance2 := L.hypotX p2.1 p2.2
  let semimajor := XF.maximum distance1 distance2
  let semiminor := XF.minimum distance1 distance2
  let isNumber := !(L.mul semimajor semiminor).isNan
  let tilt := L.arctan2X p1.2 p1.1
  let tilt := if isNumber && XF.lt distance1 distance2 then
    L.add tilt (L.div (.fin L.pi) (.fin 2)) else tilt
  let inclination := if isNumber then L.arccosX (L.div semiminor semimajor) else .nan
  (semimajor, L.rad2deg inclination, L.rad2deg tilt)

/-- L354-390, L425-455 and L596-663 in a row, as `_build_grid` uses them for one grid point and one
scale factor (L958-985): radius, inclination and tilt. -/
def diskAt (dx dy fy : XF K) : XF K × XF K × XF K :=
  diskParameters L (determineFx L dy fy) fy (shear L dx dy) (circularRadius L dy)

end GeometryRounded
end
end Beyonce
