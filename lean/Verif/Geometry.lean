import Verif.RealFns

/-!
# The disk geometry of `/repo/Shallot.py`, element by element

The methods work on arrays by broadcasting; here they act on one grid point and one scale factor.
The validations of L526-528 and L579-585 concern arrays that the class itself computed and do not
raise.
-/

namespace Beyonce
namespace Geometry
variable {K : Type} [Field K] [LinearOrder K] [RealFns K]

/-- L354-359 `_determine_circular_radius`, one element. -/
def circularRadius (dy : XF K) : XF K := XF.hypot (.fin (1 / 2)) dy

/-- L362-390 `_determine_shear`, one element. -/
def shear (dx dy : XF K) : XF K :=
  let s := if !XF.eqb dy (.fin 0) then (dx.neg).div dy else .nan
  if XF.eqb dy (.fin 0) && XF.eqb dx (.fin 0) then .fin 0 else s

/-- L425-455 `_determine_fx`, one element. -/
def determineFx (dy fy : XF K) : XF K :=
  let denominator := (fy.sq.mul ((XF.fin 1).add ((XF.fin 4).mul dy.sq))).sub ((XF.fin 4).mul dy.sq)
  let fx := if XF.le denominator (.fin 0) then .nan else ((XF.fin 1).div denominator).sqrt
  fx.mul fy

/-- L458-491 `_determine_fy`, one element. -/
def determineFy (dy fx : XF K) : XF K :=
  let numerator := ((XF.fin 4).mul fx.sq).mul dy.sq
  let denominator := (fx.sq.mul ((XF.fin 1).add ((XF.fin 4).mul dy.sq))).sub (.fin 1)
  let fy := if XF.le denominator (.fin 0) then .nan else (numerator.div denominator).sqrt
  if XF.eqb dy (.fin 0) && XF.eqb fx (.fin 1) then .fin 1 else fy

/-- L494-533 `_calculate_vertex_and_covertex_angles`. -/
def vertexAngles (fx fy shear : XF K) : XF K × XF K :=
  let numerator := (((XF.fin 2).mul fx).mul fy).mul shear
  let denominator := ((shear.sq.add (.fin 1)).mul fy.sq).sub fx.sq
  let vertex1 := (XF.fin (1 / 2)).mul (XF.arctan2 numerator denominator)
  (vertex1, vertex1.add (XF.pi.div (.fin 2)))

/-- L536-593 `_calculate_xy_from_parameteric_angle`. -/
def xyAt (fx fy angle shear radius : XF K) : XF K × XF K :=
  let xCircle := radius.mul angle.cos
  let yCircle := radius.mul angle.sin
  let xStretched := fx.mul xCircle
  let yStretched := fy.mul yCircle
  (xStretched.sub (shear.mul yStretched), yStretched)

/-- L596-663 `_determine_disk_parameters`: radius, inclination and tilt (in degrees). -/
def diskParameters (fx fy shear radius : XF K) : XF K × XF K × XF K :=
  let theta := vertexAngles fx fy shear
  let p1 := xyAt fx fy theta.1 shear radius
  let p2 := xyAt fx fy theta.2 shear radius
  let distance1 := XF.hypot p1.1 p1.2
  let distance2 := XF.hypot p2.1 p2.2
  let semimajor := XF.maximum distance1 distance2
  let semiminor := XF.minimum distance1 distance2
  let isNumber := !(semimajor.mul semiminor).isNan
  let tilt := XF.arctan2 p1.2 p1.1
  let tilt := if isNumber && XF.lt distance1 distance2 then tilt.add (XF.pi.div (.fin 2)) else tilt
  let inclination := if isNumber then (semiminor.div semimajor).arccos else .nan
  (semimajor, inclination.rad2deg, tilt.rad2deg)

/-- L1344-1358, the loop body of `_determine_disk_gradients`: the gradient of one grid point. -/
def diskGradient (position dx dy shear fx fy : XF K) : XF K :=
  let x := position.sub dx
  let y := dy.neg
  let numerator := ((shear.neg.mul fy.sq).mul y).sub (fy.sq.mul x)
  let denominator := (((shear.sq.mul fy.sq).add fx.sq).mul y).add ((shear.mul fy.sq).mul x)
  let tangent := if !XF.eqb denominator (.fin 0) then numerator.div denominator else .nan
  (XF.arctan2 tangent (.fin 1)).sin.abs

/-- L1363-1382 `_determine_orbital_scale`. -/
def orbitalScale (limbDarkening velocity : XF K) : XF K :=
  let u := limbDarkening
  let limbScale := ((XF.fin 6).sub ((XF.fin 2).mul u)).div
    (((XF.fin 12).sub ((XF.fin 12).mul u)).add (((XF.fin 3).mul XF.pi).mul u))
  limbScale.mul (XF.pi.div velocity)

end Geometry
end Beyonce
