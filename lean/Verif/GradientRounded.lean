import Verif.GeometryRounded
import Verif.GridProperty

/-!
# Gradients and their masks with rounding

`Geometry.diskGradient`, `Geometry.orbitalScale` and `GGrad.scaled` once more, with a rounding function after
every float operation, and the steps from one measurement to one element of a mask in a row.  Overflow and
underflow are not modelled.
-/

namespace Beyonce
namespace GeometryRounded

section
variable {K : Type} [Field K] [LinearOrder K] (L : FloatLib K)

/-- Shallot.py L1522 `positions = -times / self._eclipse_duration`, one element. -/
def position (time duration : XF K) : XF K := L.div time.neg duration

/-- Shallot.py L1340-1357 in `_determine_disk_gradients`, one element. -/
def diskGradient (position dx dy shear fx fy : XF K) : XF K :=
  let x := L.sub position dx
  let y := dy.neg
  let numerator := L.sub (L.mul (L.mul shear.neg (L.sq fy)) y) (L.mul (L.sq fy) x)
  let denominator := L.add (L.mul (L.add (L.mul (L.sq shear) (L.sq fy)) (L.sq fx)) y)
    (L.mul (L.mul shear (L.sq fy)) x)
  let tangent := if !XF.eqb denominator (.fin 0) then L.div numerator denominator else .nan
  (L.sinX (L.arctan2X tangent (.fin 1))).abs

/-- Shallot.py L1363-1382 `_determine_orbital_scale`. -/
def orbitalScale (limbDarkening velocity : XF K) : XF K :=
  let u := limbDarkening
  let limbScale := L.div (L.sub (.fin 6) (L.mul (.fin 2) u))
    (L.add (L.sub (.fin 12) (L.mul (.fin 12) u)) (L.mul (L.mul (.fin 3) (.fin L.pi)) u))
  L.mul limbScale (L.div (.fin L.pi) velocity)

/-- GridProperty.py L461-464 in `get_scaled_gradient`; that a number above 1 is refused is left out. -/
def scaledGradient (measured orbital transmission : XF K) : XF K :=
  let transmissionScale := L.div (.fin 1) transmission
  let totalScale := L.mul orbital transmissionScale
  L.mul measured totalScale

/-- One measurement and one grid point: whether `add_gradients` (Shallot.py L1462-1528) masks the grid point,
`GGrad.maskAt` of the two numbers above.  L1442 `np.abs` does not round. -/
def marked (time slope transmission duration velocity limb dx dy fx fy : XF K) : Bool :=
  GGrad.maskAt (scaledGradient L slope.abs (orbitalScale L limb velocity) transmission)
    (diskGradient L (position L time duration) dx dy (shear L dx dy) fx fy)

end
end GeometryRounded
end Beyonce
