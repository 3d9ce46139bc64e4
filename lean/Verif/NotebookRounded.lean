import Verif.Notebook
import Verif.GeometryRounded

/-!
# The curves of the notebooks with rounding

`Notebook.ringGradient` and what is drawn with it once more, with a rounding function after every float
operation and with the functions that the library really computes.  Overflow and underflow are not modelled.
-/

namespace Beyonce
namespace NotebookRounded

section
variable {K : Type} [Field K] [LinearOrder K] (L : FloatLib K)

/-- `np.deg2rad`: `x * (NPY_PI / 180.0)` in numpy. -/
def deg2rad (a : XF K) : XF K := L.mul a (L.div (.fin L.pi) (.fin 180))

/-- j1407_analysis.ipynb L91-134, pds_analysis.ipynb L45-88 `ring_gradients`, one element. -/
def ringGradient (position dx dy inclination tilt : XF K) : XF K :=
  let inc := deg2rad L inclination
  let phi := deg2rad L tilt
  let x := L.sub position dx
  let y := L.mul dy.neg (.fin 1)
  let numz := L.add (L.sq (L.cosX phi)) (L.div (L.sq (L.sinX phi)) (L.sq (L.cosX inc)))
  let denz := L.add (L.sq (L.sinX phi)) (L.div (L.sq (L.cosX phi)) (L.sq (L.cosX inc)))
  let z := L.mul (L.mul (L.cosX phi) (L.sinX phi)) (L.sub (.fin 1) (L.div (.fin 1) (L.sq (L.cosX inc))))
  let tangent := L.div (L.add (L.mul x numz) (L.mul z y)).neg (L.add (L.mul y denz) (L.mul z x))
  (L.sinX (L.arctan2X tangent (.fin 1))).abs

/-- j1407_analysis.ipynb L282 `scale`. -/
def scale (velocity duration : XF K) : XF K := L.mul velocity duration

/-- j1407_analysis.ipynb L283-285: position and time of the point of a curve that belongs to the element `q`
of the `np.linspace`. -/
def curvePoint (velocity duration q : XF K) : XF K × XF K :=
  let position := L.mul (scale L velocity duration) q
  (position, L.div position.neg velocity)

/-- j1407_analysis.ipynb L607, the call of `ring_gradients` for one solution, one element. -/
def solutionGradient (scale position : XF K) (row : Shallot.Solution K) : XF K :=
  ringGradient L position (L.mul scale row.dx) (L.mul scale row.dy) row.inclination row.tilt

end
end NotebookRounded
end Beyonce
