import Verif.Num
import Mathlib.Analysis.SpecialFunctions.Complex.Arg
import Mathlib.Analysis.SpecialFunctions.Trigonometric.Inverse
import Mathlib.Analysis.SpecialFunctions.Sqrt

/-!
# The mathematical functions of numpy

numpy's `sqrt`, `sin`, `cos`, `arctan2`, `arccos` and `pi` as operations on a field, and on floats
without rounding (`XF`).  For the real numbers they are the functions of Mathlib.
This file models the library, not a file of `/repo`.
-/

namespace Beyonce

/-- The functions on finite arguments. -/
class RealFns (K : Type) where
  sqrt : K → K
  sin : K → K
  cos : K → K
  arctan2 : K → K → K
  arccos : K → K
  pi : K

/-- The real functions; `arctan2 y x` is the argument of `x + i y`. -/
noncomputable instance : RealFns ℝ where
  sqrt := Real.sqrt
  sin := Real.sin
  cos := Real.cos
  arctan2 y x := Complex.arg ⟨x, y⟩
  arccos := Real.arccos
  pi := Real.pi

namespace XF
variable {K : Type} [Field K] [LinearOrder K] [RealFns K]

/-- `np.sqrt`: NaN for negative numbers. -/
def sqrt : XF K → XF K
  | nan => nan
  | ninf => nan
  | pinf => pinf
  | fin x => if x < 0 then nan else fin (RealFns.sqrt x)

/-- `np.sin`. -/
def sin : XF K → XF K
  | fin x => fin (RealFns.sin x)
  | _ => nan

/-- `np.cos`. -/
def cos : XF K → XF K
  | fin x => fin (RealFns.cos x)
  | _ => nan

/-- `np.pi`. -/
def pi : XF K := fin RealFns.pi

/-- `np.arctan2(y, x)` (there is one zero here, so that `arctan2(0, x) = pi` for negative `x`). -/
def arctan2 : XF K → XF K → XF K
  | nan, _ | _, nan => nan
  | fin y, fin x => fin (RealFns.arctan2 y x)
  | fin _, pinf => fin 0
  | fin y, ninf => if y < 0 then fin (-RealFns.pi) else fin RealFns.pi
  | pinf, fin _ => fin (RealFns.pi / 2)
  | ninf, fin _ => fin (-(RealFns.pi / 2))
  | pinf, pinf => fin (RealFns.pi / 4)
  | pinf, ninf => fin (3 * RealFns.pi / 4)
  | ninf, pinf => fin (-(RealFns.pi / 4))
  | ninf, ninf => fin (-(3 * RealFns.pi / 4))

/-- `np.arccos`: NaN outside [-1, 1]. -/
def arccos : XF K → XF K
  | fin x => if x < -1 ∨ 1 < x then nan else fin (RealFns.arccos x)
  | _ => nan

/-- `np.hypot`: infinite if an argument is, even if the other is NaN. -/
def hypot : XF K → XF K → XF K
  | pinf, _ | ninf, _ | _, pinf | _, ninf => pinf
  | nan, _ | _, nan => nan
  | fin x, fin y => fin (RealFns.sqrt (x * x + y * y))

/-- `np.rad2deg`. -/
def rad2deg (a : XF K) : XF K := a.mul (fin (180 / RealFns.pi))

/-- `np.maximum`: NaN if an argument is. -/
def maximum (a b : XF K) : XF K :=
  if a.isNan || b.isNan then nan else if XF.lt a b then b else a

/-- `np.minimum`: NaN if an argument is. -/
def minimum (a b : XF K) : XF K :=
  if a.isNan || b.isNan then nan else if XF.lt b a then b else a

/-- `a**2`. -/
def sq (a : XF K) : XF K := a.mul a

end XF
end Beyonce
