import Verif.GradientRounded

/-!
# The gradient fit with rounding

One element of `Shallot.determineFit`, with a rounding function after every float operation, and the steps from
the measurements and a grid point to its fit in a row.  Overflow and underflow are not modelled.
-/

namespace Beyonce

/-- What one gradient brings to the fit of one grid point. -/
structure FitPart (K : Type) where
  gradient : XF K
  scaled : XF K
  error : XF K

namespace FitRounded

section
variable {K : Type} [Field K] [LinearOrder K] (L : FloatLib K)

/-- Shallot.py L1757-1760: the weight.  A power of two is a product. -/
def weight (weighted : Bool) (error : XF K) : XF K := if weighted then L.sq error else .fin 1

/-- Shallot.py L1761-1762: the squared distance of one gradient. -/
def term (weighted : Bool) (p : FitPart K) : XF K :=
  L.div (L.sq (L.sub p.gradient p.scaled)) (weight L weighted p.error)

/-- Shallot.py L1748-1762: one element of `data`. -/
def fitAt (weighted : Bool) (ps : List (FitPart K)) : XF K :=
  ps.foldl (fun data p => L.add data (term L weighted p)) (.fin 0)

/-- What the measurement at `time` brings, after `add_gradients` (Shallot.py L1462-1528). -/
def part (duration velocity limb dx dy fx fy time slope error transmission : XF K) : FitPart K where
  gradient := GeometryRounded.diskGradient L (GeometryRounded.position L time duration) dx dy
    (GeometryRounded.shear L dx dy) fx fy
  scaled := GeometryRounded.scaledGradient L slope.abs (GeometryRounded.orbitalScale L limb velocity) transmission
  error := error

end
end FitRounded
end Beyonce
