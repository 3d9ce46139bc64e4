import Verif.Notebook
import Verif.Texts
import Verif.GradientRounded

/-!
# The notebooks: from the files to the table of measurements

The code of `j1407_analysis.ipynb` and `pds_analysis.ipynb` around the measured gradients: what is made of the
columns of the files, the numbers of the papers in the units of the grid, the measurements that are read back
from the grid, and the table that is printed.  The columns are given as lists; reading the files is not
modelled.  Units are numbers here: days, kilometres, seconds.
-/

namespace Beyonce
namespace Notebook

section
variable {K : Type} [Field K] [LinearOrder K]

/-- j1407_analysis.ipynb L86-89 `load_gradients`: times and slopes of the rows of the file. -/
def loadGradients (shift : XF K) (rows : List (XF K × XF K)) : List (XF K) × List (XF K) :=
  (rows.map fun r => (r.1.sub shift).add (.fin 54222), rows.map fun r => r.2.abs)

/-- A point of a light curve: time, flux and error. -/
structure Photometry (K : Type) where
  time : XF K
  flux : XF K
  error : XF K
  deriving DecidableEq, Repr

/-- j1407_analysis.ipynb L66-68 `load_photometry`. -/
def loadPhotometry (shift : XF K) (rows : List (Photometry K)) : List (Photometry K) :=
  rows.map fun r => { r with time := r.time.sub shift }

/-- pds_analysis.ipynb L150-152: `time`, `flux` and `flux_error` of the two light curves together. -/
def lightCurve (wasp kelt : List (Photometry K)) : List (XF K) × List (XF K) × List (XF K) :=
  ((wasp ++ kelt).map (·.time), (wasp ++ kelt).map (·.flux), (wasp ++ wasp).map (·.error))

/-- j1407_analysis.ipynb L202, pds_analysis.ipynb L204: `transverse_velocity`, in stellar radii per day, from kilometres per second
and the radius of the star in kilometres. -/
def transverseVelocity (velocity star : XF K) : XF K := (velocity.mul (.fin 86400)).div star

/-- j1407_analysis.ipynb L204 `disk_radius_j1407`, from kilometres. -/
def paperRadius (radius star duration velocity : XF K) : XF K :=
  ((radius.div star).div duration).div (transverseVelocity velocity star)

/-- j1407_analysis.ipynb L207-208, pds_analysis.ipynb L209-210: a distance in days, on the other side. -/
def paperShift (days duration : XF K) : XF K := (days.div duration).neg

/-- pds_analysis.ipynb L206 `disk_radius_pds`, from days. -/
def paperRadiusDays (radius duration : XF K) : XF K := radius.div duration

/-- j1407_analysis.ipynb L206, pds_analysis.ipynb L208: the tilt, from degrees. -/
def paperTilt (tilt : XF K) : XF K := (XF.fin 180).sub tilt

/-- j1407_analysis.ipynb L204-208 (pds_analysis.ipynb L206-210): the disk of the paper, with `radius` in eclipse
durations.  It has no rms. -/
def paperDisk (radius inclination tilt dx dy duration : XF K) : Shallot.Solution K :=
  ⟨.nan, radius, inclination, paperTilt tilt, paperShift dx duration, paperShift dy duration⟩

/-- j1407_analysis.ipynb L782, pds_analysis.ipynb L823 and L1001 `measured_times`. -/
def measuredTimes (duration : XF K) (positions : List (XF K)) : List (XF K) :=
  positions.map fun p => p.neg.mul duration

/-- One element of `measured_times` with a rounding after every operation, for a time that was added as Shallot.py
L1522 does. -/
def timeBack (L : FloatLib K) (time duration : XF K) : XF K :=
  L.mul (GeometryRounded.position L time duration).neg duration

/-- `f"{v:.2f}"` of an attribute that may be `None`. -/
def twoDigits [FloorRing K] : Option (PyVal K) → Except Err String
  | some v => .ok (fixed 2 v.num)
  | none => .error .typeError

/-- j1407_analysis.ipynb L1155: a line of the table. -/
def tableLine [FloorRing K] (duration : XF K) (g : GGrad K) : Except Err String := do
  let m ← twoDigits g.measured
  let t ← twoDigits g.transmission
  .ok (fixed 2 (g.position.num.neg.mul duration) ++ " & " ++ m ++ " & " ++ t ++ " \\\\")

/-- j1407_analysis.ipynb L1154-1155: the lines, until one raises. -/
def table [FloorRing K] (duration : XF K) (s : Shallot K) : Except Err (List String) :=
  match s.gradients with
  | none => .error .typeError
  | some gs => gs.mapM (tableLine duration)

end

section
variable {K : Type} [Field K] [LinearOrder K] [RealFns K] [FloorRing K]

/-- j1407_analysis.ipynb L780-781, pds_analysis.ipynb L821-822 and L999-1000. -/
def rescaledGradients (transmissions : PyVal K) : Meth (Shallot K) (Shallot.Gradients K) := do
  Shallot.updateScaling .none .none transmissions
  Shallot.getGradients (.bool true)

/-- j1407_analysis.ipynb L848-852, pds_analysis.ipynb L1062-1064. -/
def analysed (duration velocity limb times slopes errors transmissions : PyVal K) :
    Meth (Shallot K) Unit := do
  Shallot.setEclipseParameters duration velocity limb
  Shallot.addGradients times slopes errors transmissions
  Shallot.determineFit

end
end Notebook
end Beyonce
