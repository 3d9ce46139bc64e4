import Verif.Shallot
import Verif.RingSystem

/-!
# The notebooks: curves and ring systems of the solutions

The code of `j1407_analysis.ipynb` (its lines are cited; `pds_analysis.ipynb` has the same code) that is not
plotting: `ring_gradients`, the scaling of the measured slopes, the sorting of the solutions, the loops that
choose which are drawn, and the ring systems that are drawn.  The six arrays that `extract_solutions` returns
are one list of rows here.
-/

namespace Beyonce
namespace Notebook

section
variable {K : Type} [Field K] [LinearOrder K] [RealFns K]

/-- `np.deg2rad`. -/
def deg2rad (a : XF K) : XF K := a.mul (.fin (RealFns.pi / 180))

/-- j1407_analysis.ipynb L91-134, pds_analysis.ipynb L45-88 `ring_gradients`, one element. -/
def ringGradient (position dx dy inclination tilt : XF K) : XF K :=
  let inc := deg2rad inclination
  let phi := deg2rad tilt
  let x := position.sub dx
  let y := dy.neg.mul (.fin 1)
  let numz := phi.cos.sq.add (phi.sin.sq.div inc.cos.sq)
  let denz := phi.sin.sq.add (phi.cos.sq.div inc.cos.sq)
  let z := (phi.cos.mul phi.sin).mul ((XF.fin 1).sub ((XF.fin 1).div inc.cos.sq))
  let tangent := ((x.mul numz).add (z.mul y)).neg.div ((y.mul denz).add (z.mul x))
  (XF.arctan2 tangent (.fin 1)).sin.abs

/-- j1407_analysis.ipynb L217-221: `gradients_corr`, one element. -/
def corrected (velocity limb slope : XF K) : XF K :=
  let velocityScale := XF.pi.div velocity
  let limbScale := ((XF.fin 6).sub ((XF.fin 2).mul limb)).div
    (((XF.fin 12).sub ((XF.fin 12).mul limb)).add (((XF.fin 3).mul XF.pi).mul limb))
  (velocityScale.mul limbScale).mul slope

/-- j1407_analysis.ipynb L282 `scale`. -/
def scale (velocity duration : XF K) : XF K := velocity.mul duration

/-- j1407_analysis.ipynb L283-285: position and time of the point of a curve that belongs to the element `q`
of the `np.linspace`. -/
def curvePoint (velocity duration q : XF K) : XF K × XF K :=
  let position := (scale velocity duration).mul q
  (position, position.neg.div velocity)

/-- j1407_analysis.ipynb L607, the call of `ring_gradients` for one solution, one element. -/
def solutionGradient (scale position : XF K) (row : Shallot.Solution K) : XF K :=
  ringGradient position (scale.mul row.dx) (scale.mul row.dy) row.inclination row.tilt

/-- j1407_analysis.ipynb L461-466: the rows in the order of `sort_mask`. -/
def reorder (mask : List ℕ) (rows : List (Shallot.Solution K)) : List (Shallot.Solution K) :=
  mask.filterMap (rows[·]?)

/-- j1407_analysis.ipynb L556-558, L604-606, L912-914, L960-962: the rows that the loop over `ks` gets to, with
the `dy` that are tested. -/
def select (tested : List (XF K)) (rows : List (Shallot.Solution K)) :
    List ℕ → Except Err (List (ℕ × Shallot.Solution K))
  | [] => .ok []
  | k :: ks =>
    match tested[k]? with
    | none => .error .indexError
    | some y =>
      if XF.lt (.fin 0) y then select tested rows ks
      else
        match rows[k]? with
        | none => .error .indexError
        | some row => do
          let rest ← select tested rows ks
          .ok ((k, row) :: rest)

/-- j1407_analysis.ipynb L556-558 and L604-606: the first twenty rows. -/
def drawn (rows : List (Shallot.Solution K)) : Except Err (List (ℕ × Shallot.Solution K)) :=
  select (rows.map (·.dy)) rows (List.range 20)

/-- j1407_analysis.ipynb L960-962 and L1078-1080 (pds_analysis.ipynb L1157-1159 and L1278-1280): the rows of
the second analysis, but the `dy` of the first. -/
def drawnSecond (first second : List (Shallot.Solution K)) : Except Err (List (ℕ × Shallot.Solution K)) :=
  select (first.map (·.dy)) second (List.range 20)

end

section
variable {K : Type} [Field K] [LinearOrder K] [FloorRing K]

/-- An array with one double. -/
def one (x : XF K) : PyVal K := .arr ⟨"float64", [1], [x]⟩

/-- j1407_analysis.ipynb L551-567: the ring system of one solution. -/
def ringSystem (scale : XF K) (row : Shallot.Solution K) : Except Err (RSys K) :=
  newSystem (.float (.fin (1 / 2))) (one (.fin 0)) (one (scale.mul row.diskRadius)) (one (.fin (9 / 10)))
    (.npFloat .w64 row.inclination) (.npFloat .w64 row.tilt)

end
end Notebook
end Beyonce
