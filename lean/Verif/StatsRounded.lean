import Verif.Report
import Verif.RingSystem

/-!
# Printed statistics with rounding

`np.nanmean`, `np.nanmedian` and the masked percentage of `GridProperty.__repr__` (GridProperty.py L113-123) once more,
with a rounding function after every float operation.  How far a sum of floats is off depends on the order
of the additions, so that order is a `SumTree`; `pairwiseTree` is the order of numpy
(`DOUBLE_pairwise_sum` in numpy/core/src/umath/loops_utils.h.src).  Minima, maxima and sorting are exact.

Overflow and underflow are not modelled.
-/

namespace Beyonce

/-- An order in which floats are added. -/
inductive SumTree (K : Type)
  | leaf (x : XF K)
  | add (l r : SumTree K)

namespace SumTree
variable {K : Type}

/-- What is added, from left to right. -/
def leaves : SumTree K → List (XF K)
  | leaf x => [x]
  | add l r => l.leaves ++ r.leaves

/-- The number of additions that a summand passes through at most. -/
def depth : SumTree K → ℕ
  | leaf _ => 0
  | add l r => max l.depth r.depth + 1

/-- The sum, rounded after every addition. -/
def value [Field K] [LinearOrder K] (rnd : K → K) : SumTree K → XF K
  | leaf x => x
  | add l r => ((l.value rnd).add (r.value rnd)).round rnd

/-- `res += a[i]` for every element. -/
def chain (t : SumTree K) (l : List (XF K)) : SumTree K := l.foldl (fun t x => .add t (.leaf x)) t

end SumTree

namespace StatsRounded
section
variable {K : Type} [Field K] [LinearOrder K]

/-- One of the eight accumulators `r[k]`: elements `k`, `k + 8`, `k + 16`, … -/
def lane (l : List (XF K)) (k : ℕ) : SumTree K :=
  SumTree.chain (.leaf (l.getD k (.fin 0)))
    ((List.range (l.length / 8 - 1)).map fun i => l.getD (8 * (i + 1) + k) (.fin 0))

/-- `((r[0] + r[1]) + (r[2] + r[3])) + ((r[4] + r[5]) + (r[6] + r[7]))`. -/
def lanes (l : List (XF K)) : SumTree K :=
  .add (.add (.add (lane l 0) (lane l 1)) (.add (lane l 2) (lane l 3)))
    (.add (.add (lane l 4) (lane l 5)) (.add (lane l 6) (lane l 7)))

/-- A block of 8 to 128 elements: the accumulators, then what does not fill them. -/
def block (l : List (XF K)) : SumTree K :=
  (lanes (l.take (l.length - l.length % 8))).chain (l.drop (l.length - l.length % 8))

/-- The first of the two halves of more than 128 elements, a multiple of eight. -/
def half (n : ℕ) : ℕ := n / 2 - n / 2 % 8

/-- `DOUBLE_pairwise_sum`. -/
def pairwiseTree (l : List (XF K)) : SumTree K :=
  if l.length < 8 then (SumTree.leaf (.fin 0)).chain l
  else if l.length ≤ 128 then block l
  else .add (pairwiseTree (l.take (half l.length))) (pairwiseTree (l.drop (half l.length)))
termination_by l.length
decreasing_by
  · rw [List.length_take]; unfold half; omega
  · rw [List.length_drop]; unfold half; omega

/-- `np.sum` of a contiguous array: numpy adds the pairwise sum to the initial value zero. -/
def sumOrder (l : List (XF K)) : SumTree K := .add (.leaf (.fin 0)) (pairwiseTree l)

/-- `_replace_nan(a, 0)` of numpy/lib/nanfunctions.py. -/
def zeroed (l : List (XF K)) : List (XF K) := l.map fun x => if x.isNan then .fin 0 else x

/-- `np.nanmean`: the sum of all with zeros for NaNs, divided by the number of those that are not NaN. -/
def nanmean (rnd : K → K) (l : List (XF K)) : XF K :=
  (((sumOrder (zeroed l)).value rnd).div (.fin ((numbersOf l).length : K))).round rnd

/-- `np.nanmedian`: the element in the middle, or the mean of the two in the middle. -/
def nanmedian (rnd : K → K) (l : List (XF K)) : XF K :=
  let s := sortedNumbers l
  let n := s.length
  if n = 0 then .nan
  else if n % 2 = 1 then s.getD (n / 2) .nan
  else ((((s.getD (n / 2 - 1) .nan).add (s.getD (n / 2) .nan)).round rnd).div (.fin 2)).round rnd

/-- `100 * (np.sum(mask) / np.prod(mask.shape))`, GridProperty.py L122-123; the two integers are below `2^53`. -/
def maskedPercentage (rnd : K → K) (m : Mask) : XF K :=
  ((XF.fin 100).mul (((XF.fin ((m.data.count true : ℕ) : K)).div (.fin ((m.shape.prod : ℕ) : K))).round rnd)).round rnd

/-- GridProperty.py L96-127 `GridProperty.__repr__`. -/
def report (rnd : K → K) (p : GProp K) : Except Err (PropReport K) := do
  let lo ← shown p.vmin
  let hi ← shown p.vmax
  .ok ⟨pretty p.name.str, p.unit.symbol, lo, hi, nanmean rnd p.data.data, nanmedian rnd p.data.data,
    p.mask.map (maskedPercentage rnd)⟩

end
end StatsRounded
end Beyonce
