import Mathlib.Algebra.Order.Field.Basic
import Mathlib.Algebra.Order.Field.Rat
import Mathlib.Tactic.Linarith
import Mathlib.Tactic.Ring
import Mathlib.Tactic.FieldSimp
import Mathlib.Tactic.NormNum
import Mathlib.Tactic.Positivity

/-!
# Floating point numbers without rounding

Python `float`s and numpy floats are modelled by `XF K`: the three special values
`nan`, `-inf`, `+inf` and exact finite numbers in an ordered field `K`.
Comparisons and the behaviour of the special values follow IEEE 754 (this is what
both Python and numpy do); finite arithmetic is exact and there is one zero.
This file models the language run time, not a file of `/repo`.
-/

set_option linter.unusedSectionVars false

namespace Beyonce

/-- The exceptions that the modelled code raises (messages are not modelled).
`/repo/errors.py` L7-69 for the three custom ones; the others are builtins. -/
inductive Err
  | typeError | valueError | attributeError | indexError | keyError | runtimeError
  | zeroDivisionError | fileExistsError | fileNotFoundError | fileError
  | loadError | invalidShapeError | invalidDimensionsError
  deriving DecidableEq, Repr

/-- An extended number: a float without rounding. -/
inductive XF (K : Type)
  | nan
  | ninf
  | fin (x : K)
  | pinf
  deriving DecidableEq, Repr

namespace XF
variable {K : Type}

section Order
variable [LinearOrder K]

/-- IEEE `a < b` (`np.less`, Python `<`). False if an operand is NaN. -/
def lt : XF K → XF K → Bool
  | nan, _ | _, nan => false
  | ninf, ninf => false
  | ninf, _ => true
  | _, ninf => false
  | fin x, fin y => decide (x < y)
  | fin _, pinf => true
  | pinf, _ => false

/-- IEEE `a <= b` (`np.less_equal`, Python `<=`). -/
def le : XF K → XF K → Bool
  | nan, _ | _, nan => false
  | ninf, _ => true
  | _, ninf => false
  | fin x, fin y => decide (x ≤ y)
  | _, pinf => true
  | pinf, fin _ => false

/-- IEEE `a == b`: NaN differs from everything. -/
def eqb : XF K → XF K → Bool
  | nan, _ | _, nan => false
  | ninf, ninf => true
  | pinf, pinf => true
  | fin x, fin y => decide (x = y)
  | _, _ => false

/-- `np.isnan`. -/
def isNan : XF K → Bool
  | nan => true
  | _ => false

end Order

section Arith
variable [Field K] [LinearOrder K]

/-- IEEE negation. -/
def neg : XF K → XF K
  | nan => nan | ninf => pinf | fin x => fin (-x) | pinf => ninf

/-- IEEE addition (exact on finite numbers). -/
def add : XF K → XF K → XF K
  | nan, _ | _, nan => nan
  | pinf, ninf | ninf, pinf => nan
  | pinf, _ | _, pinf => pinf
  | ninf, _ | _, ninf => ninf
  | fin x, fin y => fin (x + y)

/-- IEEE subtraction. -/
def sub (a b : XF K) : XF K := add a (neg b)

/-- The infinity with the sign of `x` (NaN for 0): `x * inf`. -/
def infSign (x : K) : XF K :=
  if 0 < x then pinf else if x < 0 then ninf else nan

/-- IEEE multiplication (exact on finite numbers; `0 * inf = nan`). -/
def mul : XF K → XF K → XF K
  | nan, _ | _, nan => nan
  | fin x, fin y => fin (x * y)
  | fin x, pinf | pinf, fin x => infSign x
  | fin x, ninf | ninf, fin x => infSign (-x)
  | pinf, pinf | ninf, ninf => pinf
  | pinf, ninf | ninf, pinf => ninf

/-- numpy division: `x / 0 = ±inf` by the sign of `x` (the sign of the zero is not
modelled), `0 / 0 = nan`, `inf / inf = nan`. -/
def div : XF K → XF K → XF K
  | nan, _ | _, nan => nan
  | fin x, fin y => if y = 0 then infSign x else fin (x / y)
  | fin _, pinf | fin _, ninf => fin 0
  | pinf, fin y => if y < 0 then ninf else pinf
  | ninf, fin y => if y < 0 then pinf else ninf
  | pinf, pinf | ninf, ninf | pinf, ninf | ninf, pinf => nan

/-- `np.abs`. -/
def abs : XF K → XF K
  | nan => nan | ninf => pinf | fin x => fin |x| | pinf => pinf

end Arith

section Lemmas
variable [LinearOrder K]

@[simp] theorem lt_nan_left (a : XF K) : lt nan a = false := by cases a <;> rfl
@[simp] theorem lt_nan_right (a : XF K) : lt a nan = false := by cases a <;> rfl
@[simp] theorem le_nan_left (a : XF K) : le nan a = false := by cases a <;> rfl
@[simp] theorem le_nan_right (a : XF K) : le a nan = false := by cases a <;> rfl
@[simp] theorem lt_fin (x y : K) : lt (fin x) (fin y) = decide (x < y) := rfl
@[simp] theorem le_fin (x y : K) : le (fin x) (fin y) = decide (x ≤ y) := rfl
@[simp] theorem eqb_fin (x y : K) : eqb (fin x) (fin y) = decide (x = y) := rfl
@[simp] theorem lt_fin_pinf (x : K) : lt (fin x) pinf = true := rfl
@[simp] theorem lt_ninf_fin (x : K) : lt ninf (fin x) = true := rfl
@[simp] theorem lt_pinf (x : XF K) : lt pinf x = false := by cases x <;> rfl
@[simp] theorem lt_ninf_right (x : XF K) : lt x ninf = false := by cases x <;> rfl
@[simp] theorem isNan_fin (x : K) : isNan (fin x) = false := rfl
@[simp] theorem isNan_nan : isNan (nan : XF K) = true := rfl
@[simp] theorem isNan_pinf : isNan (pinf : XF K) = false := rfl
@[simp] theorem isNan_ninf : isNan (ninf : XF K) = false := rfl

theorem isNan_iff (a : XF K) : isNan a = true ↔ a = nan := by cases a <;> simp [isNan]

/-- For non-NaN numbers "not less" is "greater or equal". -/
theorem lt_eq_not_le {a b : XF K} (ha : a ≠ nan) (hb : b ≠ nan) :
    lt a b = !(le b a) := by
  cases a <;> cases b <;> simp_all [lt, le, ← not_le]

end Lemmas

end XF
end Beyonce
