import Verif.Props.Rounding
import Mathlib.Analysis.SpecialFunctions.Sqrt
import Mathlib.Analysis.Real.Pi.Bounds
import Mathlib.Analysis.SpecialFunctions.Trigonometric.Bounds
import Mathlib.Analysis.SpecialFunctions.Trigonometric.Deriv

/-!
# Relative errors
-/

namespace Beyonce
open Spec

/-- `x` is `y` up to a relative error of `ε`. -/
def Spec.RelNear (ε x y : ℝ) : Prop := |x - y| ≤ ε * |y|

namespace Spec.RelNear
variable {f : ℝ → ℝ} {u a b c x y z w k : ℝ}

theorem refl (y : ℝ) (h : 0 ≤ a) : RelNear a y y := by
  unfold RelNear; rw [sub_self, abs_zero]; positivity

theorem mono (h : RelNear a x y) (hab : a ≤ b) : RelNear b x y :=
  le_trans h (mul_le_mul_of_nonneg_right hab (abs_nonneg y))

/-- The bound of the absolute value. -/
theorem abs_le (h : RelNear a x y) : |x| ≤ (1 + a) * |y| := by
  have := abs_sub_abs_le_abs_sub x y
  have h' : |x - y| ≤ a * |y| := h
  linarith

/-- One more error. -/
theorem trans (h1 : RelNear u z x) (hu : 0 ≤ u) (h : RelNear (a * u) x y) (ha : a * u ≤ 1)
    (hc : a + 2 ≤ c) : RelNear (c * u) z y := by
  have h1 : |z - x| ≤ u * |x| := h1
  have h2 := abs_le h
  have h3 : |x - y| ≤ a * u * |y| := h
  have h4 := abs_sub_le z x y
  have h5 : u * |x| ≤ u * ((1 + a * u) * |y|) := mul_le_mul_of_nonneg_left h2 hu
  have h6 : u * ((1 + a * u) * |y|) ≤ u * (2 * |y|) :=
    mul_le_mul_of_nonneg_left (mul_le_mul_of_nonneg_right (by linarith) (abs_nonneg y)) hu
  have h7 : (a + 2) * u * |y| ≤ c * u * |y| := by
    have := mul_nonneg hu (abs_nonneg y)
    nlinarith
  unfold RelNear
  nlinarith

theorem rnd (hr : Rounds f u) (hu : 0 ≤ u) (h : RelNear (a * u) x y) (ha : a * u ≤ 1)
    (hc : a + 2 ≤ c) : RelNear (c * u) (f x) y := trans (hr x) hu h ha hc

/-- Rounding of an exact value. -/
theorem rnd_self (hr : Rounds f u) (x : ℝ) : RelNear (1 * u) (f x) x := by
  unfold RelNear; rw [one_mul]; exact hr x

theorem mul (h : RelNear (a * u) x y) (h' : RelNear (b * u) z w) (hu : 0 ≤ u) (ha : 0 ≤ a) (_ : 0 ≤ b)
    (hab : a * b * u ≤ 1) (hc : a + b + 1 ≤ c) : RelNear (c * u) (x * z) (y * w) := by
  have h1 : |x - y| ≤ a * u * |y| := h
  have h2 : |z - w| ≤ b * u * |w| := h'
  have hx := abs_le h
  unfold RelNear
  have e : x * z - y * w = x * (z - w) + (x - y) * w := by ring
  rw [e, abs_mul y w]
  refine (abs_add_le _ _).trans ?_
  rw [abs_mul, abs_mul]
  have p1 : |x| * |z - w| ≤ ((1 + a * u) * |y|) * (b * u * |w|) := by
    apply mul_le_mul hx h2 (abs_nonneg _)
    have := abs_nonneg y
    positivity
  have p2 : |x - y| * |w| ≤ (a * u * |y|) * |w| := mul_le_mul_of_nonneg_right h1 (abs_nonneg w)
  have p3 : 0 ≤ |y| * |w| * u := by positivity
  have p4 : a * b * u * (|y| * |w| * u) ≤ 1 * (|y| * |w| * u) := mul_le_mul_of_nonneg_right hab p3
  have p5 : (a + b + 1) * (|y| * |w| * u) ≤ c * (|y| * |w| * u) := mul_le_mul_of_nonneg_right hc p3
  nlinarith

theorem mul_left (k : ℝ) (h : RelNear a x y) : RelNear a (k * x) (k * y) := by
  unfold RelNear at *
  rw [← mul_sub, abs_mul, abs_mul]
  have := mul_le_mul_of_nonneg_left h (abs_nonneg k)
  linarith

theorem mul_right (k : ℝ) (h : RelNear a x y) : RelNear a (x * k) (y * k) := by
  rw [mul_comm x, mul_comm y]; exact mul_left k h

/-- A sum of numbers that are not negative. -/
theorem add_left (hk : 0 ≤ k) (hy : 0 ≤ y) (ha : 0 ≤ a) (h : RelNear a x y) : RelNear a (k + x) (k + y) := by
  unfold RelNear at *
  rw [add_sub_add_left_eq_sub, abs_of_nonneg (add_nonneg hk hy)]
  rw [abs_of_nonneg hy] at h
  nlinarith

theorem add_right (hk : 0 ≤ k) (hy : 0 ≤ y) (ha : 0 ≤ a) (h : RelNear a x y) :
    RelNear a (x + k) (y + k) := by
  rw [add_comm x, add_comm y]; exact add_left hk hy ha h

/-- A number near a positive number is positive. -/
theorem pos (h : RelNear a x y) (hy : 0 < y) (ha : a < 1) : 0 < x := by
  have h1 : |x - y| ≤ a * |y| := h
  rw [abs_of_pos hy] at h1
  have := (_root_.abs_le.1 h1).1
  nlinarith

theorem nonneg (h : RelNear a x y) (hy : 0 ≤ y) (ha : a ≤ 1) : 0 ≤ x := by
  have h1 : |x - y| ≤ a * |y| := h
  rw [abs_of_nonneg hy] at h1
  have := (_root_.abs_le.1 h1).1
  nlinarith

/-- The reciprocal. -/
theorem inv (h : RelNear a x y) (hy : 0 < y) (ha0 : 0 ≤ a) (ha : 2 * a ≤ 1) : RelNear (2 * a) (1 / x) (1 / y) := by
  have hx := pos h hy (by linarith)
  have h1 : |x - y| ≤ a * |y| := h
  rw [abs_of_pos hy] at h1
  unfold RelNear
  rw [div_sub_div _ _ hx.ne' hy.ne', abs_div, abs_of_pos (mul_pos hx hy),
    abs_of_pos (one_div_pos.2 hy), one_mul, mul_one, abs_sub_comm,
    div_le_iff₀ (mul_pos hx hy)]
  have e : 2 * a * (1 / y) * (x * y) = 2 * a * x := by field_simp
  rw [e]
  have := (_root_.abs_le.1 h1).1
  have h2 : y ≤ 2 * x := by nlinarith
  calc _ ≤ a * y := h1
    _ ≤ a * (2 * x) := mul_le_mul_of_nonneg_left h2 ha0
    _ = _ := by ring

/-- The square root. -/
theorem sqrt (h : RelNear a x y) (hx : 0 ≤ x) (hy : 0 ≤ y) : RelNear a (√x) (√y) := by
  rcases eq_or_lt_of_le hy with hy | hy
  · subst hy
    have h1 : |x - 0| ≤ a * |0| := h
    rw [abs_zero, mul_zero, sub_zero] at h1
    rw [abs_nonpos_iff.1 h1]
    unfold RelNear
    simp
  · have h1 : |x - y| ≤ a * |y| := h
    have sy := Real.sqrt_pos.2 hy
    have sx := Real.sqrt_nonneg x
    unfold RelNear
    rw [abs_of_pos sy]
    rw [abs_of_pos hy] at h1
    have e : x - y = (√x - √y) * (√x + √y) := by
      have e1 := Real.mul_self_sqrt hx
      have e2 := Real.mul_self_sqrt hy.le
      linear_combination -e1 + e2
    rw [e, abs_mul, abs_of_pos (by positivity : 0 < √x + √y)] at h1
    have e2 := Real.mul_self_sqrt hy.le
    have h2 : |√x - √y| * √y ≤ |√x - √y| * (√x + √y) :=
      mul_le_mul_of_nonneg_left (by linarith) (abs_nonneg _)
    have h3 : |√x - √y| * √y ≤ (a * √y) * √y := by
      calc _ ≤ a * y := h2.trans h1
        _ = _ := by rw [mul_assoc, e2]
    exact le_of_mul_le_mul_right h3 sy

end Spec.RelNear
end Beyonce
