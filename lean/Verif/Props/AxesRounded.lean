import Verif.Props.GeometryRounded
import Mathlib.Analysis.SpecialFunctions.Trigonometric.Bounds

/-!
# Property C105: radius and inclination in floating point
-/

set_option linter.unusedSectionVars false

namespace Beyonce
open Spec Real

/-! ## Distances -/

theorem norm2_eq (p : ℝ × ℝ) : norm2 p = ‖(⟨p.1, p.2⟩ : ℂ)‖ := by
  rw [Complex.norm_eq_sqrt_sq_add_sq]; rfl

theorem norm2_near (p q : ℝ × ℝ) : |norm2 p - norm2 q| ≤ |p.1 - q.1| + |p.2 - q.2| := by
  rw [norm2_eq, norm2_eq]
  refine (abs_norm_sub_norm_le _ _).trans ?_
  have := Complex.norm_le_abs_re_add_abs_im ((⟨p.1, p.2⟩ : ℂ) - ⟨q.1, q.2⟩)
  simpa using this

theorem fst_le_norm2 (p : ℝ × ℝ) : |p.1| ≤ norm2 p := by
  unfold norm2
  rw [← sqrt_sq_eq_abs]
  exact sqrt_le_sqrt (by nlinarith [sq_nonneg p.2])

theorem snd_le_norm2 (p : ℝ × ℝ) : |p.2| ≤ norm2 p := by
  unfold norm2
  rw [← sqrt_sq_eq_abs]
  exact sqrt_le_sqrt (by nlinarith [sq_nonneg p.1])

/-- The sizes of the stretched and sheared circle in the directions of the axes. -/
theorem columns_le (fx fy s ρ : ℝ) (hx : 0 < fx) (hy : 0 < fy) (hρ : 0 < ρ) :
    fx * ρ ≤ norm2 (sheared fx fy s ρ (vertex fx fy s + π / 2)) ∧
    fy * ρ ≤ norm2 (sheared fx fy s ρ (vertex fx fy s + π / 2)) ∧
    |s| * (fy * ρ) ≤ norm2 (sheared fx fy s ρ (vertex fx fy s + π / 2)) := by
  have h0 := (size_bounds fx fy s ρ 0).2
  have h1 := (size_bounds fx fy s ρ (π / 2)).2
  have a0 := fst_le_norm2 (sheared fx fy s ρ 0)
  have a1 := fst_le_norm2 (sheared fx fy s ρ (π / 2))
  have a2 := snd_le_norm2 (sheared fx fy s ρ (π / 2))
  simp only [sheared, cos_zero, sin_zero, mul_one, mul_zero, sub_zero, cos_pi_div_two, sin_pi_div_two,
    zero_sub, abs_neg] at a0 a1 a2
  have p1 : 0 < fy * ρ := mul_pos hy hρ
  rw [abs_of_pos (mul_pos hx hρ)] at a0
  rw [abs_mul, abs_of_pos p1] at a1
  rw [abs_of_pos p1] at a2
  unfold sheared at h0 h1 ⊢
  simp only [cos_zero, sin_zero, mul_one, mul_zero, sub_zero, cos_pi_div_two, sin_pi_div_two,
    zero_sub] at h0 h1 ⊢
  exact ⟨a0.trans h0, a2.trans h1, a1.trans h1⟩

/-! ## The computed point -/

theorem rounded_diff {f : ℝ → ℝ} {u : ℝ} (hr : Rounds f u) (hu : 0 ≤ u) (hu1 : 7 * u ≤ 1) {p q P Q : ℝ}
    (hp : RelNear (7 * u) p P) (hq : RelNear (7 * u) q Q) :
    |f (p - q) - (P - Q)| ≤ 9 * u * (|P| + |Q|) := by
  have h1 : |p - P| ≤ 7 * u * |P| := hp
  have h2 : |q - Q| ≤ 7 * u * |Q| := hq
  have hP := abs_nonneg P
  have hQ := abs_nonneg Q
  have h3 : |(p - q) - (P - Q)| ≤ 7 * u * (|P| + |Q|) := by
    have e : (p - q) - (P - Q) = (p - P) - (q - Q) := by ring
    rw [e]
    refine (abs_sub _ _).trans ?_
    linarith
  have h5 : |p - q| ≤ 2 * (|P| + |Q|) := by
    have e1 := abs_sub_abs_le_abs_sub (p - q) (P - Q)
    have e2 := abs_sub P Q
    have e3 := mul_le_mul_of_nonneg_right hu1 (add_nonneg hP hQ)
    linarith
  have h6 := abs_sub_le (f (p - q)) (p - q) (P - Q)
  have h7 := hr (p - q)
  have h8 := mul_le_mul_of_nonneg_left h5 hu
  linarith

/-- The computed point of the ellipse is near the true one. -/
theorem xyAt_near {L : FloatLib ℝ} {u : ℝ} (hL : Accurate L u) (hu1 : 1000 * u ≤ 1) (fx fy s ρ θ : ℝ)
    (hx : 0 < fx) (hy : 0 < fy) (hρ : 0 < ρ) {R : ℝ}
    (hR : R = norm2 (sheared fx fy s ρ (vertex fx fy s + π / 2))) :
    ∃ X Y, GeometryRounded.xyAt L (.fin fx) (.fin fy) (.fin θ) (.fin s) (.fin ρ) = (.fin X, .fin Y) ∧
      |X - (sheared fx fy s ρ θ).1| ≤ 18 * u * R ∧ |Y - (sheared fx fy s ρ θ).2| ≤ 5 * u * R := by
  have hu := hL.nonneg
  have hr := hL.rnd
  obtain ⟨c1, c2, c3⟩ := columns_le fx fy s ρ hx hy hρ
  rw [← hR] at c1 c2 c3
  have hc : RelNear (1 * u) (L.cos θ) (cos θ) := by rw [one_mul]; exact hL.cos θ
  have hs : RelNear (1 * u) (L.sin θ) (sin θ) := by rw [one_mul]; exact hL.sin θ
  have x1 : RelNear (3 * u) (L.rnd (ρ * L.cos θ)) (ρ * cos θ) :=
    (hc.mul_left ρ).rnd hr hu (by linarith) (by norm_num)
  have x2 : RelNear (5 * u) (L.rnd (fx * L.rnd (ρ * L.cos θ))) (fx * (ρ * cos θ)) :=
    (x1.mul_left fx).rnd hr hu (by linarith) (by norm_num)
  have y1 : RelNear (3 * u) (L.rnd (ρ * L.sin θ)) (ρ * sin θ) :=
    (hs.mul_left ρ).rnd hr hu (by linarith) (by norm_num)
  have y2 : RelNear (5 * u) (L.rnd (fy * L.rnd (ρ * L.sin θ))) (fy * (ρ * sin θ)) :=
    (y1.mul_left fy).rnd hr hu (by linarith) (by norm_num)
  have t : RelNear (7 * u) (L.rnd (s * L.rnd (fy * L.rnd (ρ * L.sin θ)))) (s * (fy * (ρ * sin θ))) :=
    (y2.mul_left s).rnd hr hu (by linarith) (by norm_num)
  have b1 : |fx * (ρ * cos θ)| ≤ R := by
    rw [← mul_assoc, abs_mul, abs_of_pos (mul_pos hx hρ)]
    calc _ ≤ fx * ρ * 1 := mul_le_mul_of_nonneg_left (abs_cos_le_one θ) (mul_pos hx hρ).le
      _ ≤ R := by linarith
  have b2 : |fy * (ρ * sin θ)| ≤ R := by
    rw [← mul_assoc, abs_mul, abs_of_pos (mul_pos hy hρ)]
    calc _ ≤ fy * ρ * 1 := mul_le_mul_of_nonneg_left (abs_sin_le_one θ) (mul_pos hy hρ).le
      _ ≤ R := by linarith
  have b3 : |s * (fy * (ρ * sin θ))| ≤ R := by
    rw [← mul_assoc fy, abs_mul, abs_mul, abs_of_pos (mul_pos hy hρ), ← mul_assoc]
    calc _ ≤ |s| * (fy * ρ) * 1 := mul_le_mul_of_nonneg_left (abs_sin_le_one θ)
          (mul_nonneg (abs_nonneg s) (mul_pos hy hρ).le)
      _ ≤ R := by linarith
  refine ⟨L.rnd (L.rnd (fx * L.rnd (ρ * L.cos θ)) - L.rnd (s * L.rnd (fy * L.rnd (ρ * L.sin θ)))),
    L.rnd (fy * L.rnd (ρ * L.sin θ)), ?_, ?_, ?_⟩
  · unfold GeometryRounded.xyAt
    simp only [L.cos_fin, L.sin_fin, L.mul_fin, L.sub_fin]
  · have := rounded_diff hr hu (by linarith) (x2.mono (by linarith)) t
    refine this.trans ?_
    have h9 : 0 ≤ 9 * u := by linarith
    calc _ ≤ 9 * u * (R + R) := mul_le_mul_of_nonneg_left (add_le_add b1 b3) h9
      _ = _ := by ring
  · have h5 : |L.rnd (fy * L.rnd (ρ * L.sin θ)) - fy * (ρ * sin θ)| ≤ 5 * u * |fy * (ρ * sin θ)| := y2
    exact h5.trans (mul_le_mul_of_nonneg_left b2 (by linarith))

/-- And so is its distance. -/
theorem distance_near {L : FloatLib ℝ} {u : ℝ} (hL : Accurate L u) (hu1 : 1000 * u ≤ 1) {R X Y : ℝ}
    {p : ℝ × ℝ} (hp : norm2 p ≤ R) (hX : |X - p.1| ≤ 18 * u * R) (hY : |Y - p.2| ≤ 5 * u * R) :
    |L.hypot X Y - norm2 p| ≤ 25 * u * R := by
  have hu := hL.nonneg
  have hR : 0 ≤ R := (size_nonneg p).trans hp
  have h1 := norm2_near (X, Y) p
  simp only at h1
  have h2 : |L.hypot X Y - norm2 (X, Y)| ≤ u * |norm2 (X, Y)| := hL.hypot X Y
  rw [abs_of_nonneg (size_nonneg _)] at h2
  have h3 : norm2 (X, Y) ≤ 2 * R := by
    have := (abs_le.1 h1).2
    have e := mul_le_mul_of_nonneg_right hu1 hR
    have : 0 ≤ u * R := mul_nonneg hu hR
    linarith
  have h4 := mul_le_mul_of_nonneg_left h3 hu
  have h5 := abs_sub_le (L.hypot X Y) (norm2 (X, Y)) (norm2 p)
  linarith

/-! ## The computed angles -/

/-- The sum of the squared sizes over that of the circle. -/
def Spec.bulk (fx fy s : ℝ) : ℝ := fx ^ 2 + (s ^ 2 + 1) * fy ^ 2

theorem bulk_nonneg (fx fy s : ℝ) : 0 ≤ bulk fx fy s := by unfold bulk; positivity

/-- The computed angles are those of some vector near the true one. -/
theorem vertexAngles_near {L : FloatLib ℝ} {u : ℝ} (hL : Accurate L u) (hu1 : 1000 * u ≤ 1)
    (fx fy s : ℝ) (hx : 0 < fx) (hy : 0 < fy) :
    ∃ θ₁ θ₂ n d : ℝ, GeometryRounded.vertexAngles L (.fin fx) (.fin fy) (.fin s) = (.fin θ₁, .fin θ₂) ∧
      |d - ((s * s + 1) * (fy * fy) - fx * fx)| ≤ 9 * u * bulk fx fy s ∧
      |n - 2 * fx * fy * s| ≤ 5 * u * bulk fx fy s ∧
      |2 * θ₁ - Complex.arg ⟨d, n⟩| ≤ 10 * u ∧ |2 * θ₂ - (Complex.arg ⟨d, n⟩ + π)| ≤ 32 * u := by
  have hu := hL.nonneg
  have hr := hL.rnd
  have q1 : RelNear (1 * u) (L.rnd (s * s)) (s * s) := RelNear.rnd_self hr _
  have q2 : RelNear (3 * u) (L.rnd (L.rnd (s * s) + 1)) (s * s + 1) :=
    (q1.add_right zero_le_one (mul_self_nonneg s) (by linarith)).rnd hr hu (by linarith) (by norm_num)
  have q3 : RelNear (5 * u) (L.rnd (L.rnd (s * s) + 1) * L.rnd (fy * fy)) ((s * s + 1) * (fy * fy)) :=
    q2.mul (RelNear.rnd_self hr (fy * fy)) hu (by norm_num) (by norm_num) (by linarith) (by norm_num)
  have q4 : RelNear (7 * u) (L.rnd (L.rnd (L.rnd (s * s) + 1) * L.rnd (fy * fy)))
      ((s * s + 1) * (fy * fy)) := q3.rnd hr hu (by linarith) (by norm_num)
  have q5 : RelNear (1 * u) (L.rnd (fx * fx)) (fx * fx) := RelNear.rnd_self hr _
  have q6 := rounded_diff hr hu (by linarith) q4 (q5.mono (by linarith))
  have n1 : RelNear (1 * u) (L.rnd (2 * fx)) (2 * fx) := RelNear.rnd_self hr _
  have n2 : RelNear (3 * u) (L.rnd (L.rnd (2 * fx) * fy)) (2 * fx * fy) :=
    (n1.mul_right fy).rnd hr hu (by linarith) (by norm_num)
  have n3 : RelNear (5 * u) (L.rnd (L.rnd (L.rnd (2 * fx) * fy) * s)) (2 * fx * fy * s) :=
    (n2.mul_right s).rnd hr hu (by linarith) (by norm_num)
  have n4 : |L.rnd (L.rnd (L.rnd (2 * fx) * fy) * s) - 2 * fx * fy * s| ≤ 5 * u * |2 * fx * fy * s| := n3
  have n5 : |2 * fx * fy * s| ≤ bulk fx fy s := by
    unfold bulk
    rw [abs_le]
    constructor <;> nlinarith [sq_nonneg (fx + fy * s), sq_nonneg (fx - fy * s), sq_nonneg fy]
  have q7 : |(s * s + 1) * (fy * fy)| + |fx * fx| = bulk fx fy s := by
    unfold bulk
    rw [abs_of_nonneg (mul_nonneg (add_nonneg (mul_self_nonneg s) zero_le_one) (mul_self_nonneg fy)),
      abs_of_nonneg (mul_self_nonneg fx)]; ring
  rw [q7] at q6
  set d := L.rnd (L.rnd (L.rnd (L.rnd (s * s) + 1) * L.rnd (fy * fy)) - L.rnd (fx * fx))
  set n := L.rnd (L.rnd (L.rnd (2 * fx) * fy) * s)
  set φ := Complex.arg ⟨d, n⟩ with hφ
  have hpi : π < 3.15 := pi_lt_d2
  have hpi0 := pi_pos
  have p1 : |φ| ≤ π := Complex.abs_arg_le_pi _
  have a1 : RelNear (1 * u) (L.arctan2 n d) φ := by rw [one_mul]; exact hL.arctan2 n d
  have a2 : RelNear (3 * u) (L.rnd (1 / 2 * L.arctan2 n d)) (1 / 2 * φ) :=
    (a1.mul_left (1 / 2)).rnd hr hu (by linarith) (by norm_num)
  have a3 : |L.rnd (1 / 2 * L.arctan2 n d) - 1 / 2 * φ| ≤ 3 * u * |1 / 2 * φ| := a2
  have p2 : |1 / 2 * φ| ≤ π / 2 := by rw [abs_mul, abs_of_pos (by norm_num)]; linarith
  have a4 : |L.rnd (1 / 2 * L.arctan2 n d) - 1 / 2 * φ| ≤ 3 * u * (π / 2) :=
    a3.trans (mul_le_mul_of_nonneg_left p2 (by linarith))
  have b1 : RelNear (1 * u) L.pi π := by rw [one_mul]; exact hL.pi
  have b2 : RelNear (3 * u) (L.rnd (L.pi / 2)) (π / 2) := by
    rw [div_eq_mul_inv, div_eq_mul_inv]
    exact (b1.mul_right _).rnd hr hu (by linarith) (by norm_num)
  have b3 : |L.rnd (L.pi / 2) - π / 2| ≤ 3 * u * |π / 2| := b2
  rw [abs_of_pos (show 0 < π / 2 by linarith)] at b3
  have hupi : u * π ≤ 3.15 * u := by
    rw [mul_comm]; exact mul_le_mul_of_nonneg_right hpi.le hu
  refine ⟨L.rnd (1 / 2 * L.arctan2 n d), L.rnd (L.rnd (1 / 2 * L.arctan2 n d) + L.rnd (L.pi / 2)), n, d,
    ?_, q6, n4.trans (mul_le_mul_of_nonneg_left n5 (by linarith)), ?_, ?_⟩
  · unfold GeometryRounded.vertexAngles
    simp only [L.sq_fin, L.mul_fin, L.add_fin, L.sub_fin, L.arctan2_fin,
      L.div_fin _ _ (two_ne_zero (α := ℝ))]
    rfl
  · rw [← hφ, show 2 * L.rnd (1 / 2 * L.arctan2 n d) - φ = 2 * (L.rnd (1 / 2 * L.arctan2 n d) - 1 / 2 * φ)
      by ring, abs_mul, abs_of_pos (by norm_num)]
    linarith
  · rw [← hφ]
    generalize L.rnd (1 / 2 * L.arctan2 n d) = θ at a4 ⊢
    generalize L.rnd (L.pi / 2) = h at b3 ⊢
    have e1 : |(θ + h) - (1 / 2 * φ + π / 2)| ≤ 3 * u * π := by
      rw [show (θ + h) - (1 / 2 * φ + π / 2) = (θ - 1 / 2 * φ) + (h - π / 2) by ring]
      refine (abs_add_le _ _).trans ?_
      linarith
    have e2 : |1 / 2 * φ + π / 2| ≤ π := by
      refine (abs_add_le _ _).trans ?_
      rw [abs_of_pos (show 0 < π / 2 by linarith)]; linarith
    have e3 := abs_sub_abs_le_abs_sub (θ + h) (1 / 2 * φ + π / 2)
    have e4 : |θ + h| ≤ 2 * π := by
      have := mul_le_mul_of_nonneg_right hu1 hpi0.le
      linarith
    have e5 := hr (θ + h)
    have e6 := mul_le_mul_of_nonneg_left e4 hu
    have e7 := abs_sub_le (L.rnd (θ + h)) (θ + h) (1 / 2 * φ + π / 2)
    rw [show 2 * L.rnd (θ + h) - (φ + π) = 2 * (L.rnd (θ + h) - (1 / 2 * φ + π / 2)) by ring, abs_mul,
      abs_of_pos (by norm_num)]
    linarith

theorem cos_near (a b : ℝ) : |cos a - cos b| ≤ |a - b| := by
  have := Real.abs_cos_sub_cos_le a b
  exact this

theorem sin_near (a b : ℝ) : |sin a - sin b| ≤ |a - b| := by
  have := Real.abs_sin_sub_sin_le a b
  exact this

/-- A product of nearly equal factors. -/
theorem mul_near {a b c d S e k : ℝ} (ha : |a| ≤ S) (hb : |b - d| ≤ k) (hac : |c - a| ≤ e) (hd : |d| ≤ 1)
    (hk : 0 ≤ k) : |a * b - c * d| ≤ S * k + e := by
  rw [show a * b - c * d = a * (b - d) - (c - a) * d by ring]
  refine (abs_sub _ _).trans ?_
  rw [abs_mul, abs_mul]
  have h1 : |a| * |b - d| ≤ S * k := mul_le_mul ha hb (abs_nonneg _) ((abs_nonneg a).trans ha)
  have h2 : |c - a| * |d| ≤ e * 1 := mul_le_mul hac hd (abs_nonneg _) ((abs_nonneg _).trans hac)
  linarith

/-- The direction of a vector near `(d, n)` is nearly that of `(d, n)`: along it the vector is nearly as
long, and across it nearly vanishes. -/
theorem direction_near {d n d' n' S e₁ e₂ ψ k : ℝ} (hd : |d| ≤ S) (hn : |n| ≤ S) (h1 : |d' - d| ≤ e₁)
    (h2 : |n' - n| ≤ e₂) (hψ : |ψ - Complex.arg ⟨d', n'⟩| ≤ k) :
    norm2 (d, n) - (2 * (e₁ + e₂) + 2 * S * k) ≤ d * cos ψ + n * sin ψ ∧
      |d * sin ψ - n * cos ψ| ≤ e₁ + e₂ + 2 * S * k := by
  set φ := Complex.arg ⟨d', n'⟩ with hφ
  have hk : 0 ≤ k := (abs_nonneg _).trans hψ
  have c1 : norm2 (d', n') * cos φ = d' := by rw [norm2_eq]; exact Complex.norm_mul_cos_arg ⟨d', n'⟩
  have s1 : norm2 (d', n') * sin φ = n' := by rw [norm2_eq]; exact Complex.norm_mul_sin_arg ⟨d', n'⟩
  have hc := (cos_near ψ φ).trans hψ
  have hs := (sin_near ψ φ).trans hψ
  have m1 := mul_near hd hc h1 (abs_cos_le_one φ) hk
  have m2 := mul_near hn hs h2 (abs_sin_le_one φ) hk
  have m3 := mul_near hd hs h1 (abs_sin_le_one φ) hk
  have m4 := mul_near hn hc h2 (abs_cos_le_one φ) hk
  have hN := norm2_near (d', n') (d, n)
  simp only at hN
  constructor
  · have e : d' * cos φ + n' * sin φ = norm2 (d', n') := by
      have := sin_sq_add_cos_sq φ
      calc _ = norm2 (d', n') * cos φ * cos φ + norm2 (d', n') * sin φ * sin φ := by rw [c1, s1]
        _ = norm2 (d', n') * (sin φ ^ 2 + cos φ ^ 2) := by ring
        _ = _ := by rw [this, mul_one]
    have := (abs_le.1 m1).1
    have := (abs_le.1 m2).1
    have := (abs_le.1 hN).1
    linarith
  · have e : d' * sin φ - n' * cos φ = 0 := by
      calc _ = norm2 (d', n') * cos φ * sin φ - norm2 (d', n') * sin φ * cos φ := by rw [c1, s1]
        _ = 0 := by ring
    rw [show d * sin ψ - n * cos ψ = (d * sin ψ - d' * sin φ) - (n * cos ψ - n' * cos φ) by linarith]
    refine (abs_sub _ _).trans ?_
    linarith

/-! ## The sizes at the computed angles -/

theorem sheared_dir (fx fy s ρ θ : ℝ) : norm2 (sheared fx fy s ρ θ) ^ 2 =
    ρ ^ 2 / 2 * (bulk fx fy s - (((s * s + 1) * (fy * fy) - fx * fx) * cos (2 * θ) +
      2 * fx * fy * s * sin (2 * θ))) := by
  rw [size_sq, sheared_sq, mul_sub 2, cos_sub]
  have h1 := spread_cos fx fy s
  have h2 := spread_sin fx fy s
  unfold bulk
  rw [← h1, ← h2]
  ring

theorem spread_eq (fx fy s : ℝ) :
    spread fx fy s = norm2 ((s * s + 1) * (fy * fy) - fx * fx, 2 * fx * fy * s) := by
  rw [norm2_eq]; rfl

theorem sheared_least (fx fy s ρ : ℝ) : norm2 (sheared fx fy s ρ (vertex fx fy s)) ^ 2 =
    ρ ^ 2 / 2 * (bulk fx fy s - spread fx fy s) := by
  rw [size_sq, sheared_sq, sub_self, mul_zero, cos_zero]
  unfold bulk; ring

theorem sheared_most (fx fy s ρ : ℝ) : norm2 (sheared fx fy s ρ (vertex fx fy s + π / 2)) ^ 2 =
    ρ ^ 2 / 2 * (bulk fx fy s + spread fx fy s) := by
  rw [size_sq, sheared_sq, add_sub_cancel_left, mul_div_cancel₀ _ (two_ne_zero), cos_pi]
  unfold bulk; ring

/-- The parts of the vector are at most the bulk. -/
theorem parts_le (fx fy s : ℝ) : |(s * s + 1) * (fy * fy) - fx * fx| ≤ bulk fx fy s ∧
    |2 * fx * fy * s| ≤ bulk fx fy s := by
  unfold bulk
  refine ⟨abs_le.2 ⟨?_, ?_⟩, abs_le.2 ⟨?_, ?_⟩⟩ <;>
    nlinarith [sq_nonneg (fx + fy * s), sq_nonneg (fx - fy * s), sq_nonneg fy, sq_nonneg fx,
      sq_nonneg (fy * s)]

/-- If the ellipse is clearly elongated, the error of the size is of second order. -/
theorem second_order {q S V c x u : ℝ} (hq : 0 ≤ q) (hS0 : 0 ≤ S) (hS3 : 0 < q * S) (hV0 : 0 ≤ V) (hu : 0 ≤ u)
    (hu1 : 1000 * u ≤ 1) (hcase : S ≤ 2 * V) (hcx : c ^ 2 + x ^ 2 = V ^ 2) (g1 : V - c ≤ 48 * u * S)
    (g2 : |x| ≤ 34 * u * S) : q / 2 * (V - c) ≤ 1156 * u ^ 2 * (q * S) := by
  have hx2 : x ^ 2 ≤ (34 * u * S) ^ 2 :=
    sq_le_sq' (by linarith [neg_abs_le x]) (by linarith [le_abs_self x])
  have hSu : 1000 * u * S ≤ S := by
    have := mul_le_mul_of_nonneg_right hu1 hS0
    linarith
  have hc0 : 0 ≤ c := by linarith
  have hVc : c ≤ V := le_of_sq_le_sq (by linarith [sq_nonneg x]) hV0
  have hVc' : 0 ≤ V - c := by linarith
  have f0 : 0 ≤ c * (V - c) := mul_nonneg hc0 hVc'
  have f1 : V * (V - c) ≤ (34 * u * S) ^ 2 := by
    have : V * (V - c) + c * (V - c) = x ^ 2 := by linear_combination -hcx
    linarith
  have f2 : S * (V - c) ≤ 2 * (V * (V - c)) := by
    have := mul_le_mul_of_nonneg_right hcase hVc'
    linarith
  have f3 : (q / 2 * (V - c)) * (q * S) ≤ 1156 * u ^ 2 * (q * S) * (q * S) := by
    have := mul_le_mul_of_nonneg_left (f2.trans (mul_le_mul_of_nonneg_left f1 (zero_le_two)))
      (show 0 ≤ q * q / 2 by positivity)
    calc _ = q * q / 2 * (S * (V - c)) := by ring
      _ ≤ _ := this
      _ = _ := by ring
  exact le_of_mul_le_mul_right f3 hS3

/-- RelNear the first angle the size is nearly the smallest. -/
theorem least_near {fx fy s ρ θ d n u r R : ℝ} (hu : 0 ≤ u) (hu1 : 1000 * u ≤ 1)
    (hx : 0 < fx) (hy : 0 < fy) (hρ : 0 < ρ)
    (hR : R = norm2 (sheared fx fy s ρ (vertex fx fy s + π / 2)))
    (hr : r = norm2 (sheared fx fy s ρ (vertex fx fy s)))
    (hd : |d - ((s * s + 1) * (fy * fy) - fx * fx)| ≤ 9 * u * bulk fx fy s)
    (hn : |n - 2 * fx * fy * s| ≤ 5 * u * bulk fx fy s)
    (hθ : |2 * θ - Complex.arg ⟨d, n⟩| ≤ 10 * u) :
    norm2 (sheared fx fy s ρ θ) ≤ r + 49 * u * R := by
  obtain ⟨g1, g2⟩ := direction_near (parts_le fx fy s).1 (parts_le fx fy s).2 hd hn hθ
  rw [← spread_eq] at g1
  have hp2 := sheared_dir fx fy s ρ θ
  have hr2 := sheared_least fx fy s ρ
  have hR2 := sheared_most fx fy s ρ
  rw [← hr] at hr2
  rw [← hR] at hR2
  have hr0 : 0 < r := hr ▸ size_pos_sheared fx fy s ρ _ hx hy hρ
  have hR0 : 0 < R := hR ▸ size_pos_sheared fx fy s ρ _ hx hy hρ
  have hN : norm2 ((s * s + 1) * (fy * fy) - fx * fx, 2 * fx * fy * s) ^ 2 = spread fx fy s ^ 2 := by
    rw [spread_eq]
  rw [size_sq] at hN
  simp only at hN
  have hS0 := bulk_nonneg fx fy s
  have hV0 := spread_nonneg fx fy s
  generalize (s * s + 1) * (fy * fy) - fx * fx = D at *
  generalize 2 * fx * fy * s = N at *
  generalize bulk fx fy s = S at *
  generalize spread fx fy s = V at *
  set c := D * cos (2 * θ) + N * sin (2 * θ) with hc
  set x := D * sin (2 * θ) - N * cos (2 * θ) with hx'
  have hcx : c ^ 2 + x ^ 2 = V ^ 2 := by
    rw [← hN, hc, hx']
    have := sin_sq_add_cos_sq (2 * θ)
    linear_combination (D ^ 2 + N ^ 2) * this
  have g1' : V - c ≤ 48 * u * S := by linarith
  have g2' : |x| ≤ 34 * u * S := by linarith
  have hq : 0 ≤ ρ ^ 2 := sq_nonneg ρ
  have hS2 : ρ ^ 2 * S = r ^ 2 + R ^ 2 := by rw [hr2, hR2]; ring
  have hrR : r ≤ R := by rw [hr, hR]; exact (size_bounds fx fy s ρ _).2
  have hSR : ρ ^ 2 * S ≤ 2 * R ^ 2 := by rw [hS2]; nlinarith
  have huR : 0 ≤ u * R := mul_nonneg hu hR0.le
  refine le_of_sq_le_sq ?_ (by linarith)
  have e0 : ρ ^ 2 / 2 * (S - c) = r ^ 2 + ρ ^ 2 / 2 * (V - c) := by rw [hr2]; ring
  rw [hp2, e0]
  have f6 : (r + 49 * u * R) ^ 2 = r ^ 2 + 98 * (r * (u * R)) + 2401 * (u ^ 2 * R ^ 2) := by ring
  have f7 : 0 ≤ r * (u * R) := mul_nonneg hr0.le huR
  have f8 : 0 ≤ u ^ 2 * R ^ 2 := by positivity
  rw [f6]
  rcases le_total S (2 * V) with hcase | hcase
  · have hS3 : 0 < ρ ^ 2 * S := by rw [hS2]; positivity
    have f4 := second_order hq hS0 hS3 hV0 hu hu1 hcase hcx g1' g2'
    have f5 : 1156 * u ^ 2 * (ρ ^ 2 * S) ≤ 1156 * u ^ 2 * (2 * R ^ 2) :=
      mul_le_mul_of_nonneg_left hSR (by positivity)
    linarith
  · have f1 : R ^ 2 ≤ (2 * r) ^ 2 := by
      have := mul_le_mul_of_nonneg_left (show S + V ≤ 4 * (S - V) by linarith) (show 0 ≤ ρ ^ 2 / 2 by linarith)
      rw [mul_pow, hR2, hr2]
      linarith
    have f2 : R ≤ 2 * r := le_of_sq_le_sq f1 (by linarith)
    have f3 : ρ ^ 2 / 2 * (V - c) ≤ 48 * ((u * R) * R) := by
      have h1 := mul_le_mul_of_nonneg_left g1' (show 0 ≤ ρ ^ 2 / 2 by linarith)
      have h2 := mul_le_mul_of_nonneg_left hSR hu
      linarith
    have f4 : (u * R) * R ≤ (u * R) * (2 * r) := mul_le_mul_of_nonneg_left f2 huR
    linarith

/-- RelNear the second angle the size is nearly the largest. -/
theorem most_near {fx fy s ρ θ d n u R : ℝ} (hu : 0 ≤ u)
    (hx : 0 < fx) (hy : 0 < fy) (hρ : 0 < ρ)
    (hR : R = norm2 (sheared fx fy s ρ (vertex fx fy s + π / 2)))
    (hd : |d - ((s * s + 1) * (fy * fy) - fx * fx)| ≤ 9 * u * bulk fx fy s)
    (hn : |n - 2 * fx * fy * s| ≤ 5 * u * bulk fx fy s)
    (hθ : |2 * θ - (Complex.arg ⟨d, n⟩ + π)| ≤ 32 * u) :
    R - 92 * u * R ≤ norm2 (sheared fx fy s ρ θ) := by
  obtain ⟨g1, -⟩ := direction_near (ψ := 2 * θ - π) (parts_le fx fy s).1 (parts_le fx fy s).2 hd hn
    (k := 32 * u) (by rwa [show 2 * θ - π - Complex.arg ⟨d, n⟩ = 2 * θ - (Complex.arg ⟨d, n⟩ + π) by ring])
  rw [← spread_eq, cos_sub_pi, sin_sub_pi] at g1
  have hp2 := sheared_dir fx fy s ρ θ
  have hr2 := sheared_least fx fy s ρ
  have hR2 := sheared_most fx fy s ρ
  rw [← hR] at hR2
  have hp0 := size_nonneg (sheared fx fy s ρ θ)
  have hpR : norm2 (sheared fx fy s ρ θ) ≤ R := hR ▸ (size_bounds fx fy s ρ θ).2
  have hrR : norm2 (sheared fx fy s ρ (vertex fx fy s)) ≤ R := hR ▸ (size_bounds fx fy s ρ _).2
  have hr0 := size_nonneg (sheared fx fy s ρ (vertex fx fy s))
  have hR0 : 0 < R := hR ▸ size_pos_sheared fx fy s ρ _ hx hy hρ
  generalize norm2 (sheared fx fy s ρ θ) = P at *
  generalize norm2 (sheared fx fy s ρ (vertex fx fy s)) = r at *
  generalize (s * s + 1) * (fy * fy) - fx * fx = D at *
  generalize 2 * fx * fy * s = N at *
  generalize bulk fx fy s = S at *
  generalize spread fx fy s = V at *
  have hq : 0 ≤ ρ ^ 2 / 2 := by positivity
  have hS2 : ρ ^ 2 * S = r ^ 2 + R ^ 2 := by rw [hr2, hR2]; ring
  have hSR : ρ ^ 2 * S ≤ 2 * R ^ 2 := by rw [hS2]; nlinarith
  have g1' : V + (D * cos (2 * θ) + N * sin (2 * θ)) ≤ 92 * u * S := by linarith
  have f1 : R ^ 2 - P ^ 2 ≤ 92 * u * R ^ 2 := by
    have h1 := mul_le_mul_of_nonneg_left g1' hq
    have h2 := mul_le_mul_of_nonneg_left hSR hu
    have e : R ^ 2 - P ^ 2 = ρ ^ 2 / 2 * (V + (D * cos (2 * θ) + N * sin (2 * θ))) := by
      rw [hR2, hp2]; ring
    rw [e]; linarith
  have f2 : (R - P) * R ≤ (92 * u * R) * R := by nlinarith
  have := le_of_mul_le_mul_right f2 hR0
  linarith

/-! ## Radius and inclination -/

theorem maximum_fin (a b : ℝ) : XF.maximum (.fin a) (.fin b) = .fin (max a b) := by
  unfold XF.maximum
  simp only [XF.isNan_fin, Bool.or_false, Bool.false_eq_true, if_false, XF.lt_fin, decide_eq_true_eq]
  split_ifs with h
  · rw [max_eq_right h.le]
  · rw [max_eq_left (not_lt.1 h)]

theorem minimum_fin (a b : ℝ) : XF.minimum (.fin a) (.fin b) = .fin (min a b) := by
  unfold XF.minimum
  simp only [XF.isNan_fin, Bool.or_false, Bool.false_eq_true, if_false, XF.lt_fin, decide_eq_true_eq]
  split_ifs with h
  · rw [min_eq_right h.le]
  · rw [min_eq_left (not_lt.1 h)]

theorem rounds_zero {f : ℝ → ℝ} {u : ℝ} (hr : Rounds f u) : f 0 = 0 := by
  have := hr 0
  rw [abs_zero, mul_zero, sub_zero] at this
  exact abs_nonpos_iff.1 this

/-- The computed inclination of an ellipse with axis ratio `q`. -/
theorem inclination_near {L : FloatLib ℝ} {u : ℝ} (hL : Accurate L u) (hu1 : 1000 * u ≤ 1) {q : ℝ}
    (h0 : 0 ≤ q) (h1 : q ≤ 1) :
    ∃ i, L.rad2deg (L.arccosX (.fin (L.rnd q))) = .fin i ∧ 0 ≤ i ∧ |cos (rad i) - q| ≤ 14 * u := by
  have hu := hL.nonneg
  have hr := hL.rnd
  have g0 : 0 ≤ L.rnd q := by rw [← rounds_zero hr]; exact hL.mono h0
  have g1 : L.rnd q ≤ 1 := by rw [← hL.one]; exact hL.mono h1
  have hpi : π < 3.15 := pi_lt_d2
  have hpi0 := pi_pos
  have b1 : RelNear u L.pi π := hL.pi
  have hLpi : 0 < L.pi := b1.pos hpi0 (by linarith)
  have b2 : RelNear (2 * u) (1 / L.pi) (1 / π) := b1.inv hpi0 hu (by linarith)
  have b3 : RelNear (2 * u) (180 / L.pi) (180 / π) := by
    have := b2.mul_left 180
    rwa [mul_one_div, mul_one_div] at this
  have b4 : RelNear (4 * u) (L.rnd (180 / L.pi)) (180 / π) := b3.rnd hr hu (by linarith) (by norm_num)
  have a1 : RelNear (1 * u) (L.arccos (L.rnd q)) (arccos (L.rnd q)) := by
    rw [one_mul]; exact hL.arccos _ (by linarith) g1
  have a2 : RelNear (6 * u) (L.arccos (L.rnd q) * L.rnd (180 / L.pi)) (arccos (L.rnd q) * (180 / π)) :=
    a1.mul b4 hu (by norm_num) (by norm_num) (by linarith) (by norm_num)
  have a3 : RelNear (8 * u) (L.rnd (L.arccos (L.rnd q) * L.rnd (180 / L.pi)))
      (arccos (L.rnd q) * (180 / π)) := a2.rnd hr hu (by linarith) (by norm_num)
  have c0 := arccos_nonneg (L.rnd q)
  refine ⟨L.rnd (L.arccos (L.rnd q) * L.rnd (180 / L.pi)), ?_, ?_, ?_⟩
  · rw [L.arccos_fin _ (by linarith) g1]
    unfold FloatLib.rad2deg
    rw [L.div_fin _ _ hLpi.ne', L.mul_fin]
  · exact a3.nonneg (mul_nonneg c0 (by positivity)) (by linarith)
  · have a4 := a3.mul_right (π / 180)
    rw [mul_assoc (arccos _), show 180 / π * (π / 180) = 1 by field_simp, mul_one] at a4
    have a5 : |rad (L.rnd (L.arccos (L.rnd q) * L.rnd (180 / L.pi))) - arccos (L.rnd q)| ≤
      8 * u * |arccos (L.rnd q)| := a4
    rw [abs_of_nonneg c0] at a5
    have c1 : arccos (L.rnd q) ≤ π / 2 := arccos_le_pi_div_two.2 g0
    have c2 := mul_le_mul_of_nonneg_left (c1.trans (show π / 2 ≤ 1.58 by linarith)) hu
    have c3 := cos_near (rad (L.rnd (L.arccos (L.rnd q) * L.rnd (180 / L.pi)))) (arccos (L.rnd q))
    rw [cos_arccos (by linarith) g1] at c3
    have c4 := hr q
    rw [abs_of_nonneg h0] at c4
    have c5 := mul_le_mul_of_nonneg_left h1 hu
    have c6 := abs_sub_le (cos (rad (L.rnd (L.arccos (L.rnd q) * L.rnd (180 / L.pi))))) (L.rnd q) q
    linarith

/-- The ratio of numbers near two others. -/
theorem ratio_near {r R r' R' u : ℝ} (hu : 0 ≤ u) (hu1 : 1000 * u ≤ 1) (hr : 0 ≤ r) (hrR : r ≤ R) (hR : 0 < R)
    (h1 : |r' - r| ≤ 117 * u * R) (h2 : |R' - R| ≤ 117 * u * R) : |r' / R' - r / R| ≤ 270 * u := by
  have hR' : 0.88 * R ≤ R' := by
    have := (abs_le.1 h2).1
    have := mul_le_mul_of_nonneg_right hu1 hR.le
    linarith
  have hR0 : 0 < R' := by linarith
  rw [div_sub_div _ _ hR0.ne' hR.ne', abs_div, abs_of_pos (mul_pos hR0 hR), div_le_iff₀ (mul_pos hR0 hR)]
  have e : r' * R - R' * r = (r' - r) * R - (R' - R) * r := by ring
  rw [e]
  refine (abs_sub _ _).trans ?_
  rw [abs_mul, abs_mul, abs_of_pos hR, abs_of_nonneg hr]
  have e1 := mul_le_mul_of_nonneg_right h1 hR.le
  have e2 : |R' - R| * r ≤ 117 * u * R * R :=
    mul_le_mul h2 hrR hr ((abs_nonneg _).trans h2)
  have e3 := mul_le_mul_of_nonneg_left hR' (mul_nonneg hu hR.le)
  have e4 : 0 ≤ u * R * R := mul_nonneg (mul_nonneg hu hR.le) hR.le
  nlinarith

/-- What `_determine_disk_parameters` computes. -/
theorem axes_computed {L : FloatLib ℝ} {u : ℝ} (hL : Accurate L u) (hu1 : 1000 * u ≤ 1) {fx fy s ρ : ℝ}
    (hx : 0 < fx) (hy : 0 < fy) (hρ : 0 < ρ) {R r : ℝ}
    (hR : IsGreatest (Set.range fun θ => norm2 (sheared fx fy s ρ θ)) R)
    (hr : IsLeast (Set.range fun θ => norm2 (sheared fx fy s ρ θ)) r) :
    ∃ a i t θ X Y d₂ n d, GeometryRounded.diskParameters L (.fin fx) (.fin fy) (.fin s) (.fin ρ) =
        (.fin a, .fin i, .fin t) ∧
      (|a - R| ≤ 117 * u * R ∧ 0 ≤ i ∧ |cos (rad i) - r / R| ≤ 290 * u) ∧
      t = L.rnd ((if L.hypot X Y < d₂ then L.rnd (L.arctan2 Y X + L.rnd (L.pi / 2)) else
        L.arctan2 Y X) * L.rnd (180 / L.pi)) ∧
      (|X - (sheared fx fy s ρ θ).1| ≤ 18 * u * R ∧ |Y - (sheared fx fy s ρ θ).2| ≤ 5 * u * R) ∧
      (L.hypot X Y ≤ r + 74 * u * R ∧ R - 117 * u * R ≤ d₂) ∧
      |d - ((s * s + 1) * (fy * fy) - fx * fx)| ≤ 9 * u * bulk fx fy s ∧
      |n - 2 * fx * fy * s| ≤ 5 * u * bulk fx fy s ∧ |2 * θ - Complex.arg ⟨d, n⟩| ≤ 10 * u := by
  have hu := hL.nonneg
  have hrnd := hL.rnd
  have hR1 : R = norm2 (sheared fx fy s ρ (vertex fx fy s + π / 2)) := by
    refine hR.unique ⟨⟨_, rfl⟩, ?_⟩
    rintro _ ⟨θ, rfl⟩; exact (size_bounds fx fy s ρ θ).2
  have hr1 : r = norm2 (sheared fx fy s ρ (vertex fx fy s)) := by
    refine hr.unique ⟨⟨_, rfl⟩, ?_⟩
    rintro _ ⟨θ, rfl⟩; exact (size_bounds fx fy s ρ θ).1
  have hR0 : 0 < R := hR1 ▸ size_pos_sheared fx fy s ρ _ hx hy hρ
  have hr0 : 0 < r := hr1 ▸ size_pos_sheared fx fy s ρ _ hx hy hρ
  have hrR : r ≤ R := by rw [hr1, hR1]; exact (size_bounds fx fy s ρ _).2
  obtain ⟨θ₁, θ₂, n, d, hθ, hd, hn, k1, k2⟩ := vertexAngles_near hL hu1 fx fy s hx hy
  obtain ⟨X₁, Y₁, hp1, x1, y1⟩ := xyAt_near hL hu1 fx fy s ρ θ₁ hx hy hρ hR1
  obtain ⟨X₂, Y₂, hp2, x2, y2⟩ := xyAt_near hL hu1 fx fy s ρ θ₂ hx hy hρ hR1
  have up : ∀ θ, norm2 (sheared fx fy s ρ θ) ≤ R := fun θ => hR1 ▸ (size_bounds fx fy s ρ θ).2
  have lo : ∀ θ, r ≤ norm2 (sheared fx fy s ρ θ) := fun θ => hr1 ▸ (size_bounds fx fy s ρ θ).1
  have m1 := least_near hu hu1 hx hy hρ hR1 hr1 hd hn k1
  have m2 := most_near hu hx hy hρ hR1 hd hn k2
  have d1 := abs_le.1 (distance_near hL hu1 (up θ₁) x1 y1)
  have d2 := abs_le.1 (distance_near hL hu1 (up θ₂) x2 y2)
  have u1 := up θ₂
  have l1 := lo θ₁
  have pos : ∀ x y, 0 ≤ L.hypot x y := fun x y =>
    (hL.hypot x y : RelNear u _ _).nonneg (sqrt_nonneg _) (by linarith)
  have p1 := pos X₁ Y₁
  have p2 := pos X₂ Y₂
  have huR : 0 ≤ u * R := mul_nonneg hu hR0.le
  have huR1 := mul_le_mul_of_nonneg_right hu1 hR0.le
  have hmax : |max (L.hypot X₁ Y₁) (L.hypot X₂ Y₂) - R| ≤ 117 * u * R := by
    refine abs_le.2 ⟨?_, ?_⟩
    · linarith [le_max_right (L.hypot X₁ Y₁) (L.hypot X₂ Y₂)]
    · have : max (L.hypot X₁ Y₁) (L.hypot X₂ Y₂) ≤ R + 74 * u * R :=
        max_le (by linarith) (by linarith)
      linarith
  have hmin : |min (L.hypot X₁ Y₁) (L.hypot X₂ Y₂) - r| ≤ 117 * u * R := by
    refine abs_le.2 ⟨?_, ?_⟩
    · have : r - 117 * u * R ≤ min (L.hypot X₁ Y₁) (L.hypot X₂ Y₂) :=
        le_min (by linarith) (by linarith)
      linarith
    · linarith [min_le_left (L.hypot X₁ Y₁) (L.hypot X₂ Y₂)]
  have hM0 : 0 < max (L.hypot X₁ Y₁) (L.hypot X₂ Y₂) := by
    have := (abs_le.1 hmax).1
    linarith
  have q0 : 0 ≤ min (L.hypot X₁ Y₁) (L.hypot X₂ Y₂) / max (L.hypot X₁ Y₁) (L.hypot X₂ Y₂) :=
    div_nonneg (le_min p1 p2) hM0.le
  have q1 : min (L.hypot X₁ Y₁) (L.hypot X₂ Y₂) / max (L.hypot X₁ Y₁) (L.hypot X₂ Y₂) ≤ 1 :=
    (div_le_one hM0).2 (min_le_max)
  obtain ⟨i, hi, hi0, hi1⟩ := inclination_near hL hu1 q0 q1
  have hq := ratio_near hu hu1 hr0.le hrR hR0 hmin hmax
  have hLpi : 0 < L.pi := (hL.pi : RelNear u _ _).pos pi_pos (by linarith)
  refine ⟨max (L.hypot X₁ Y₁) (L.hypot X₂ Y₂), i,
    L.rnd ((if L.hypot X₁ Y₁ < L.hypot X₂ Y₂ then L.rnd (L.arctan2 Y₁ X₁ + L.rnd (L.pi / 2)) else
      L.arctan2 Y₁ X₁) * L.rnd (180 / L.pi)), θ₁, X₁, Y₁, L.hypot X₂ Y₂, n, d, ?_, ⟨hmax, hi0, ?_⟩, rfl,
    ⟨x1, y1⟩, ⟨by linarith, by linarith⟩, hd, hn, k1⟩
  · unfold GeometryRounded.diskParameters
    simp only [hθ, hp1, hp2, L.hypot_fin, maximum_fin, minimum_fin, L.mul_fin, XF.isNan_fin, Bool.not_false,
      Bool.true_and, if_true, L.arctan2_fin, XF.lt_fin, decide_eq_true_eq,
      L.div_fin _ _ (two_ne_zero (α := ℝ)), L.div_fin _ _ hM0.ne', L.add_fin]
    rw [hi]
    refine Prod.ext rfl (Prod.ext rfl ?_)
    simp only
    unfold FloatLib.rad2deg
    rw [L.div_fin _ _ hLpi.ne']
    split_ifs <;> rw [L.mul_fin]
  · have := abs_sub_le (cos (rad i)) (min (L.hypot X₁ Y₁) (L.hypot X₂ Y₂) / max (L.hypot X₁ Y₁) (L.hypot X₂ Y₂))
      (r / R)
    linarith

/-- **C105** In floating point, the radius of the disk is that of the sheared ellipse up to a relative
error of `117 u`, and the cosine of its inclination is off by at most `290 u`; neither is ever NaN. -/
theorem C105_axes (L : FloatLib ℝ) (u : ℝ) (hL : Accurate L u) (hu1 : 1000 * u ≤ 1) (fx fy s ρ : ℝ)
    (hx : 0 < fx) (hy : 0 < fy) (hρ : 0 < ρ) (R r : ℝ)
    (hR : IsGreatest (Set.range fun θ => norm2 (sheared fx fy s ρ θ)) R)
    (hr : IsLeast (Set.range fun θ => norm2 (sheared fx fy s ρ θ)) r) :
    ∃ a i t, GeometryRounded.diskParameters L (.fin fx) (.fin fy) (.fin s) (.fin ρ) =
        (.fin a, .fin i, .fin t) ∧
      |a - R| ≤ 117 * u * R ∧ 0 ≤ i ∧ |cos (rad i) - r / R| ≤ 290 * u := by
  obtain ⟨a, i, t, θ, X, Y, d₂, n, d, h, h', -⟩ := axes_computed hL hu1 hx hy hρ hR hr
  exact ⟨a, i, t, h, h'⟩

/-! ## Tilt -/

/-- The condition number of the tilt of an ellipse with semi-axes `R` and `r`. -/
noncomputable def Spec.skew (R r : ℝ) : ℝ := R / r * ((R ^ 2 + r ^ 2) / (R ^ 2 - r ^ 2))

theorem skew_props {R r : ℝ} (hr : 0 < r) (h : r < R) : 1 ≤ R / r ∧ 1 ≤ (R ^ 2 + r ^ 2) / (R ^ 2 - r ^ 2) ∧
    R / r ≤ skew R r ∧ (R ^ 2 + r ^ 2) / (R ^ 2 - r ^ 2) ≤ skew R r := by
  have h2 : 0 < R ^ 2 - r ^ 2 := by nlinarith
  have g1 : 1 ≤ R / r := (one_le_div hr).2 h.le
  have g2 : 1 ≤ (R ^ 2 + r ^ 2) / (R ^ 2 - r ^ 2) := (one_le_div h2).2 (by nlinarith [sq_nonneg r])
  refine ⟨g1, g2, ?_, ?_⟩
  · unfold skew
    exact le_mul_of_one_le_right (by linarith) g2
  · unfold skew
    exact le_mul_of_one_le_left (by linarith) g1

/-- The cross product in polar coordinates. -/
theorem cross_eq (p q : ℝ × ℝ) : p.1 * q.2 - p.2 * q.1 =
    norm2 p * norm2 q * sin (Complex.arg ⟨q.1, q.2⟩ - Complex.arg ⟨p.1, p.2⟩) := by
  have h1 := Complex.norm_mul_cos_arg ⟨p.1, p.2⟩
  have h2 := Complex.norm_mul_sin_arg ⟨p.1, p.2⟩
  have h3 := Complex.norm_mul_cos_arg ⟨q.1, q.2⟩
  have h4 := Complex.norm_mul_sin_arg ⟨q.1, q.2⟩
  rw [← norm2_eq] at h1 h2 h3 h4
  simp only at h1 h2 h3 h4
  rw [sin_sub]
  generalize Complex.arg ⟨p.1, p.2⟩ = α at *
  generalize Complex.arg ⟨q.1, q.2⟩ = β at *
  rw [← h1, ← h2, ← h3, ← h4]
  ring

/-- The cross product of two vectors at a right angle. -/
theorem cross_perp {p q : ℝ × ℝ} (h : p.1 * q.1 + p.2 * q.2 = 0) :
    |p.1 * q.2 - p.2 * q.1| = norm2 p * norm2 q := by
  have h1 : (p.1 * q.2 - p.2 * q.1) ^ 2 = (norm2 p * norm2 q) ^ 2 := by
    rw [mul_pow, size_sq, size_sq]
    linear_combination -(p.1 * q.1 + p.2 * q.2) * h
  have h2 := abs_eq_abs.2 (sq_eq_sq_iff_eq_or_eq_neg.1 h1)
  rw [h2, abs_of_nonneg (mul_nonneg (size_nonneg _) (size_nonneg _))]

/-- The computed tilt from a computed direction. -/
theorem tilt_near {L : FloatLib ℝ} {u : ℝ} (hL : Accurate L u) (hu1 : 1000 * u ≤ 1) (X Y : ℝ) :
    |rad (L.rnd (L.rnd (L.arctan2 Y X + L.rnd (L.pi / 2)) * L.rnd (180 / L.pi))) -
      (Complex.arg ⟨X, Y⟩ + π / 2)| ≤ 46 * u := by
  have hu := hL.nonneg
  have hr := hL.rnd
  have hpi : π < 3.15 := pi_lt_d2
  have hpi0 := pi_pos
  set τ := Complex.arg ⟨X, Y⟩
  have p1 : |τ| ≤ π := Complex.abs_arg_le_pi _
  have a1 : |L.arctan2 Y X - τ| ≤ u * |τ| := hL.arctan2 Y X
  have a2 := mul_le_mul_of_nonneg_left p1 hu
  have b1 : RelNear (1 * u) L.pi π := by rw [one_mul]; exact hL.pi
  have b2 : RelNear (3 * u) (L.rnd (L.pi / 2)) (π / 2) := by
    rw [div_eq_mul_inv, div_eq_mul_inv]
    exact (b1.mul_right _).rnd hr hu (by linarith) (by norm_num)
  have b3 : |L.rnd (L.pi / 2) - π / 2| ≤ 3 * u * |π / 2| := b2
  rw [abs_of_pos (show 0 < π / 2 by linarith)] at b3
  have hLpi : RelNear u L.pi π := hL.pi
  have c2 : RelNear (2 * u) (1 / L.pi) (1 / π) := hLpi.inv hpi0 hu (by linarith)
  have c3 : RelNear (2 * u) (180 / L.pi) (180 / π) := by
    have := c2.mul_left 180
    rwa [mul_one_div, mul_one_div] at this
  have c4 : RelNear (4 * u) (L.rnd (180 / L.pi)) (180 / π) := c3.rnd hr hu (by linarith) (by norm_num)
  generalize L.arctan2 Y X = A at *
  generalize L.rnd (L.pi / 2) = h at *
  have hupi : u * π ≤ 3.15 * u := by
    rw [mul_comm]; exact mul_le_mul_of_nonneg_right hpi.le hu
  have hupi1 := mul_le_mul_of_nonneg_right hu1 hpi0.le
  have e1 : |(A + h) - (τ + π / 2)| ≤ 2.5 * (u * π) := by
    rw [show (A + h) - (τ + π / 2) = (A - τ) + (h - π / 2) by ring]
    refine (abs_add_le _ _).trans ?_
    linarith
  have e2 : |τ + π / 2| ≤ 1.5 * π := by
    refine (abs_add_le _ _).trans ?_
    rw [abs_of_pos (show 0 < π / 2 by linarith)]; linarith
  have e3 := abs_sub_abs_le_abs_sub (A + h) (τ + π / 2)
  have e4 : |A + h| ≤ 1.6 * π := by linarith
  have e5 := hr (A + h)
  have e6 := mul_le_mul_of_nonneg_left e4 hu
  have e7 := abs_sub_le (L.rnd (A + h)) (A + h) (τ + π / 2)
  have e8 := abs_sub_abs_le_abs_sub (L.rnd (A + h)) (τ + π / 2)
  have e9 : |L.rnd (A + h)| ≤ 1.6 * π := by linarith
  generalize L.rnd (A + h) = T at *
  have g1 : RelNear (6 * u) (L.rnd (T * L.rnd (180 / L.pi))) (T * (180 / π)) :=
    (c4.mul_left T).rnd hr hu (by linarith) (by norm_num)
  have g2 := g1.mul_right (π / 180)
  rw [mul_assoc T, show 180 / π * (π / 180) = 1 by field_simp, mul_one] at g2
  have g3 : |rad (L.rnd (T * L.rnd (180 / L.pi))) - T| ≤ 6 * u * |T| := g2
  have g4 := mul_le_mul_of_nonneg_left e9 (show 0 ≤ 6 * u by linarith)
  have g5 := abs_sub_le (rad (L.rnd (T * L.rnd (180 / L.pi)))) T (τ + π / 2)
  linarith

/-- The sine of half a small angle. -/
theorem sin_half_le {δ : ℝ} (h : 0 ≤ cos (2 * δ)) : |sin δ| ≤ |sin (2 * δ)| := by
  rw [cos_two_mul δ] at h
  have h1 := sin_sq_add_cos_sq δ
  apply sq_le_sq.1
  rw [sin_two_mul]
  nlinarith [sq_nonneg (sin δ)]

/-- A computed angle is near the vertex if the ellipse is clearly elongated. -/
theorem vertex_near {fx fy s θ d n u σ : ℝ} (hu : 0 ≤ u) (hu1 : 1000 * u * σ ≤ 1) (hV : 0 < spread fx fy s)
    (hσ : bulk fx fy s = σ * spread fx fy s)
    (hd : |d - ((s * s + 1) * (fy * fy) - fx * fx)| ≤ 9 * u * bulk fx fy s)
    (hn : |n - 2 * fx * fy * s| ≤ 5 * u * bulk fx fy s)
    (hθ : |2 * θ - Complex.arg ⟨d, n⟩| ≤ 10 * u) : |sin (θ - vertex fx fy s)| ≤ 34 * u * σ := by
  obtain ⟨g1, g2⟩ := direction_near (parts_le fx fy s).1 (parts_le fx fy s).2 hd hn hθ
  rw [← spread_eq] at g1
  rw [← spread_cos, ← spread_sin] at g1 g2
  have hS0 := bulk_nonneg fx fy s
  have e1 : spread fx fy s * cos (2 * vertex fx fy s) * cos (2 * θ) +
      spread fx fy s * sin (2 * vertex fx fy s) * sin (2 * θ) =
      spread fx fy s * cos (2 * (θ - vertex fx fy s)) := by
    rw [mul_sub 2 θ, cos_sub]; ring
  have e2 : spread fx fy s * cos (2 * vertex fx fy s) * sin (2 * θ) -
      spread fx fy s * sin (2 * vertex fx fy s) * cos (2 * θ) =
      spread fx fy s * sin (2 * (θ - vertex fx fy s)) := by
    rw [mul_sub 2 θ, sin_sub]; ring
  rw [e1] at g1
  rw [e2, abs_mul, abs_of_pos hV] at g2
  rw [hσ] at g1 g2 hS0
  generalize spread fx fy s = V at *
  generalize θ - vertex fx fy s = δ at *
  have hσ0 : 0 ≤ σ := by
    by_contra hlt
    have := mul_neg_of_neg_of_pos (not_le.1 hlt) hV
    linarith
  have k1 := mul_le_mul_of_nonneg_right hu1 hV.le
  have k2 : 0 ≤ u * σ * V := mul_nonneg (mul_nonneg hu hσ0) hV.le
  have hc : 0 ≤ cos (2 * δ) := by
    by_contra hlt
    have := mul_neg_of_pos_of_neg hV (not_le.1 hlt)
    linarith
  have hs : V * |sin (2 * δ)| ≤ V * (34 * u * σ) := by linarith
  exact (sin_half_le hc).trans (le_of_mul_le_mul_left hs hV)

/-- **C105** In floating point, the direction of the major axis is off by an angle whose sine is at most
`110 u` times the condition number of the tilt, `R/r * (R² + r²) / (R² - r²)`. -/
theorem C105_tilt (L : FloatLib ℝ) (u : ℝ) (hL : Accurate L u) (fx fy s ρ : ℝ)
    (hx : 0 < fx) (hy : 0 < fy) (hρ : 0 < ρ) (R i t : ℝ)
    (h : Geometry.diskParameters (.fin fx) (.fin fy) (.fin s) (.fin ρ) = (.fin R, .fin i, .fin t))
    (hi : cos (rad i) < 1) (hw : 1000 * u * skew R (R * cos (rad i)) ≤ 1) :
    ∃ R' i' t', GeometryRounded.diskParameters L (.fin fx) (.fin fy) (.fin s) (.fin ρ) =
        (.fin R', .fin i', .fin t') ∧
      |sin (rad t' - rad t)| ≤ 110 * u * skew R (R * cos (rad i)) := by
  have hu := hL.nonneg
  have hd0 := diskParameters_fin fx fy s ρ hx hy hρ
  obtain ⟨a0, i0, t0, hd1, hG, hS, ha0, -, -⟩ := C52_axes fx fy s ρ hx hy hρ
  rw [h] at hd1 hd0
  obtain ⟨rfl, rfl, rfl⟩ : R = a0 ∧ i = i0 ∧ t = t0 := by
    injection hd1 with g1 g2
    injection g2 with g2 g3
    injection g1 with g1
    injection g2 with g2
    injection g3 with g3
    exact ⟨g1, g2, g3⟩
  have hR1 : R = norm2 (sheared fx fy s ρ (vertex fx fy s + π / 2)) := by
    injection hd0 with g1 g2
    injection g1
  have ht : t = tiltRad fx fy s ρ * (180 / π) := by
    injection hd0 with g1 g2
    injection g2 with g2 g3
    injection g3
  have hr1 : R * cos (rad i) = norm2 (sheared fx fy s ρ (vertex fx fy s)) := by
    refine hS.unique ⟨⟨_, rfl⟩, ?_⟩
    rintro _ ⟨θ, rfl⟩; exact (size_bounds fx fy s ρ θ).1
  have hrR : R * cos (rad i) < R := by
    have := mul_lt_mul_of_pos_left hi ha0
    linarith
  set r := R * cos (rad i) with hre
  have hr0 : 0 < r := hr1 ▸ size_pos_sheared fx fy s ρ _ hx hy hρ
  obtain ⟨w1, w2, w3, w4⟩ := skew_props hr0 hrR
  set κ := skew R r with hκ
  set σ := (R ^ 2 + r ^ 2) / (R ^ 2 - r ^ 2) with hσe
  have hκ1 : 1 ≤ κ := w1.trans w3
  have hκ0 : 0 ≤ u * κ := mul_nonneg hu (by linarith)
  have huκ : u ≤ u * κ := le_mul_of_one_le_right hu hκ1
  have huσ : u * σ ≤ u * κ := mul_le_mul_of_nonneg_left w4 hu
  have hu1 : 1000 * u ≤ 1 := by linarith
  have hR2 : 0 < R ^ 2 - r ^ 2 := by nlinarith
  obtain ⟨a, j, t', θ, X, Y, d₂, n, d, hcomp, -, htil, ⟨hX, hY⟩, ⟨hd1, hd2⟩, hd, hn, hθ⟩ :=
    axes_computed hL hu1 hx hy hρ hG hS
  -- the branch taken
  have hgap : 500 * u * R ≤ R - r := by
    have h1 : 1000 * u * σ * (R ^ 2 - r ^ 2) ≤ 1 * (R ^ 2 - r ^ 2) :=
      mul_le_mul_of_nonneg_right (by linarith) hR2.le
    have h2 : σ * (R ^ 2 - r ^ 2) = R ^ 2 + r ^ 2 := by rw [hσe]; field_simp
    have h3 : 1000 * u * (R ^ 2 + r ^ 2) ≤ (R - r) * (R + r) := by
      rw [← h2]; linarith
    have h4 : (R - r) * (R + r) ≤ (R - r) * (2 * R) :=
      mul_le_mul_of_nonneg_left (by linarith) (by linarith)
    have h5 : 0 ≤ u * r ^ 2 := by positivity
    have h6 : (500 * u * R) * (2 * R) ≤ (R - r) * (2 * R) := by linarith
    exact le_of_mul_le_mul_right h6 (by linarith)
  have hlt : L.hypot X Y < d₂ := by linarith
  rw [if_pos hlt] at htil
  -- the angle
  have hspread : ρ ^ 2 * spread fx fy s = R ^ 2 - r ^ 2 := by
    rw [hR1, hr1, sheared_least, sheared_most]; ring
  have hbulk : ρ ^ 2 * bulk fx fy s = R ^ 2 + r ^ 2 := by
    rw [hR1, hr1, sheared_least, sheared_most]; ring
  have hρ2 : 0 < ρ ^ 2 := by positivity
  have hV : 0 < spread fx fy s := by
    by_contra hle
    have := mul_nonpos_of_nonneg_of_nonpos hρ2.le (not_lt.1 hle)
    linarith
  have hσ : bulk fx fy s = σ * spread fx fy s := by
    have e : ρ ^ 2 * bulk fx fy s = ρ ^ 2 * (σ * spread fx fy s) := by
      rw [hbulk, show ρ ^ 2 * (σ * spread fx fy s) = σ * (ρ ^ 2 * spread fx fy s) by ring, hspread, hσe]
      field_simp
    exact mul_left_cancel₀ hρ2.ne' e
  have hδ := vertex_near hu (by linarith) hV hσ hd hn hθ
  -- the cross product
  have hcomb := sheared_comb fx fy s ρ (vertex fx fy s) (θ - vertex fx fy s)
  rw [add_sub_cancel] at hcomb
  have hperp := cross_perp (sheared_perp fx fy s ρ)
  rw [← hR1, ← hr1] at hperp
  have hP1 := fst_le_norm2 (sheared fx fy s ρ (vertex fx fy s))
  have hP2 := snd_le_norm2 (sheared fx fy s ρ (vertex fx fy s))
  have hlow : r ≤ norm2 (sheared fx fy s ρ θ) := hr1 ▸ (size_bounds fx fy s ρ θ).1
  have hcross := cross_eq (sheared fx fy s ρ (vertex fx fy s)) (X, Y)
  rw [← hr1] at hP1 hP2 hcross
  have htilt : rad t = Complex.arg ⟨(sheared fx fy s ρ (vertex fx fy s)).1,
      (sheared fx fy s ρ (vertex fx fy s)).2⟩ + π / 2 := by
    rw [ht]
    unfold rad tiltRad
    simp only
    rw [← hR1, ← hr1, if_pos hrR, mul_assoc, show 180 / π * (π / 180) = 1 by field_simp, mul_one]
  have hnear := norm2_near (X, Y) (sheared fx fy s ρ θ)
  simp only at hcross hnear
  generalize sheared fx fy s ρ (vertex fx fy s) = P at *
  generalize sheared fx fy s ρ (vertex fx fy s + π / 2) = Q at *
  generalize hp : sheared fx fy s ρ θ = p at *
  generalize θ - vertex fx fy s = δ at *
  have hN : 0.97 * r ≤ norm2 (X, Y) := by
    have h1 := (abs_le.1 hnear).1
    have h2 : 1000 * (u * R) ≤ r := by
      have h3 : u * (R / r) ≤ u * κ := mul_le_mul_of_nonneg_left w3 hu
      have h4 : 1000 * (u * (R / r)) * r ≤ 1 * r := mul_le_mul_of_nonneg_right (by linarith) hr0.le
      have h5 : u * (R / r) * r = u * R := by field_simp
      linarith
    linarith
  have hc1 : |P.1 * Y - P.2 * X| ≤ 57 * (u * σ) * (r * R) := by
    have e : P.1 * Y - P.2 * X = sin δ * (P.1 * Q.2 - P.2 * Q.1) + P.1 * (Y - p.2) - P.2 * (X - p.1) := by
      rw [hcomb]; ring
    rw [e]
    refine (abs_sub _ _).trans ((add_le_add (abs_add_le _ _) le_rfl).trans ?_)
    rw [abs_mul, abs_mul, abs_mul, hperp]
    have h1 : |sin δ| * (r * R) ≤ 34 * u * σ * (r * R) := mul_le_mul_of_nonneg_right hδ (by positivity)
    have h2 : |P.1| * |Y - p.2| ≤ r * (5 * u * R) := mul_le_mul hP1 hY (abs_nonneg _) hr0.le
    have h3 : |P.2| * |X - p.1| ≤ r * (18 * u * R) := mul_le_mul hP2 hX (abs_nonneg _) hr0.le
    have h4 : u * 1 * (r * R) ≤ u * σ * (r * R) :=
      mul_le_mul_of_nonneg_right (mul_le_mul_of_nonneg_left w2 hu) (by positivity)
    linarith
  have hsin : |sin (Complex.arg ⟨X, Y⟩ - Complex.arg ⟨P.1, P.2⟩)| ≤ 59 * (u * κ) := by
    rw [hcross, abs_mul, abs_of_nonneg (mul_nonneg hr0.le (size_nonneg _))] at hc1
    generalize |sin (Complex.arg ⟨X, Y⟩ - Complex.arg ⟨P.1, P.2⟩)| = z at hc1
    generalize norm2 (X, Y) = N at *
    have hN0 : 0 < r * N := mul_pos hr0 (by linarith)
    have h1 : 59 * (u * κ) * (r * N) ≥ 57 * (u * σ) * (r * R) := by
      have e : u * κ * r = u * σ * R := by
        rw [hκ]; unfold skew; rw [← hσe]; field_simp
      have h2 : 0.97 * r * (u * κ * r) ≤ N * (u * κ * r) :=
        mul_le_mul_of_nonneg_right hN (mul_nonneg hκ0 hr0.le)
      have h3 : 0 ≤ r * (u * σ * R) := by rw [← e]; positivity
      rw [e] at h2
      have h4 : 59 * (u * κ) * (r * N) = 59 * (N * (u * σ * R)) := by rw [← e]; ring
      rw [h4]
      linarith
    by_contra hlt
    have := mul_lt_mul_of_pos_left (not_le.1 hlt) hN0
    linarith
  refine ⟨a, j, t', hcomp, ?_⟩
  have hfin := tilt_near hL hu1 X Y
  rw [← htil] at hfin
  have h1 := sin_near (rad t' - rad t) (Complex.arg ⟨X, Y⟩ - Complex.arg ⟨P.1, P.2⟩)
  rw [htilt, show rad t' - (Complex.arg ⟨P.1, P.2⟩ + π / 2) - (Complex.arg ⟨X, Y⟩ - Complex.arg ⟨P.1, P.2⟩) =
    rad t' - (Complex.arg ⟨X, Y⟩ + π / 2) by ring] at h1
  rw [htilt]
  have h2 := abs_sub_abs_le_abs_sub (sin (rad t' - (Complex.arg ⟨P.1, P.2⟩ + π / 2)))
    (sin (Complex.arg ⟨X, Y⟩ - Complex.arg ⟨P.1, P.2⟩))
  linarith

/-! ## The disk of a grid point -/

theorem width_props {dy fy fx : ℝ} (hy : 0 < fy)
    (h : Geometry.determineFx (.fin dy) (.fin fy) = .fin fx) :
    0 < fx ∧ 1 ≤ width dy fx ∧ (1 ≤ fy → width dy fx ≤ 1 + 4 * dy ^ 2) := by
  have hd : 0 < fy ^ 2 * (1 + 4 * dy ^ 2) - 4 * dy ^ 2 := by
    by_contra hle
    rw [(C54_fx dy fy hy).1.2 (by linarith)] at h
    cases h
  rw [determineFx_fin dy fy hd] at h
  injection h with h
  have hx : 0 < fx := by rw [← h]; exact div_pos hy (sqrt_pos.2 hd)
  have hx2 : fx ^ 2 * (fy ^ 2 * (1 + 4 * dy ^ 2) - 4 * dy ^ 2) = fy ^ 2 := by
    rw [← h, div_pow, sq_sqrt hd.le]; field_simp
  have hy2 : 0 < fy ^ 2 := by positivity
  have hx2' : 0 < fx ^ 2 := by positivity
  have hdd := sq_nonneg dy
  unfold width
  refine ⟨hx, ?_, fun h1 => ?_⟩
  · have : fy ^ 2 * 1 ≤ fy ^ 2 * (fx ^ 2 * (1 + 4 * dy ^ 2)) := by
      have := mul_nonneg hx2'.le hdd
      nlinarith
    exact le_of_mul_le_mul_left this hy2
  · have g1 : 1 ≤ fy ^ 2 := one_le_pow₀ h1
    have g2 : fy ^ 2 ≤ fy ^ 2 * (1 + 4 * dy ^ 2) - 4 * dy ^ 2 := by nlinarith
    have g3 : fx ^ 2 ≤ 1 := by
      by_contra hlt
      have := mul_lt_mul_of_pos_right (not_le.1 hlt) hd
      linarith
    have := mul_le_mul_of_nonneg_right g3 (show 0 ≤ 1 + 4 * dy ^ 2 by positivity)
    linarith

/-- The ellipse moves little when its parameters do. -/
theorem sheared_near {fx fy s ρ fx' s' ρ' a u R : ℝ} (hx : 0 < fx) (hy : 0 < fy) (hρ : 0 < ρ) (hu : 0 ≤ u)
    (hu1 : 1000 * u ≤ 1) (ha0 : 0 ≤ a) (ha : a ≤ 1) (h1 : RelNear a fx' fx) (h2 : RelNear u s' s) (h3 : RelNear u ρ' ρ)
    (hR : R = norm2 (sheared fx fy s ρ (vertex fx fy s + π / 2))) (θ : ℝ) :
    |norm2 (sheared fx' fy s' ρ' θ) - norm2 (sheared fx fy s ρ θ)| ≤ (a + 6 * u) * R := by
  obtain ⟨c1, c2, c3⟩ := columns_le fx fy s ρ hx hy hρ
  rw [← hR] at c1 c2 c3
  have h1' : |fx' - fx| ≤ a * |fx| := h1
  have h2' : |s' - s| ≤ u * |s| := h2
  have h3' : |ρ' - ρ| ≤ u * |ρ| := h3
  rw [abs_of_pos hx] at h1'
  rw [abs_of_pos hρ] at h3'
  have hc := abs_cos_le_one θ
  have hs := abs_sin_le_one θ
  have hR0 : 0 ≤ R := hR ▸ size_nonneg _
  have k0 : |ρ'| ≤ (1 + u) * ρ := by
    have := abs_sub_abs_le_abs_sub ρ' ρ
    rw [abs_of_pos hρ] at this
    linarith
  -- the parts
  have k1 : |fx' * (ρ' * cos θ) - fx * (ρ * cos θ)| ≤ (a + 2 * u) * R := by
    rw [show fx' * (ρ' * cos θ) - fx * (ρ * cos θ) = ((fx' - fx) * ρ' + fx * (ρ' - ρ)) * cos θ by ring, abs_mul]
    have e1 : |(fx' - fx) * ρ' + fx * (ρ' - ρ)| ≤ (a + 2 * u) * (fx * ρ) := by
      refine (abs_add_le _ _).trans ?_
      rw [abs_mul, abs_mul, abs_of_pos hx]
      have f1 : |fx' - fx| * |ρ'| ≤ (a * fx) * ((1 + u) * ρ) :=
        mul_le_mul h1' k0 (abs_nonneg _) (by positivity)
      have f2 : fx * |ρ' - ρ| ≤ fx * (u * ρ) := mul_le_mul_of_nonneg_left h3' hx.le
      have f3 : a * u * (fx * ρ) ≤ 1 * u * (fx * ρ) :=
        mul_le_mul_of_nonneg_right (mul_le_mul_of_nonneg_right ha hu) (mul_pos hx hρ).le
      linarith
    calc _ ≤ (a + 2 * u) * (fx * ρ) * 1 := mul_le_mul e1 hc (abs_nonneg _) (by positivity)
      _ ≤ _ := by rw [mul_one]; exact mul_le_mul_of_nonneg_left c1 (by positivity)
  have k2 : |s' * (fy * (ρ' * sin θ)) - s * (fy * (ρ * sin θ))| ≤ 3 * u * R := by
    rw [show s' * (fy * (ρ' * sin θ)) - s * (fy * (ρ * sin θ)) = ((s' - s) * ρ' + s * (ρ' - ρ)) * (fy * sin θ)
      by ring, abs_mul, abs_mul, abs_of_pos hy]
    have e1 : |(s' - s) * ρ' + s * (ρ' - ρ)| ≤ 3 * u * (|s| * ρ) := by
      refine (abs_add_le _ _).trans ?_
      rw [abs_mul, abs_mul]
      have f1 : |s' - s| * |ρ'| ≤ (u * |s|) * ((1 + u) * ρ) :=
        mul_le_mul h2' k0 (abs_nonneg _) (by positivity)
      have f2 : |s| * |ρ' - ρ| ≤ |s| * (u * ρ) := mul_le_mul_of_nonneg_left h3' (abs_nonneg s)
      have f3 : u * u * (|s| * ρ) ≤ 1 * u * (|s| * ρ) :=
        mul_le_mul_of_nonneg_right (mul_le_mul_of_nonneg_right (by linarith) hu) (by positivity)
      linarith
    calc _ ≤ 3 * u * (|s| * ρ) * (fy * 1) := mul_le_mul e1 (mul_le_mul_of_nonneg_left hs hy.le) (by positivity)
          (by positivity)
      _ = 3 * u * (|s| * (fy * ρ)) := by ring
      _ ≤ _ := mul_le_mul_of_nonneg_left c3 (by positivity)
  have k3 : |fy * (ρ' * sin θ) - fy * (ρ * sin θ)| ≤ u * R := by
    rw [show fy * (ρ' * sin θ) - fy * (ρ * sin θ) = (ρ' - ρ) * (fy * sin θ) by ring, abs_mul, abs_mul,
      abs_of_pos hy]
    calc _ ≤ u * ρ * (fy * 1) := mul_le_mul h3' (mul_le_mul_of_nonneg_left hs hy.le) (by positivity)
          (by positivity)
      _ = u * (fy * ρ) := by ring
      _ ≤ _ := mul_le_mul_of_nonneg_left c2 hu
  refine (norm2_near _ _).trans ?_
  unfold sheared
  simp only
  have k4 : |fx' * (ρ' * cos θ) - s' * (fy * (ρ' * sin θ)) - (fx * (ρ * cos θ) - s * (fy * (ρ * sin θ)))| ≤
      (a + 5 * u) * R := by
    rw [show fx' * (ρ' * cos θ) - s' * (fy * (ρ' * sin θ)) - (fx * (ρ * cos θ) - s * (fy * (ρ * sin θ))) =
      (fx' * (ρ' * cos θ) - fx * (ρ * cos θ)) - (s' * (fy * (ρ' * sin θ)) - s * (fy * (ρ * sin θ))) by ring]
    refine (abs_sub _ _).trans ?_
    linarith
  linarith

theorem ratio_near' {r R r' R' e : ℝ} (he : 0 ≤ e) (he1 : 25 * e ≤ 1) (hr : 0 ≤ r) (hrR : r ≤ R) (hR : 0 < R)
    (h1 : |r' - r| ≤ e * R) (h2 : |R' - R| ≤ e * R) : |r' / R' - r / R| ≤ 2.1 * e := by
  have hR' : 0.96 * R ≤ R' := by
    have := (abs_le.1 h2).1
    have := mul_le_mul_of_nonneg_right he1 hR.le
    linarith
  have hR0 : 0 < R' := by linarith
  rw [div_sub_div _ _ hR0.ne' hR.ne', abs_div, abs_of_pos (mul_pos hR0 hR), div_le_iff₀ (mul_pos hR0 hR)]
  have e0 : r' * R - R' * r = (r' - r) * R - (R' - R) * r := by ring
  rw [e0]
  refine (abs_sub _ _).trans ?_
  rw [abs_mul, abs_mul, abs_of_pos hR, abs_of_nonneg hr]
  have e1 := mul_le_mul_of_nonneg_right h1 hR.le
  have e2 : |R' - R| * r ≤ e * R * R :=
    mul_le_mul h2 hrR hr ((abs_nonneg _).trans h2)
  have e3 := mul_le_mul_of_nonneg_left hR' (mul_nonneg he hR.le)
  have e4 : 0 ≤ e * R * R := mul_nonneg (mul_nonneg he hR.le) hR.le
  nlinarith

theorem shear_near {L : FloatLib ℝ} {u : ℝ} (hL : Accurate L u) (dx dy : ℝ) (h : dy ≠ 0 ∨ dx = 0) :
    ∃ s, GeometryRounded.shear L (.fin dx) (.fin dy) = .fin s ∧ RelNear u s (shearOf dx dy) := by
  unfold GeometryRounded.shear shearOf
  by_cases hy : dy = 0
  · have hx : dx = 0 := h.resolve_left (fun h => h hy)
    refine ⟨0, ?_, ?_⟩
    · simp [XF.eqb_fin, hy, hx]
    · rw [if_pos hy]; exact RelNear.refl 0 hL.nonneg
  · refine ⟨L.rnd (-dx / dy), ?_, ?_⟩
    · simp only [XF.eqb_fin, hy, decide_false, Bool.not_false, if_true, Bool.false_and,
        Bool.false_eq_true, if_false, XF.neg_fin]
      exact L.div_fin _ _ hy
    · rw [if_neg hy]; exact hL.rnd _

/-- The largest of sizes that are all near others. -/
theorem sup_near {f g : ℝ → ℝ} {F G e : ℝ} (h : ∀ θ, |f θ - g θ| ≤ e) (hF : IsGreatest (Set.range f) F)
    (hG : IsGreatest (Set.range g) G) : |F - G| ≤ e := by
  obtain ⟨⟨a, rfl⟩, hF⟩ := hF
  obtain ⟨⟨b, rfl⟩, hG⟩ := hG
  have h1 := (abs_le.1 (h a)).2
  have h2 := (abs_le.1 (h b)).1
  have h3 : f b ≤ f a := hF ⟨b, rfl⟩
  have h4 : g a ≤ g b := hG ⟨a, rfl⟩
  exact abs_le.2 ⟨by linarith, by linarith⟩

theorem inf_near {f g : ℝ → ℝ} {F G e : ℝ} (h : ∀ θ, |f θ - g θ| ≤ e) (hF : IsLeast (Set.range f) F)
    (hG : IsLeast (Set.range g) G) : |F - G| ≤ e := by
  obtain ⟨⟨a, rfl⟩, hF⟩ := hF
  obtain ⟨⟨b, rfl⟩, hG⟩ := hG
  have h1 := (abs_le.1 (h b)).2
  have h2 := (abs_le.1 (h a)).1
  have h3 : f a ≤ f b := hF ⟨b, rfl⟩
  have h4 : g b ≤ g a := hG ⟨a, rfl⟩
  exact abs_le.2 ⟨by linarith, by linarith⟩

/-- **C105** The disk that is computed in floating point for a grid point and a scale factor, all the way
from their values, has the radius of the true disk up to a relative error of `170 u` times the squared width
of the disk, and the cosine of its inclination is off by at most `400 u` times that. -/
theorem C105_disk (L : FloatLib ℝ) (u : ℝ) (hL : Accurate L u) (dx dy fy fx R i t : ℝ)
    (h : dy ≠ 0 ∨ dx = 0) (hy : 0 < fy) (hfx : Geometry.determineFx (.fin dy) (.fin fy) = .fin fx)
    (hdisk : Geometry.diskParameters (Geometry.determineFx (.fin dy) (.fin fy)) (.fin fy)
      (Geometry.shear (.fin dx) (.fin dy)) (Geometry.circularRadius (.fin dy)) = (.fin R, .fin i, .fin t))
    (hw : 1000 * u * width dy fx ≤ 1) :
    ∃ R' i' t', GeometryRounded.diskAt L (.fin dx) (.fin dy) (.fin fy) = (.fin R', .fin i', .fin t') ∧
      |R' - R| ≤ 170 * u * width dy fx * R ∧ |cos (rad i') - cos (rad i)| ≤ 400 * u * width dy fx := by
  have hu := hL.nonneg
  obtain ⟨hx, hκ, -⟩ := width_props hy hfx
  obtain ⟨fx', e1, n1, -, hx'⟩ := C104_fx_partial L u hL dy fy fx hy hfx (by
    have : 0 ≤ u * width dy fx := mul_nonneg hu (by linarith)
    linarith)
  obtain ⟨s', e2, n2⟩ := shear_near hL dx dy h
  set κ := width dy fx
  have huκ : u ≤ u * κ := by nlinarith
  have hu1 : 1000 * u ≤ 1 := by linarith
  set ρ := √(1 / 4 + dy ^ 2) with hρe
  have hρ : 0 < ρ := sqrt_pos.2 (by positivity)
  have n3 : RelNear u (L.hypot (1 / 2) dy) ρ := by
    have := hL.hypot (1 / 2) dy
    rwa [show (1 / 2 : ℝ) ^ 2 + dy ^ 2 = 1 / 4 + dy ^ 2 by norm_num] at this
  have hρ' : 0 < L.hypot (1 / 2) dy := n3.pos hρ (by linarith)
  rw [hfx, shear_ok dx dy h, circularRadius_fin] at hdisk
  obtain ⟨a0, i0, t0, hd0, hG, hS, ha0, -, -⟩ := C52_axes fx fy (shearOf dx dy) ρ hx hy hρ
  rw [hd0] at hdisk
  obtain ⟨rfl, rfl, rfl⟩ : a0 = R ∧ i0 = i ∧ t0 = t := by
    injection hdisk with g1 g2
    injection g2 with g2 g3
    injection g1 with g1
    injection g2 with g2
    injection g3 with g3
    exact ⟨g1, g2, g3⟩
  obtain ⟨a1, i1, t1, -, hG', hS', ha1, -, -⟩ := C52_axes fx' fy s' _ hx' hy hρ'
  obtain ⟨a, j, t', hd, k1, -, k2⟩ := C105_axes L u hL hu1 fx' fy s' _ hx' hy hρ' _ _ hG' hS'
  have hR1 : a0 = norm2 (sheared fx fy (shearOf dx dy) ρ (vertex fx fy (shearOf dx dy) + π / 2)) := by
    refine hG.unique ⟨⟨_, rfl⟩, ?_⟩
    rintro _ ⟨θ, rfl⟩; exact (size_bounds fx fy (shearOf dx dy) ρ θ).2
  have near := sheared_near hx hy hρ hu hu1 (a := 34 * u * κ) (by positivity) (by linarith) n1 n2 n3 hR1
  have near' : ∀ θ, |norm2 (sheared fx' fy s' (L.hypot (1 / 2) dy) θ) -
      norm2 (sheared fx fy (shearOf dx dy) ρ θ)| ≤ 40 * u * κ * a0 := fun θ =>
    (near θ).trans (mul_le_mul_of_nonneg_right (by linarith) ha0.le)
  have m1 := sup_near near' hG' hG
  have m2 := inf_near near' hS' hS
  have hu40 : 0 ≤ 40 * u * κ := by positivity
  refine ⟨a, j, t', ?_, ?_, ?_⟩
  · unfold GeometryRounded.diskAt
    rw [e1, e2, ← hd]
    rfl
  · have b1 : a1 ≤ 1.04 * a0 := by
      have := (abs_le.1 m1).2
      have := mul_le_mul_of_nonneg_right hw ha0.le
      linarith
    have b2 := mul_le_mul_of_nonneg_left b1 (mul_nonneg (show (0 : ℝ) ≤ 117 by norm_num) hu)
    have b3 := mul_le_mul_of_nonneg_right huκ ha0.le
    have b4 := abs_sub_le a a1 a0
    have b5 := mul_nonneg hu40 ha0.le
    linarith
  · rw [mul_div_cancel_left₀ _ ha1.ne'] at k2
    have hS0 : 0 ≤ a0 * cos (rad i0) := by
      obtain ⟨⟨θ, hθ⟩, -⟩ := hS
      rw [← hθ]; exact size_nonneg _
    have hS1 : a0 * cos (rad i0) ≤ a0 := by
      have := mul_le_mul_of_nonneg_left (cos_le_one (rad i0)) ha0.le
      linarith
    have b1 := ratio_near' hu40 (by linarith) hS0 hS1 ha0 m2 m1
    rw [mul_div_cancel_left₀ _ ha0.ne', mul_div_cancel_left₀ _ ha1.ne'] at b1
    have b4 := abs_sub_le (cos (rad j)) (cos (rad i1)) (cos (rad i0))
    linarith

/-- **C105** In binary64 with functions accurate to 2^-50, for disks that are stretched along y and centred
at most 100 eclipse durations from the star path: the radius is right to one part in 10^8, and the cosine of
the inclination to 2 parts. -/
theorem C105_double (L : FloatLib ℝ) (u : ℝ) (hL : Accurate L u) (hu : u ≤ 1 / 2 ^ 50) (dx dy fy R i t : ℝ)
    (h : dy ≠ 0 ∨ dx = 0) (hdy : |dy| ≤ 100) (hy : 1 ≤ fy)
    (hdisk : Geometry.diskParameters (Geometry.determineFx (.fin dy) (.fin fy)) (.fin fy)
      (Geometry.shear (.fin dx) (.fin dy)) (Geometry.circularRadius (.fin dy)) = (.fin R, .fin i, .fin t)) :
    ∃ R' i' t', GeometryRounded.diskAt L (.fin dx) (.fin dy) (.fin fy) = (.fin R', .fin i', .fin t') ∧
      |R' - R| ≤ 1 / 10 ^ 8 * R ∧ |cos (rad i') - cos (rad i)| ≤ 2 / 10 ^ 8 := by
  have hu0 := hL.nonneg
  have hd : 0 < fy ^ 2 * (1 + 4 * dy ^ 2) - 4 * dy ^ 2 := by
    have : 1 ≤ fy ^ 2 := one_le_pow₀ hy
    have := mul_le_mul_of_nonneg_right this (show 0 ≤ 1 + 4 * dy ^ 2 by positivity)
    linarith
  have hfx := determineFx_fin dy fy hd
  obtain ⟨hx, h1, h2⟩ := width_props (by linarith) hfx
  have h3 := h2 hy
  have h4 : dy ^ 2 ≤ 100 ^ 2 := by rw [← sq_abs]; exact pow_le_pow_left₀ (abs_nonneg dy) hdy 2
  have h5 : width dy (fy / √(fy ^ 2 * (1 + 4 * dy ^ 2) - 4 * dy ^ 2)) ≤ 40001 := by linarith
  have h6 : u * width dy (fy / √(fy ^ 2 * (1 + 4 * dy ^ 2) - 4 * dy ^ 2)) ≤ 1 / 2 ^ 50 * 40001 :=
    mul_le_mul hu h5 (by linarith) (by positivity)
  obtain ⟨R', i', t', e, n1, n2⟩ := C105_disk L u hL dx dy fy _ R i t h (by linarith) hfx hdisk
    (by linarith)
  have hR : 0 ≤ R := by
    obtain ⟨a, j, t'', hd', -, -, ha, -⟩ := C52_axes _ fy (shearOf dx dy) √(1 / 4 + dy ^ 2) hx (by linarith)
      (sqrt_pos.2 (by positivity))
    rw [hfx, shear_ok dx dy h, circularRadius_fin, hd'] at hdisk
    injection hdisk with g1 g2
    injection g1 with g1
    linarith
  refine ⟨R', i', t', e, n1.trans (mul_le_mul_of_nonneg_right ?_ hR), n2.trans ?_⟩
  · norm_num at h6 ⊢; linarith
  · norm_num at h6 ⊢; linarith

end Beyonce
